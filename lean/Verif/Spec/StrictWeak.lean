/-!
# What `std::sort` requires of the comparison
-/

namespace OpenGV.Spec

/-- `lt` is a strict weak order on the entries of `l`: irreflexive and transitive, and so is being
incomparable. -/
def StrictWeakOn {α : Type} (lt : α → α → Prop) (l : List α) : Prop :=
  (∀ x ∈ l, ¬lt x x) ∧ (∀ x ∈ l, ∀ y ∈ l, ∀ z ∈ l, lt x y → lt y z → lt x z) ∧
  ∀ x ∈ l, ∀ y ∈ l, ∀ z ∈ l, ¬lt x y → ¬lt y x → ¬lt y z → ¬lt z y → ¬lt x z ∧ ¬lt z x

end OpenGV.Spec
