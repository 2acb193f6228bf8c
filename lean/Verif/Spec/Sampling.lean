import Mathlib.Data.Real.Basic
import Mathlib.Data.List.Basic
import Mathlib.Logic.Function.Basic

/-! Specification vocabulary for sampling and inlier selection. Independent of the model. -/

namespace OpenGV.Spec

/-- `s` consists of `k` entries of `indices` taken from pairwise different positions. -/
def IsSampleOf (indices : List ℤ) (k : ℕ) (s : List ℤ) : Prop :=
  s.length = k ∧ ∃ f : Fin s.length → Fin indices.length, Function.Injective f ∧
    ∀ i, s.get i = indices.get (f i)

/-- `ins` is the list of those `indices[i]`, in order, whose `dist[i]` satisfies `P`. -/
inductive Selected (P : ℝ → Prop) : List ℤ → List ℝ → List ℤ → Prop where
  | nil : Selected P [] [] []
  | keep {i d is ds ins} : P d → Selected P is ds ins → Selected P (i :: is) (d :: ds) (i :: ins)
  | skip {i d is ds ins} : ¬ P d → Selected P is ds ins → Selected P (i :: is) (d :: ds) ins

end OpenGV.Spec

namespace OpenGV.Spec

open Classical in
/-- Number of distances strictly below the threshold. -/
noncomputable def support (d : List ℝ) (thr : ℝ) : ℕ := d.countP (fun x => x < thr)

/-- `s` is a per-group sample: group `j` consists of `sizes[j]` entries of `indices[j]` at different
positions. -/
def IsMultiSampleOf (indices : List (List ℤ)) (sizes : List ℕ) (s : List (List ℤ)) : Prop :=
  s.length = sizes.length ∧ ∀ (j : ℕ) (ix : List ℤ) (k : ℕ) (t : List ℤ),
    indices[j]? = some ix → sizes[j]? = some k →
    s[j]? = some t → IsSampleOf ix k t

end OpenGV.Spec
