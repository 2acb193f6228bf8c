import Verif.Model.Geometry

/-!
# Vocabulary for EPnP
-/

namespace OpenGV.Spec

open Matrix

/-- All points lie in one plane. -/
def Coplanar (ps : List Vec3) : Prop := ∃ y : Vec3, y ≠ 0 ∧ ∃ d : ℝ, ∀ p ∈ ps, y ⬝ᵥ p = d

/-- `x` solves the least-squares problem for `A` and `b`: the normal equations. -/
def IsLeastSquares {m n : ℕ} (A : Matrix (Fin m) (Fin n) ℝ) (b : Fin m → ℝ) (x : Fin n → ℝ) : Prop :=
  ∀ j, (fun i => A i j) ⬝ᵥ (b - A *ᵥ x) = 0

end OpenGV.Spec
