import Verif.Model.Geometry

/-!
# Epipolar plane normals
-/

namespace OpenGV.Spec

open Matrix

/-- The sum over correspondences `(weight, f1, f2)` of `weight * n n'`, where `n = f1 x R f2` is the
normal of the epipolar plane. -/
def normalGram (R : Mat3) (cs : List (ℝ × Vec3 × Vec3)) : Mat3 :=
  (cs.map fun c => c.1 • vecMulVec (crossProduct c.2.1 (R *ᵥ c.2.2))
    (crossProduct c.2.1 (R *ᵥ c.2.2))).sum

/-- `x` is the smallest eigenvalue of `M`: there is an eigenvector, and no vector has a smaller
Rayleigh quotient. -/
def IsSmallestEV (M : Mat3) (x : ℝ) : Prop :=
  (∃ v : Vec3, v ≠ 0 ∧ M *ᵥ v = x • v) ∧ ∀ v : Vec3, x * (v ⬝ᵥ v) ≤ v ⬝ᵥ (M *ᵥ v)

end OpenGV.Spec
