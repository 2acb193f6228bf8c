import Verif.Model.Geometry

/-!
# Geometric vocabulary for the minimal absolute pose solvers
-/

namespace OpenGV.Spec

open Matrix

/-- A camera with the pose `(t, R)` sees the point `P` along the bearing vector `f`, at a positive
depth. -/
def Sees (t : Vec3) (R : Mat3) (f P : Vec3) : Prop := ∃ l : ℝ, 0 < l ∧ P = t + l • (R *ᵥ f)

/-- The orthogonal projection of `P3` on the plane of `P1`, `P2` and `t` is on a circle through these
three points: `q` is the projection and `o` has the same distance from all four points. -/
def ProjectionConcyclic (P1 P2 P3 t : Vec3) : Prop :=
  ∃ q o : Vec3, ∃ s : ℝ, q = P3 - s • crossProduct (P2 - P1) (t - P1) ∧
    (q - P1) ⬝ᵥ crossProduct (P2 - P1) (t - P1) = 0 ∧
    (P1 - o) ⬝ᵥ (P1 - o) = (q - o) ⬝ᵥ (q - o) ∧
    (P2 - o) ⬝ᵥ (P2 - o) = (q - o) ⬝ᵥ (q - o) ∧
    (t - o) ⬝ᵥ (t - o) = (q - o) ⬝ᵥ (q - o)

end OpenGV.Spec
