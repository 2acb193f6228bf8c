import Verif.Model.Geometry

/-!
# The generalised epipolar constraint
-/

namespace OpenGV.Spec

open Matrix

/-- Two rays in the frames of two multi-camera rigs: each starts at the camera position `o` in the
direction `C f`, where `C` is the orientation of the camera and `f` the bearing vector. They are
consistent with the relative pose `(t, R)` when they meet at a point, given by the distances `a` and
`b`. -/
def RaysMeet (C1 C2 : Mat3) (f1 f2 o1 o2 t : Vec3) (R : Mat3) : Prop :=
  ∃ a b : ℝ, o1 + a • (C1 *ᵥ f1) = t + R *ᵥ (o2 + b • (C2 *ᵥ f2))

/-- The generalised epipolar residual for the homogeneous translation `(t, s)`: the scalar product
of the normal `C1 f1 x R C2 f2` with the vector `t + s (R o2 - o1)` between the two cameras. -/
noncomputable def genResidual (C1 C2 : Mat3) (f1 f2 o1 o2 : Vec3) (R : Mat3) (v : Fin 4 → ℝ) : ℝ :=
  crossProduct (C1 *ᵥ f1) (R *ᵥ (C2 *ᵥ f2)) ⬝ᵥ (![v 0, v 1, v 2] + v 3 • (R *ᵥ o2 - o1))

end OpenGV.Spec
