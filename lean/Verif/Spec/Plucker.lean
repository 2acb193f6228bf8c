import Verif.Model.Adapters

/-!
# Viewing lines of a generalised camera in two body frames
-/

namespace OpenGV.Spec

open Matrix Adapters

/-- The bilinear form of two viewing lines given by a pair of 3x3 matrices: with the directions
`d1`, `d2` in the body frames and the moments `m = v × d` it is `d2ᵀ F d1 + d2ᵀ S m1 + m2ᵀ S d1`. -/
def lineForm (F S : Mat3) (o : RelObs) : ℝ :=
  let d1 := o.rot1 *ᵥ o.f1
  let d2 := o.rot2 *ᵥ o.f2
  d2 ⬝ᵥ (F *ᵥ d1) + d2 ⬝ᵥ (S *ᵥ crossProduct o.off1 d1) + crossProduct o.off2 d2 ⬝ᵥ (S *ᵥ d1)

/-- The two viewing lines are in one plane when frame 2 is placed with the pose `(t, R)`: the vector
between the camera centres and the two directions are linearly dependent. -/
def LinesCoplanar (R : Mat3) (t : Vec3) (o : RelObs) : Prop :=
  (R *ᵥ o.off2 + t - o.off1) ⬝ᵥ
    crossProduct (R *ᵥ (o.rot2 *ᵥ o.f2)) (o.rot1 *ᵥ o.f1) = 0

end OpenGV.Spec
