import Verif.Model.Geometry
import Mathlib.LinearAlgebra.Matrix.Adjugate

/-!
# Model of `src/math/cayley.cpp` and `src/math/quaternion.cpp`
-/

namespace OpenGV

/-- `cayley2rot_reduced` (src/math/cayley.cpp lines 54-70). -/
def cayley2rotReduced (c : Vec3) : Mat3 :=
  !![1 + c 0 ^ 2 - c 1 ^ 2 - c 2 ^ 2, 2 * (c 0 * c 1 - c 2), 2 * (c 0 * c 2 + c 1);
     2 * (c 0 * c 1 + c 2), 1 - c 0 ^ 2 + c 1 ^ 2 - c 2 ^ 2, 2 * (c 1 * c 2 - c 0);
     2 * (c 0 * c 2 - c 1), 2 * (c 1 * c 2 + c 0), 1 - c 0 ^ 2 - c 1 ^ 2 + c 2 ^ 2]

/-- `cayley2rot` (src/math/cayley.cpp lines 33-52). The scale is never zero. -/
noncomputable def cayley2rot (c : Vec3) : Mat3 :=
  let scale := 1 + c 0 ^ 2 + c 1 ^ 2 + c 2 ^ 2
  let R : Mat3 :=
    !![1 + c 0 ^ 2 - c 1 ^ 2 - c 2 ^ 2, 2 * (c 0 * c 1 - c 2), 2 * (c 0 * c 2 + c 1);
       2 * (c 0 * c 1 + c 2), 1 - c 0 ^ 2 + c 1 ^ 2 - c 2 ^ 2, 2 * (c 1 * c 2 - c 0);
       2 * (c 0 * c 2 - c 1), 2 * (c 1 * c 2 + c 0), 1 - c 0 ^ 2 - c 1 ^ 2 + c 2 ^ 2]
  (1 / scale) • R

/-- `rot2cayley` (src/math/cayley.cpp lines 72-88). Eigen's 3x3 inverse is the adjugate over the
determinant; `none` is a zero determinant (non-finite entries). -/
noncomputable def rot2cayley (R : Mat3) : Option Vec3 :=
  let C1 := R - 1
  let C2 := R + 1
  if C2.det = 0 then none
  else
    let C := C1 * ((C2.det)⁻¹ • C2.adjugate)
    some ![-(C 1 2), C 0 2, -(C 0 1)]

/-- `quaternion_t`: `q[0]` is the scalar part. -/
abbrev Quat := Fin 4 → ℝ

/-- `quaternion2rot` (src/math/quaternion.cpp lines 34-50). -/
def quaternion2rot (q : Quat) : Mat3 :=
  !![q 0 ^ 2 + q 1 ^ 2 - q 2 ^ 2 - q 3 ^ 2, 2 * (q 1 * q 2 - q 0 * q 3), 2 * (q 1 * q 3 + q 0 * q 2);
     2 * (q 1 * q 2 + q 0 * q 3), q 0 ^ 2 - q 1 ^ 2 + q 2 ^ 2 - q 3 ^ 2, 2 * (q 2 * q 3 - q 0 * q 1);
     2 * (q 1 * q 3 - q 0 * q 2), 2 * (q 2 * q 3 + q 0 * q 1), q 0 ^ 2 - q 1 ^ 2 - q 2 ^ 2 + q 3 ^ 2]

/-- `x *= (s / fabs(s))`; `none` is `0/0` (NaN, whatever `x` is). -/
noncomputable def signed (x s : ℝ) : Option ℝ := if s = 0 then none else some (x * (s / |s|))

/-- The clamped square root of the component squares (src/math/quaternion.cpp lines 57-68). -/
noncomputable def clampSqrt (x : ℝ) : ℝ := √(if x < 0 then 0 else x)

/-- Four possibly undefined components, normalised (lines 102-106). -/
noncomputable def finishQuat (a b c d : Option ℝ) : Option Quat :=
  match a, b, c, d with
  | some a, some b, some c, some d =>
    let scale := √(a * a + b * b + c * c + d * d)
    if scale = 0 then none else some ![a / scale, b / scale, c / scale, d / scale]
  | _, _, _, _ => none

open Classical in
/-- `rot2quaternion` (src/math/quaternion.cpp lines 52-109). -/
noncomputable def rot2quaternion (R : Mat3) : Option Quat :=
  let q0 := clampSqrt ((R 0 0 + R 1 1 + R 2 2 + 1) / 4)
  let q1 := clampSqrt ((R 0 0 - R 1 1 - R 2 2 + 1) / 4)
  let q2 := clampSqrt ((-R 0 0 + R 1 1 - R 2 2 + 1) / 4)
  let q3 := clampSqrt ((-R 0 0 - R 1 1 + R 2 2 + 1) / 4)
  if q0 ≥ q1 ∧ q0 ≥ q2 ∧ q0 ≥ q3 then
    finishQuat (some q0) (signed q1 (R 2 1 - R 1 2)) (signed q2 (R 0 2 - R 2 0))
      (signed q3 (R 1 0 - R 0 1))
  else if q1 ≥ q0 ∧ q1 ≥ q2 ∧ q1 ≥ q3 then
    finishQuat (signed q0 (R 2 1 - R 1 2)) (some q1) (signed q2 (R 1 0 + R 0 1))
      (signed q3 (R 0 2 + R 2 0))
  else if q2 ≥ q0 ∧ q2 ≥ q1 ∧ q2 ≥ q3 then
    finishQuat (signed q0 (R 0 2 - R 2 0)) (signed q1 (R 1 0 + R 0 1)) (some q2)
      (signed q3 (R 2 1 + R 1 2))
  else if q3 ≥ q0 ∧ q3 ≥ q1 ∧ q3 ≥ q2 then
    finishQuat (signed q0 (R 1 0 - R 0 1)) (signed q1 (R 2 0 + R 0 2)) (signed q2 (R 2 1 + R 1 2))
      (some q3)
  else finishQuat (some q0) (some q1) (some q2) (some q3)

end OpenGV
