import Mathlib.Data.Matrix.Mul
import Mathlib.Data.Matrix.Basic
import Mathlib.Analysis.SpecialFunctions.Pow.Real
import Mathlib.Analysis.Real.Sqrt
import Mathlib.LinearAlgebra.CrossProduct
import Mathlib.LinearAlgebra.Matrix.Determinant.Basic
import Mathlib.LinearAlgebra.Matrix.Notation

/-!
# Vectors and matrices

The Eigen types of `include/opengv/types.hpp`, with `double` replaced by `ℝ`.
-/

namespace OpenGV

/-- `Eigen::Vector3d` (`translation_t`, `bearingVector_t`, `point_t`, `cayley_t`). -/
abbrev Vec3 := Fin 3 → ℝ

/-- `Eigen::Matrix3d` (`rotation_t`, `essential_t`). -/
abbrev Mat3 := Matrix (Fin 3) (Fin 3) ℝ

/-- Eigen's `norm()`. -/
noncomputable def norm3 (v : Vec3) : ℝ := √(v ⬝ᵥ v)

/-- `v / v.norm()`; `none` is a division by zero (NaN entries). -/
noncomputable def normalize3 (v : Vec3) : Option Vec3 :=
  if norm3 v = 0 then none else some ((norm3 v)⁻¹ • v)

/-- A rotation matrix. -/
def IsRot (R : Mat3) : Prop := R.transpose * R = 1 ∧ R.det = 1

end OpenGV
