import Verif.Model.Cayley
import Verif.Proof.Geometry
import Mathlib.LinearAlgebra.Matrix.Trace

namespace OpenGV

open Matrix

/-- The adjugate of a rotation is its transpose. -/
theorem rot_adjugate {R : Mat3} (h : IsRot R) : R.adjugate = R.transpose := by
  have h1 := h.1
  have h2 : R.adjugate * R = 1 := by rw [adjugate_mul, h.2, one_smul]
  have h3 := rot_mul_transpose h1
  calc R.adjugate = R.adjugate * (R * R.transpose) := by rw [h3, Matrix.mul_one]
    _ = R.transpose := by rw [← Matrix.mul_assoc, h2, Matrix.one_mul]

/-- The entries of a rotation are its cofactors. -/
theorem rot_cof {R : Mat3} (h : IsRot R) :
    R 0 0 = R 1 1 * R 2 2 - R 1 2 * R 2 1 ∧ R 0 1 = R 1 2 * R 2 0 - R 1 0 * R 2 2 ∧
    R 0 2 = R 1 0 * R 2 1 - R 1 1 * R 2 0 ∧ R 1 0 = R 0 2 * R 2 1 - R 0 1 * R 2 2 ∧
    R 1 1 = R 0 0 * R 2 2 - R 0 2 * R 2 0 ∧ R 1 2 = R 0 1 * R 2 0 - R 0 0 * R 2 1 ∧
    R 2 0 = R 0 1 * R 1 2 - R 0 2 * R 1 1 ∧ R 2 1 = R 0 2 * R 1 0 - R 0 0 * R 1 2 ∧
    R 2 2 = R 0 0 * R 1 1 - R 0 1 * R 1 0 := by
  have h1 := rot_adjugate h
  rw [adjugate_fin_three] at h1
  have e := fun i j => congrFun (congrFun h1 i) j
  have e00 := e 0 0
  have e01 := e 0 1
  have e02 := e 0 2
  have e10 := e 1 0
  have e11 := e 1 1
  have e12 := e 1 2
  have e20 := e 2 0
  have e21 := e 2 1
  have e22 := e 2 2
  simp at e00 e01 e02 e10 e11 e12 e20 e21 e22
  refine ⟨?_, ?_, ?_, ?_, ?_, ?_, ?_, ?_, ?_⟩ <;> linarith

/-- Orthonormal columns. -/
theorem rot_cols {R : Mat3} (h : R.transpose * R = 1) :
    R 0 0 ^ 2 + R 1 0 ^ 2 + R 2 0 ^ 2 = 1 ∧ R 0 1 ^ 2 + R 1 1 ^ 2 + R 2 1 ^ 2 = 1 ∧
    R 0 2 ^ 2 + R 1 2 ^ 2 + R 2 2 ^ 2 = 1 ∧
    R 0 0 * R 0 1 + R 1 0 * R 1 1 + R 2 0 * R 2 1 = 0 ∧
    R 0 0 * R 0 2 + R 1 0 * R 1 2 + R 2 0 * R 2 2 = 0 ∧
    R 0 1 * R 0 2 + R 1 1 * R 1 2 + R 2 1 * R 2 2 = 0 := by
  have e := fun i j => congrFun (congrFun h i) j
  have e00 := e 0 0
  have e01 := e 0 1
  have e02 := e 0 2
  have e11 := e 1 1
  have e12 := e 1 2
  have e22 := e 2 2
  simp [Matrix.mul_apply, Fin.sum_univ_three] at e00 e01 e02 e11 e12 e22
  refine ⟨?_, ?_, ?_, ?_, ?_, ?_⟩ <;> linarith

theorem rot_rows {R : Mat3} (h : R.transpose * R = 1) :
    R 0 0 ^ 2 + R 0 1 ^ 2 + R 0 2 ^ 2 = 1 ∧ R 1 0 ^ 2 + R 1 1 ^ 2 + R 1 2 ^ 2 = 1 ∧
    R 2 0 ^ 2 + R 2 1 ^ 2 + R 2 2 ^ 2 = 1 ∧
    R 0 0 * R 1 0 + R 0 1 * R 1 1 + R 0 2 * R 1 2 = 0 ∧
    R 0 0 * R 2 0 + R 0 1 * R 2 1 + R 0 2 * R 2 2 = 0 ∧
    R 1 0 * R 2 0 + R 1 1 * R 2 1 + R 1 2 * R 2 2 = 0 := by
  have h' : R.transpose.transpose * R.transpose = 1 := by
    rw [transpose_transpose]; exact rot_mul_transpose h
  simpa using rot_cols h'

theorem IsRot.transpose {R : Mat3} (h : IsRot R) : IsRot R.transpose :=
  ⟨by rw [transpose_transpose]; exact rot_mul_transpose h.1, by rw [det_transpose]; exact h.2⟩

theorem IsRot.mul {A B : Mat3} (hA : IsRot A) (hB : IsRot B) : IsRot (A * B) := by
  refine ⟨?_, by rw [det_mul, hA.2, hB.2, one_mul]⟩
  rw [transpose_mul, Matrix.mul_assoc, ← Matrix.mul_assoc A.transpose, hA.1, Matrix.one_mul, hB.1]

theorem mat3_ext {A B : Mat3} (h00 : A 0 0 = B 0 0) (h01 : A 0 1 = B 0 1) (h02 : A 0 2 = B 0 2)
    (h10 : A 1 0 = B 1 0) (h11 : A 1 1 = B 1 1) (h12 : A 1 2 = B 1 2)
    (h20 : A 2 0 = B 2 0) (h21 : A 2 1 = B 2 1) (h22 : A 2 2 = B 2 2) : A = B := by
  ext i j
  fin_cases i <;> fin_cases j <;> assumption

theorem mul3 (A B : Mat3) (i j : Fin 3) :
    (A * B) i j = A i 0 * B 0 j + A i 1 * B 1 j + A i 2 * B 2 j := by
  simp [Matrix.mul_apply, Fin.sum_univ_three]

/-- `det (R + 1)` of a rotation. -/
theorem rot_det_add_one {R : Mat3} (h : IsRot R) : (R + 1).det = 2 * (1 + R.trace) := by
  obtain ⟨c1, -, -, -, c5, -, -, -, c9⟩ := rot_cof h
  have hd := h.2
  rw [det_fin_three] at hd ⊢
  simp [Matrix.trace, Fin.sum_univ_three]
  linear_combination hd - c1 - c5 - c9

/-- The skew matrix of a vector. -/
def skew (c : Vec3) : Mat3 := !![0, -c 2, c 1; c 2, 0, -c 0; -c 1, c 0, 0]

theorem cayley_scale_pos (c : Vec3) : 0 < 1 + c 0 ^ 2 + c 1 ^ 2 + c 2 ^ 2 := by positivity

theorem cayley_eq (c : Vec3) : (1 - skew c) * cayley2rot c = 1 + skew c := by
  have hs := (cayley_scale_pos c).ne'
  apply mat3_ext <;> simp [mul3, cayley2rot, skew] <;> field_simp <;> ring

theorem det_one_sub_skew (c : Vec3) : (1 - skew c).det = 1 + c 0 ^ 2 + c 1 ^ 2 + c 2 ^ 2 := by
  rw [det_fin_three]; simp [skew]; ring

theorem det_one_add_skew (c : Vec3) : (1 + skew c).det = 1 + c 0 ^ 2 + c 1 ^ 2 + c 2 ^ 2 := by
  rw [det_fin_three]; simp [skew]; ring

theorem skew_transpose (c : Vec3) : (skew c).transpose = -skew c := by
  apply mat3_ext <;> simp [skew]

/-- Left cancellation for a matrix with non-zero determinant. -/
theorem mul_left_cancel_det {A B C : Mat3} (hA : A.det ≠ 0) (h : A * B = A * C) : B = C := by
  have h2 := congrArg (fun M => A⁻¹ * M) h
  simpa only [← Matrix.mul_assoc, nonsing_inv_mul A (isUnit_iff_ne_zero.2 hA), Matrix.one_mul]
    using h2

theorem mul_right_cancel_det {A B C : Mat3} (hA : A.det ≠ 0) (h : B * A = C * A) : B = C := by
  have h2 := congrArg (fun M => M * A⁻¹) h
  simpa only [Matrix.mul_assoc, mul_nonsing_inv A (isUnit_iff_ne_zero.2 hA), Matrix.mul_one]
    using h2

theorem cayley2rot_isRot (c : Vec3) : IsRot (cayley2rot c) := by
  have hs := (cayley_scale_pos c).ne'
  have hd : (1 - skew c).det ≠ 0 := by rw [det_one_sub_skew]; exact hs
  have hd' : (1 + skew c).det ≠ 0 := by rw [det_one_add_skew]; exact hs
  have e := cayley_eq c
  constructor
  · apply mat3_ext <;> simp [mul3, cayley2rot] <;> field_simp <;> ring
  · have := congrArg Matrix.det e
    rw [det_mul, det_one_sub_skew, det_one_add_skew] at this
    exact mul_left_cancel₀ hs (by rw [this, mul_one])

end OpenGV
