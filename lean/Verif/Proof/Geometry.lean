import Verif.Model.Geometry
import Verif.Spec.Svd
import Mathlib.Tactic.Linarith
import Mathlib.Tactic.Positivity
import Mathlib.Tactic.FieldSimp
import Mathlib.Tactic.LinearCombination
import Mathlib.Tactic.FinCases
import Mathlib.Tactic.NormNum
import Mathlib.LinearAlgebra.Matrix.DotProduct
import Mathlib.LinearAlgebra.Matrix.NonsingularInverse

namespace OpenGV

open Matrix

theorem dot3 (a b : Vec3) : a ⬝ᵥ b = a 0 * b 0 + a 1 * b 1 + a 2 * b 2 := by
  simp [dotProduct, Fin.sum_univ_three]

theorem mulVec3 (M : Mat3) (v : Vec3) (i : Fin 3) :
    (M *ᵥ v) i = M i 0 * v 0 + M i 1 * v 1 + M i 2 * v 2 := by
  simp [mulVec, dot3]

theorem ext3 {a b : Vec3} (h0 : a 0 = b 0) (h1 : a 1 = b 1) (h2 : a 2 = b 2) : a = b := by
  funext i
  fin_cases i
  · exact h0
  · exact h1
  · exact h2

theorem dot_self_nonneg3 (v : Vec3) : 0 ≤ v ⬝ᵥ v := by
  rw [dot3]; nlinarith [sq_nonneg (v 0), sq_nonneg (v 1), sq_nonneg (v 2)]

theorem dot_self_eq_zero3 {v : Vec3} : v ⬝ᵥ v = 0 ↔ v = 0 := dotProduct_self_eq_zero

theorem norm3_sq (v : Vec3) : norm3 v ^ 2 = v ⬝ᵥ v := Real.sq_sqrt (dot_self_nonneg3 v)

theorem norm3_nonneg (v : Vec3) : 0 ≤ norm3 v := Real.sqrt_nonneg _

theorem norm3_eq_zero {v : Vec3} : norm3 v = 0 ↔ v = 0 := by
  rw [norm3, Real.sqrt_eq_zero (dot_self_nonneg3 v), dot_self_eq_zero3]

theorem norm3_pos {v : Vec3} (h : v ≠ 0) : 0 < norm3 v :=
  lt_of_le_of_ne (norm3_nonneg v) (fun e => h (norm3_eq_zero.1 e.symm))

theorem norm3_smul (c : ℝ) (v : Vec3) : norm3 (c • v) = |c| * norm3 v := by
  rw [norm3, norm3, smul_dotProduct, dotProduct_smul, smul_eq_mul, smul_eq_mul, ← mul_assoc,
    Real.sqrt_mul (mul_self_nonneg c), Real.sqrt_mul_self_eq_abs]

/-- Lagrange's identity. -/
theorem lagrange (a b : Vec3) :
    (a ⬝ᵥ a) * (b ⬝ᵥ b) - (a ⬝ᵥ b) ^ 2 = (crossProduct a b) ⬝ᵥ (crossProduct a b) := by
  simp only [dot3, cross_apply]
  simp
  ring

theorem cauchy3 (a b : Vec3) : (a ⬝ᵥ b) ^ 2 ≤ (a ⬝ᵥ a) * (b ⬝ᵥ b) := by
  have := dot_self_nonneg3 (crossProduct a b)
  rw [← lagrange] at this
  linarith

theorem normalize3_eq_some {v r : Vec3} (h : normalize3 v = some r) :
    v ≠ 0 ∧ r = (norm3 v)⁻¹ • v ∧ r ⬝ᵥ r = 1 := by
  unfold normalize3 at h
  split at h
  · simp at h
  · rename_i hn
    have hr := (Option.some.inj h).symm
    refine ⟨fun e => hn (norm3_eq_zero.2 e), hr, ?_⟩
    rw [hr, smul_dotProduct, dotProduct_smul, ← norm3_sq, smul_eq_mul, smul_eq_mul]
    field_simp

theorem rot_dot {R : Mat3} (hR : R.transpose * R = 1) (a b : Vec3) :
    (R *ᵥ a) ⬝ᵥ (R *ᵥ b) = a ⬝ᵥ b := by
  rw [dotProduct_mulVec, ← mulVec_transpose, mulVec_mulVec, hR, one_mulVec]

theorem rot_mul_transpose {n : Type} [Fintype n] [DecidableEq n] {R : Matrix n n ℝ}
    (hR : R.transpose * R = 1) : R * R.transpose = 1 :=
  mul_eq_one_comm.1 hR

/-! ### Right singular vectors -/

open Spec in
/-- The last right singular vector of a matrix with a kernel is in the kernel. -/
theorem svd_last_kernel {m : Type} [Fintype m] {n : ℕ} {A : Matrix m (Fin (n + 1)) ℝ}
    {V : Matrix (Fin (n + 1)) (Fin (n + 1)) ℝ} {σ : Fin (n + 1) → ℝ} (h : IsRightSvd A V σ)
    {x : Fin (n + 1) → ℝ} (hx : x ≠ 0) (hA : A *ᵥ x = 0) :
    A *ᵥ (fun i => V i (Fin.last n)) = 0 := by
  have hV : V * V.transpose = 1 := rot_mul_transpose h.orth
  set y := V.transpose *ᵥ x with hy
  have hxy : V *ᵥ y = x := by rw [hy, mulVec_mulVec, hV, one_mulVec]
  have hy0 : y ≠ 0 := by
    intro e; rw [e, mulVec_zero] at hxy; exact hx hxy.symm
  have hq : ∑ i, σ i ^ 2 * y i ^ 2 = 0 := by
    have e1 : y ⬝ᵥ ((V.transpose * (A.transpose * A) * V) *ᵥ y) = 0 := by
      rw [← mulVec_mulVec, hxy, ← mulVec_mulVec, ← mulVec_mulVec, hA, mulVec_zero, mulVec_zero,
        dotProduct_zero]
    rw [h.gram] at e1
    rw [← e1]
    simp only [dotProduct, mulVec_diagonal]
    exact Finset.sum_congr rfl (fun i _ => by ring)
  have hall := (Finset.sum_eq_zero_iff_of_nonneg (fun i _ => by positivity)).1 hq
  obtain ⟨i, hi⟩ := Function.ne_iff.1 hy0
  have hσi : σ i = 0 := by
    have := hall i (Finset.mem_univ i)
    rcases mul_eq_zero.1 this with h1 | h1
    · exact pow_eq_zero_iff (two_ne_zero) |>.1 h1
    · exact absurd (pow_eq_zero_iff (two_ne_zero) |>.1 h1) hi
  have hσl : σ (Fin.last n) = 0 :=
    le_antisymm (hσi ▸ h.anti i (Fin.last n) (Fin.le_last i)) (h.nonneg _)
  set v : Fin (n + 1) → ℝ := fun i => V i (Fin.last n) with hv
  have e2 : (A *ᵥ v) ⬝ᵥ (A *ᵥ v) = 0 := by
    have e3 : (V.transpose * (A.transpose * A) * V) (Fin.last n) (Fin.last n) = 0 := by
      rw [h.gram, diagonal_apply_eq, hσl]; norm_num
    rw [← e3]
    rw [dotProduct_mulVec, ← mulVec_transpose, mulVec_mulVec, dotProduct_comm]
    rw [Matrix.mul_assoc]
    simp only [Matrix.mul_apply, dotProduct, mulVec, transpose_apply, hv]
  exact dotProduct_self_eq_zero.1 e2

open Spec in
theorem svd_col_ne_zero {m : Type} [Fintype m] {n : ℕ} {A : Matrix m (Fin n) ℝ}
    {V : Matrix (Fin n) (Fin n) ℝ} {σ : Fin n → ℝ} (h : IsRightSvd A V σ) (j : Fin n) :
    (fun i => V i j) ≠ 0 := by
  intro e
  have := congrFun (congrFun h.orth j) j
  rw [Matrix.mul_apply, one_apply_eq] at this
  have h2 : ∀ i, V i j = 0 := fun i => congrFun e i
  simp [h2] at this

end OpenGV
