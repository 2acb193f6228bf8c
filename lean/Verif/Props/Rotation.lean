import Verif.Proof.Quaternion
import Mathlib.Algebra.Quaternion
import Mathlib.Data.Real.Basic

/-!
# Properties of the rotation parametrisations (C18-C21)
-/

namespace OpenGV.Props

open Matrix
open scoped Quaternion

/-- **C18.** For every parameter vector, `cayley2rot` gives a rotation matrix, it fixes the
parameter vector (the rotation axis), and `cayley2rot_reduced` is the same matrix multiplied with
`1 + |c|²`. -/
theorem C18_cayley_rotation (c : Vec3) :
    (cayley2rot c).transpose * cayley2rot c = 1 ∧ (cayley2rot c).det = 1 ∧
    cayley2rot c *ᵥ c = c ∧ cayley2rotReduced c = (1 + c ⬝ᵥ c) • cayley2rot c := by
  have hs := (cayley_scale_pos c).ne'
  refine ⟨(cayley2rot_isRot c).1, (cayley2rot_isRot c).2, ?_, ?_⟩
  · apply ext3 <;> simp [mulVec3, cayley2rot] <;> field_simp <;> ring
  · have e : 1 + c ⬝ᵥ c = 1 + c 0 ^ 2 + c 1 ^ 2 + c 2 ^ 2 := by rw [dot3]; ring
    rw [e]
    apply mat3_ext <;> simp [cayley2rot, cayley2rotReduced] <;> field_simp

example : cayley2rot ![1, 0, 0] = !![1, 0, 0; 0, 0, -1; 0, 1, 0] := by
  apply mat3_ext <;> simp [cayley2rot] <;> norm_num

/-- **C19 (parameters).** `rot2cayley` undoes `cayley2rot` for every parameter vector. -/
theorem C19_rot2cayley_cayley2rot (c : Vec3) : rot2cayley (cayley2rot c) = some c := by
  have hs := (cayley_scale_pos c).ne'
  have hrel : skew c * (cayley2rot c + 1) = cayley2rot c - 1 := by
    have := cayley_eq c
    rw [Matrix.sub_mul, Matrix.one_mul, sub_eq_iff_eq_add] at this
    rw [Matrix.mul_add, Matrix.mul_one, eq_sub_iff_add_eq]
    conv_rhs => rw [this]
    abel
  have hd : (cayley2rot c + 1).det ≠ 0 := by
    intro h0
    have h1 : (1 - skew c) * (cayley2rot c + 1) = (2 : ℝ) • 1 := by
      rw [Matrix.mul_add, cayley_eq, Matrix.mul_one, two_smul]; abel
    have h2 := congrArg Matrix.det h1
    rw [det_mul, h0, mul_zero, det_smul, det_one] at h2
    norm_num at h2
  have hC := mul_right_cancel_det hd ((rot2cayley_C hd).trans hrel.symm)
  unfold rot2cayley
  simp only [hC]
  rw [if_neg hd]
  congr 1
  apply ext3 <;> simp [skew]

/-- **C19 (rotations).** For every rotation whose angle is not 180 degrees (trace not -1),
`rot2cayley` is defined and `cayley2rot` gives the rotation back. -/
theorem C19_cayley2rot_rot2cayley (R : Mat3) (hR : IsRot R) (ht : R.trace ≠ -1) :
    ∃ c, rot2cayley R = some c ∧ cayley2rot c = R := by
  have hd : (R + 1).det ≠ 0 := by
    rw [rot_det_add_one hR]
    intro h
    exact ht (by linarith)
  refine ⟨_, by unfold rot2cayley; simp only; rw [if_neg hd], ?_⟩
  set C := (R - 1) * (((R + 1).det)⁻¹ • (R + 1).adjugate) with hCdef
  have hC : C * (R + 1) = R - 1 := rot2cayley_C hd
  have hsk := skew_of_transpose (rot2cayley_skew hR.1 hd hC)
  set c : Vec3 := ![-(C 1 2), C 0 2, -(C 0 1)] with hc
  have h1 : (1 - skew c).det ≠ 0 := by
    rw [det_one_sub_skew]; exact (cayley_scale_pos c).ne'
  apply mul_left_cancel_det h1
  rw [cayley_eq, ← hsk, Matrix.sub_mul, Matrix.one_mul]
  rw [Matrix.mul_add, Matrix.mul_one] at hC
  have : C * R = R - 1 - C := by rw [← hC]; abel
  rw [this]; abel

example : IsRot !![0, -1, 0; 1, 0, 0; 0, 0, 1] ∧
    (!![0, -1, 0; 1, 0, 0; 0, 0, 1] : Mat3).trace ≠ -1 := by
  refine ⟨⟨by apply mat3_ext <;> simp [mul3], by rw [det_fin_three]; simp⟩, ?_⟩
  simp [Matrix.trace, Fin.sum_univ_three]
  norm_num

/-- **C19 (exceptional set).** For a rotation, the inverse inside `rot2cayley` fails to exist exactly
when the trace is -1, that is exactly for the half-turns. -/
theorem C19_undefined_iff_half_turn (R : Mat3) (hR : IsRot R) :
    (rot2cayley R = none ↔ R.trace = -1) ∧ (rot2cayley R = none ↔ R * R = 1 ∧ R ≠ 1) := by
  have h1 : rot2cayley R = none ↔ R.trace = -1 := by
    unfold rot2cayley
    simp only [rot_det_add_one hR]
    constructor
    · intro h
      split at h
      · linarith
      · simp at h
    · intro h
      rw [if_pos (by rw [h]; norm_num)]
  refine ⟨h1, h1.trans ?_⟩
  obtain ⟨q, hq, rfl⟩ := exists_quaternion hR
  have htr : (quaternion2rot q).trace = 4 * q 0 ^ 2 - 1 := by
    simp [Matrix.trace, Fin.sum_univ_three, quaternion2rot]
    linarith
  rw [htr]
  constructor
  · intro h
    have h0 : q 0 = 0 := by
      have : q 0 ^ 2 = 0 := by linarith
      exact pow_eq_zero_iff two_ne_zero |>.1 this
    have hs : (quaternion2rot q).transpose = quaternion2rot q := by
      apply mat3_ext <;> simp [quaternion2rot, h0]
    refine ⟨by have := hR.1; rwa [hs] at this, fun e => ?_⟩
    rw [e] at htr
    simp [h0] at htr
    norm_num at htr
  · rintro ⟨h, hne⟩
    have hs : (quaternion2rot q).transpose = quaternion2rot q := by
      have h2 := hR.1
      apply mul_right_cancel_det (A := quaternion2rot q) (by rw [hR.2]; norm_num)
      rw [h2, h]
    have e1 := congrFun (congrFun hs 1) 2
    have e2 := congrFun (congrFun hs 0) 2
    have e3 := congrFun (congrFun hs 0) 1
    simp [quaternion2rot] at e1 e2 e3
    have p1 : q 0 * q 1 = 0 := by linarith
    have p2 : q 0 * q 2 = 0 := by linarith
    have p3 : q 0 * q 3 = 0 := by linarith
    by_cases h0 : q 0 = 0
    · rw [h0]; norm_num
    · exfalso
      apply hne
      have x1 := (mul_eq_zero.1 p1).resolve_left h0
      have x2 := (mul_eq_zero.1 p2).resolve_left h0
      have x3 := (mul_eq_zero.1 p3).resolve_left h0
      have hq' : q 0 ^ 2 = 1 := by rw [x1, x2, x3] at hq; linarith
      apply mat3_ext <;> simp [quaternion2rot, x1, x2, x3, hq']

example : rot2cayley !![-1, 0, 0; 0, -1, 0; 0, 0, 1] = none := by
  refine (C19_undefined_iff_half_turn _ ⟨by apply mat3_ext <;> simp [mul3],
    by rw [det_fin_three]; simp⟩).1.2 ?_
  simp [Matrix.trace, Fin.sum_univ_three]

/-- The entries of a quaternion of Mathlib as the code's vector. -/
def ofQuaternion (q : ℍ[ℝ]) : Quat := ![q.re, q.imI, q.imJ, q.imK]

/-- **C20.** For unit quaternions `quaternion2rot` gives a rotation, opposite quaternions give the
same matrix, the matrix acts on vectors by quaternion conjugation, and the matrix of a product is
the product of the matrices. -/
theorem C20_quaternion_rotation (q : ℍ[ℝ]) (hq : q.re ^ 2 + q.imI ^ 2 + q.imJ ^ 2 + q.imK ^ 2 = 1) :
    (quaternion2rot (ofQuaternion q)).transpose * quaternion2rot (ofQuaternion q) = 1 ∧
    (quaternion2rot (ofQuaternion q)).det = 1 ∧
    quaternion2rot (ofQuaternion (-q)) = quaternion2rot (ofQuaternion q) ∧
    (∀ v : ℍ[ℝ], v.re = 0 → (q * v * star q).re = 0 ∧
      ![(q * v * star q).imI, (q * v * star q).imJ, (q * v * star q).imK] =
        quaternion2rot (ofQuaternion q) *ᵥ ![v.imI, v.imJ, v.imK]) ∧
    (∀ p : ℍ[ℝ], quaternion2rot (ofQuaternion (q * p)) =
      quaternion2rot (ofQuaternion q) * quaternion2rot (ofQuaternion p)) := by
  refine ⟨?_, ?_, ?_, ?_, ?_⟩
  · apply mat3_ext <;> simp [mul3, quaternion2rot, ofQuaternion]
    · linear_combination (q.re ^ 2 + q.imI ^ 2 + q.imJ ^ 2 + q.imK ^ 2 + 1) * hq
    · ring
    · ring
    · ring
    · linear_combination (q.re ^ 2 + q.imI ^ 2 + q.imJ ^ 2 + q.imK ^ 2 + 1) * hq
    · ring
    · ring
    · ring
    · linear_combination (q.re ^ 2 + q.imI ^ 2 + q.imJ ^ 2 + q.imK ^ 2 + 1) * hq
  · rw [det_fin_three]
    simp [quaternion2rot, ofQuaternion]
    linear_combination ((q.re ^ 2 + q.imI ^ 2 + q.imJ ^ 2 + q.imK ^ 2) ^ 2 +
      (q.re ^ 2 + q.imI ^ 2 + q.imJ ^ 2 + q.imK ^ 2) + 1) * hq
  · apply mat3_ext <;> simp [quaternion2rot, ofQuaternion]
  · intro v hv
    refine ⟨by simp [hv]; ring, ?_⟩
    apply ext3 <;> rw [mulVec3] <;> simp [quaternion2rot, ofQuaternion, hv] <;> ring
  · intro p
    apply mat3_ext <;> simp [mul3, quaternion2rot, ofQuaternion] <;> ring

example : (3/5 : ℝ) ^ 2 + 0 ^ 2 + (4/5) ^ 2 + 0 ^ 2 = 1 := by norm_num

/-- **C21 (round trip).** For every rotation, when `rot2quaternion` has a finite result, it is a unit
quaternion whose matrix is the rotation. The result is finite exactly when no component of a
quaternion of the rotation is zero. -/
theorem C21_round_trip (R : Mat3) (hR : IsRot R) :
    (∀ q, rot2quaternion R = some q →
      q 0 ^ 2 + q 1 ^ 2 + q 2 ^ 2 + q 3 ^ 2 = 1 ∧ quaternion2rot q = R) ∧
    (∀ p : Quat, p 0 ^ 2 + p 1 ^ 2 + p 2 ^ 2 + p 3 ^ 2 = 1 → quaternion2rot p = R →
      (rot2quaternion R = none ↔ ∃ i, p i = 0)) := by
  refine ⟨?_, ?_⟩
  · intro q hq
    obtain ⟨p, hp, rfl⟩ := exists_quaternion hR
    obtain ⟨h1, h2⟩ := rot2quaternion_spec p hp
    by_cases hz : ∃ i, p i = 0
    · rw [h2 hz] at hq
      simp at hq
    · obtain ⟨s, hs, e⟩ := h1 (fun i hi => hz ⟨i, hi⟩)
      rw [e] at hq
      obtain rfl := (Option.some.inj hq)
      rcases hs with rfl | rfl
      · simp only [one_smul]
        exact ⟨hp, trivial⟩
      · simp only [neg_smul, one_smul, Pi.neg_apply]
        exact ⟨by linarith, neg_quaternion2rot p⟩
  · rintro p hp rfl
    obtain ⟨h1, h2⟩ := rot2quaternion_spec p hp
    refine ⟨fun h => ?_, h2⟩
    by_contra hz
    obtain ⟨s, _, e⟩ := h1 (fun i hi => hz ⟨i, hi⟩)
    rw [e] at h
    simp at h

example : ∃ q, rot2quaternion (quaternion2rot ![1/2, 1/2, 1/2, 1/2]) = some q := by
  obtain ⟨s, _, h⟩ := (rot2quaternion_spec ![1/2, 1/2, 1/2, 1/2] (by simp; norm_num)).1
    (by intro i; fin_cases i <;> simp)
  exact ⟨_, h⟩

/-- **C21 (unit).** Every finite result is a unit quaternion, also when the argument is not a
rotation. -/
theorem C21_unit (R : Mat3) (q : Quat) (h : rot2quaternion R = some q) :
    q 0 ^ 2 + q 1 ^ 2 + q 2 ^ 2 + q 3 ^ 2 = 1 := by
  have key : ∀ a b c d, finishQuat a b c d = some q →
      q 0 ^ 2 + q 1 ^ 2 + q 2 ^ 2 + q 3 ^ 2 = 1 := by
    intro a b c d h
    rcases a with _ | a <;> rcases b with _ | b <;> rcases c with _ | c <;> rcases d with _ | d <;>
      simp only [finishQuat, reduceCtorEq] at h
    split_ifs at h with h0
    obtain rfl := Option.some.inj h
    have h1 : 0 ≤ a * a + b * b + c * c + d * d :=
      add_nonneg (add_nonneg (add_nonneg (mul_self_nonneg a) (mul_self_nonneg b))
        (mul_self_nonneg c)) (mul_self_nonneg d)
    simp only [Matrix.cons_val, div_pow, Real.sq_sqrt h1]
    rw [Real.sqrt_eq_zero h1] at h0
    rw [← add_div, ← add_div, ← add_div, div_eq_one_iff_eq h0]
    ring
  rw [rot2quaternion] at h
  split_ifs at h <;> exact key _ _ _ _ h

/- A matrix that is not a rotation. -/
example : ∃ q, rot2quaternion !![1, 0, 0; 1, 1, 0; 1, 1, 1] = some q := by
  rw [rot2quaternion]
  simp [clampSqrt, signed, finishQuat]
  norm_num

/-- **C21 (identity).** On the identity, and on every rotation about a coordinate axis, the function
divides zero by zero. -/
theorem C21_undefined_on_axis_rotations (a b : ℝ) (h : a ^ 2 + b ^ 2 = 1) :
    rot2quaternion 1 = none ∧ rot2quaternion (quaternion2rot ![a, b, 0, 0]) = none ∧
    rot2quaternion (quaternion2rot ![a, 0, b, 0]) = none ∧
    rot2quaternion (quaternion2rot ![a, 0, 0, b]) = none := by
  have h1 : quaternion2rot ![1, 0, 0, 0] = 1 := by
    apply mat3_ext <;> simp [quaternion2rot]
  refine ⟨?_, ?_, ?_, ?_⟩
  · rw [← h1]
    exact (rot2quaternion_spec ![1, 0, 0, 0] (by simp)).2 ⟨1, rfl⟩
  · exact (rot2quaternion_spec ![a, b, 0, 0] (by simp; linarith)).2 ⟨2, rfl⟩
  · exact (rot2quaternion_spec ![a, 0, b, 0] (by simp; linarith)).2 ⟨1, rfl⟩
  · exact (rot2quaternion_spec ![a, 0, 0, b] (by simp; linarith)).2 ⟨1, rfl⟩

end OpenGV.Props
