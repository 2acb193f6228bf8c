import Verif.Proof.Rotation

namespace OpenGV

open Matrix

/-- `C` in `rot2cayley` satisfies `C (R + 1) = R - 1`. -/
theorem rot2cayley_C {R : Mat3} (hd : (R + 1).det ≠ 0) :
    ((R - 1) * (((R + 1).det)⁻¹ • (R + 1).adjugate)) * (R + 1) = R - 1 := by
  rw [Matrix.mul_assoc, Matrix.smul_mul, adjugate_mul, smul_smul, inv_mul_cancel₀ hd, one_smul,
    Matrix.mul_one]

/-- `C` in `rot2cayley` is skew-symmetric for orthogonal `R`. -/
theorem rot2cayley_skew {R C : Mat3} (hR : R.transpose * R = 1) (hd : (R + 1).det ≠ 0)
    (hC : C * (R + 1) = R - 1) : C.transpose = -C := by
  have hRR := rot_mul_transpose hR
  have h1 : (R + 1).transpose * C.transpose = R.transpose - 1 := by
    rw [← transpose_mul, hC, transpose_sub, transpose_one]
  apply mul_left_cancel_det (A := (R + 1).transpose) (by rw [det_transpose]; exact hd)
  rw [h1]
  apply mul_right_cancel_det hd
  rw [Matrix.mul_assoc, Matrix.neg_mul, hC]
  simp only [transpose_add, transpose_one, Matrix.add_mul, Matrix.mul_add, Matrix.sub_mul,
    Matrix.mul_sub, hR, Matrix.one_mul, Matrix.mul_one, neg_sub]
  abel

theorem skew_of_transpose {C : Mat3} (h : C.transpose = -C) :
    C = skew ![-(C 1 2), C 0 2, -(C 0 1)] := by
  have e := fun i j => congrFun (congrFun h i) j
  have e00 := e 0 0
  have e01 := e 0 1
  have e02 := e 0 2
  have e11 := e 1 1
  have e12 := e 1 2
  have e22 := e 2 2
  simp only [transpose_apply, Matrix.neg_apply] at e00 e01 e02 e11 e12 e22
  apply mat3_ext <;> simp [skew] <;> linarith

theorem neg_quaternion2rot (q : Quat) : quaternion2rot (-q) = quaternion2rot q := by
  apply mat3_ext <;> simp [quaternion2rot]

theorem quat_case {a0 a1 a2 a3 d1 d2 d3 e12 e13 e23 : ℝ} (hp : 0 < a0) (s1 : d1 ^ 2 = 16 * a0 * a1)
    (s2 : d2 ^ 2 = 16 * a0 * a2) (s3 : d3 ^ 2 = 16 * a0 * a3) (p1 : d1 * d2 = 4 * a0 * e12)
    (p2 : d1 * d3 = 4 * a0 * e13) (p3 : d2 * d3 = 4 * a0 * e23) :
    ∃ x0 x1 x2 x3 : ℝ, x0 ^ 2 = a0 ∧ x1 ^ 2 = a1 ∧ x2 ^ 2 = a2 ∧ x3 ^ 2 = a3 ∧ 4 * (x0 * x1) = d1 ∧
      4 * (x0 * x2) = d2 ∧ 4 * (x0 * x3) = d3 ∧ 4 * (x1 * x2) = e12 ∧ 4 * (x1 * x3) = e13 ∧
      4 * (x2 * x3) = e23 := by
  have hq : √a0 ^ 2 = a0 := Real.sq_sqrt hp.le
  have hq0 : √a0 ≠ 0 := (Real.sqrt_pos.2 hp).ne'
  refine ⟨√a0, d1 / (4 * √a0), d2 / (4 * √a0), d3 / (4 * √a0), hq, ?_, ?_, ?_, ?_, ?_, ?_, ?_, ?_, ?_⟩
  · field_simp; rw [hq]; linarith
  · field_simp; rw [hq]; linarith
  · field_simp; rw [hq]; linarith
  · field_simp
  · field_simp
  · field_simp
  · field_simp; rw [hq]; linarith
  · field_simp; rw [hq]; linarith
  · field_simp; rw [hq]; linarith

/-- Every rotation comes from a unit quaternion. -/
theorem exists_quaternion {R : Mat3} (h : IsRot R) :
    ∃ q : Quat, q 0 ^ 2 + q 1 ^ 2 + q 2 ^ 2 + q 3 ^ 2 = 1 ∧ quaternion2rot q = R := by
  obtain ⟨c00, c01, c02, c10, c11, c12, c20, c21, c22⟩ := rot_cof h
  obtain ⟨k0, k1, k2, k3, k4, k5⟩ := rot_cols h.1
  obtain ⟨r0, r1, r2, r3, r4, r5⟩ := rot_rows h.1
  set a0 := (R 0 0 + R 1 1 + R 2 2 + 1) / 4 with ha0
  set a1 := (R 0 0 - R 1 1 - R 2 2 + 1) / 4 with ha1
  set a2 := (-R 0 0 + R 1 1 - R 2 2 + 1) / 4 with ha2
  set a3 := (-R 0 0 - R 1 1 + R 2 2 + 1) / 4 with ha3
  have sum : a0 + a1 + a2 + a3 = 1 := by rw [ha0, ha1, ha2, ha3]; ring
  set d1 := R 2 1 - R 1 2 with hd1
  set d2 := R 0 2 - R 2 0 with hd2
  set d3 := R 1 0 - R 0 1 with hd3
  set e12 := R 1 0 + R 0 1 with he12
  set e13 := R 0 2 + R 2 0 with he13
  set e23 := R 2 1 + R 1 2 with he23
  have s01 : d1 ^ 2 = 16 * a0 * a1 := by rw [ha0, ha1, hd1]; linarith only [k0, r1, r2, c00]
  have s02 : d2 ^ 2 = 16 * a0 * a2 := by rw [ha0, ha2, hd2]; linarith only [k1, r0, r2, c11]
  have s03 : d3 ^ 2 = 16 * a0 * a3 := by rw [ha0, ha3, hd3]; linarith only [k2, r0, r1, c22]
  have s12 : e12 ^ 2 = 16 * a1 * a2 := by rw [ha1, ha2, he12]; linarith only [k2, r0, r1, c22]
  have s13 : e13 ^ 2 = 16 * a1 * a3 := by rw [ha1, ha3, he13]; linarith only [k1, r0, r2, c11]
  have s23 : e23 ^ 2 = 16 * a2 * a3 := by rw [ha2, ha3, he23]; linarith only [k0, r1, r2, c00]
  have p0a : d1 * d2 = 4 * a0 * e12 := by rw [ha0, hd1, hd2, he12]; linarith only [c10, c01, k3, r3]
  have p0b : d1 * d3 = 4 * a0 * e13 := by rw [ha0, hd1, hd3, he13]; linarith only [c20, c02, k4, r4]
  have p0c : d2 * d3 = 4 * a0 * e23 := by rw [ha0, hd2, hd3, he23]; linarith only [c21, c12, k5, r5]
  have p1a : d1 * e12 = 4 * a1 * d2 := by rw [ha1, hd1, hd2, he12]; linarith only [c20, c02, k4, r4]
  have p1b : d1 * e13 = 4 * a1 * d3 := by rw [ha1, hd1, hd3, he13]; linarith only [c10, c01, k3, r3]
  have p1c : e12 * e13 = 4 * a1 * e23 := by
    rw [ha1, he12, he13, he23]; linarith only [c21, c12, k5, r5]
  have p2a : d2 * e12 = 4 * a2 * d1 := by rw [ha2, hd1, hd2, he12]; linarith only [c21, c12, k5, r5]
  have p2b : d2 * e23 = 4 * a2 * d3 := by rw [ha2, hd2, hd3, he23]; linarith only [c10, c01, k3, r3]
  have p2c : e12 * e23 = 4 * a2 * e13 := by
    rw [ha2, he12, he13, he23]; linarith only [c20, c02, k4, r4]
  have p3a : d3 * e13 = 4 * a3 * d1 := by rw [ha3, hd1, hd3, he13]; linarith only [c21, c12, k5, r5]
  have p3b : d3 * e23 = 4 * a3 * d2 := by rw [ha3, hd2, hd3, he23]; linarith only [c20, c02, k4, r4]
  have p3c : e13 * e23 = 4 * a3 * e12 := by
    rw [ha3, he12, he13, he23]; linarith only [c10, c01, k3, r3]
  have fin : ∀ q : Quat, q 0 ^ 2 = a0 → q 1 ^ 2 = a1 → q 2 ^ 2 = a2 → q 3 ^ 2 = a3 →
      4 * (q 0 * q 1) = d1 → 4 * (q 0 * q 2) = d2 → 4 * (q 0 * q 3) = d3 →
      4 * (q 1 * q 2) = e12 → 4 * (q 1 * q 3) = e13 → 4 * (q 2 * q 3) = e23 →
      ∃ q : Quat, q 0 ^ 2 + q 1 ^ 2 + q 2 ^ 2 + q 3 ^ 2 = 1 ∧ quaternion2rot q = R := by
    intro q h0 h1 h2 h3 h01 h02 h03 h12 h13 h23
    refine ⟨q, by rw [h0, h1, h2, h3]; exact sum, ?_⟩
    apply mat3_ext <;> simp only [quaternion2rot, Matrix.of_apply, Matrix.cons_val] <;>
      linarith only [h0, h1, h2, h3, h01, h02, h03, h12, h13, h23, ha0, ha1, ha2, ha3, hd1, hd2, hd3,
        he12, he13, he23]
  have npos : (0 < a0 ∨ 0 < a1) ∨ (0 < a2 ∨ 0 < a3) := by
    by_contra hcon
    push Not at hcon
    obtain ⟨⟨x0, x1⟩, x2, x3⟩ := hcon
    linarith only [x0, x1, x2, x3, sum]
  rcases npos with (hp | hp) | (hp | hp)
  · obtain ⟨x0, x1, x2, x3, h0, h1, h2, h3, h01, h02, h03, h12, h13, h23⟩ :=
      quat_case hp s01 s02 s03 p0a p0b p0c
    exact fin ![x0, x1, x2, x3] h0 h1 h2 h3 h01 h02 h03 h12 h13 h23
  · obtain ⟨x1, x0, x2, x3, h1, h0, h2, h3, h01, h12, h13, h02, h03, h23⟩ :=
      quat_case hp (s01.trans (by ring)) s12 s13 p1a p1b p1c
    exact fin ![x0, x1, x2, x3] h0 h1 h2 h3 (by rw [← h01, mul_comm x1]; rfl) h02 h03 h12 h13 h23
  · obtain ⟨x2, x0, x1, x3, h2, h0, h1, h3, h02, h12, h23, h01, h03, h13⟩ :=
      quat_case hp (s02.trans (by ring)) (s12.trans (by ring)) s23 p2a p2b p2c
    exact fin ![x0, x1, x2, x3] h0 h1 h2 h3 h01 (by rw [← h02, mul_comm x2]; rfl) h03
      (by rw [← h12, mul_comm x2]; rfl) h13 h23
  · obtain ⟨x3, x0, x1, x2, h3, h0, h1, h2, h03, h13, h23, h01, h02, h12⟩ :=
      quat_case hp (s03.trans (by ring)) (s13.trans (by ring)) (s23.trans (by ring)) p3a p3b p3c
    exact fin ![x0, x1, x2, x3] h0 h1 h2 h3 h01 h02 (by rw [← h03, mul_comm x3]; rfl) h12
      (by rw [← h13, mul_comm x3]; rfl) (by rw [← h23, mul_comm x3]; rfl)

/-! ### The sign choice of `rot2quaternion` -/

theorem clampSqrt_sq (x y : ℝ) (h : y = x ^ 2) : clampSqrt y = |x| := by
  rw [clampSqrt, h, if_neg (by nlinarith [sq_nonneg x]), Real.sqrt_sq_eq_abs]

/-- The signed component: `|b|` with the sign of `4 a b` is `sign a * b`. -/
theorem signed_mul (a b s : ℝ) (hs : s = 4 * (a * b)) (ha : a ≠ 0) :
    signed |b| s = if b = 0 then none else some (a / |a| * b) := by
  unfold signed
  rw [hs]
  by_cases hb : b = 0
  · simp [hb]
  · rw [if_neg (by simp [ha, hb]), if_neg hb]
    congr 1
    have h1 : |a| ≠ 0 := abs_ne_zero.2 ha
    have h2 : |b| ≠ 0 := abs_ne_zero.2 hb
    rw [abs_mul, abs_mul, abs_of_pos (by norm_num : (0:ℝ) < 4)]
    field_simp

theorem abs_eq_sign_mul (a : ℝ) (ha : a ≠ 0) : |a| = a / |a| * a := by
  have h1 : |a| ≠ 0 := abs_ne_zero.2 ha
  field_simp
  exact sq_abs a

theorem sign_cases (a : ℝ) (ha : a ≠ 0) : a / |a| = 1 ∨ a / |a| = -1 := by
  rcases abs_cases a with ⟨h, _⟩ | ⟨h, _⟩
  · left; rw [h]; field_simp
  · right; rw [h]; field_simp

theorem finishQuat_sign (q : Quat) (hq : q 0 ^ 2 + q 1 ^ 2 + q 2 ^ 2 + q 3 ^ 2 = 1) (s : ℝ)
    (hs : s = 1 ∨ s = -1) :
    finishQuat (some (s * q 0)) (some (s * q 1)) (some (s * q 2)) (some (s * q 3)) = some (s • q) := by
  have hs2 : s * s = 1 := by rcases hs with rfl | rfl <;> norm_num
  have e : s * q 0 * (s * q 0) + s * q 1 * (s * q 1) + s * q 2 * (s * q 2) + s * q 3 * (s * q 3) = 1 := by
    linear_combination (q 0 ^ 2 + q 1 ^ 2 + q 2 ^ 2 + q 3 ^ 2) * hs2 + hq
  simp only [finishQuat, e, Real.sqrt_one, one_ne_zero, if_false, div_one]
  congr 1
  ext i
  fin_cases i <;> simp

/-- `rot2quaternion` on the matrix of a unit quaternion. -/
theorem rot2quaternion_spec (q : Quat) (hq : q 0 ^ 2 + q 1 ^ 2 + q 2 ^ 2 + q 3 ^ 2 = 1) :
    ((∀ i, q i ≠ 0) → ∃ s : ℝ, (s = 1 ∨ s = -1) ∧
      rot2quaternion (quaternion2rot q) = some (s • q)) ∧
    ((∃ i, q i = 0) → rot2quaternion (quaternion2rot q) = none) := by
  have c0 : clampSqrt ((quaternion2rot q 0 0 + quaternion2rot q 1 1 + quaternion2rot q 2 2 + 1) / 4)
      = |q 0| := clampSqrt_sq _ _ (by simp [quaternion2rot]; linarith)
  have c1 : clampSqrt ((quaternion2rot q 0 0 - quaternion2rot q 1 1 - quaternion2rot q 2 2 + 1) / 4)
      = |q 1| := clampSqrt_sq _ _ (by simp [quaternion2rot]; linarith)
  have c2 : clampSqrt ((-quaternion2rot q 0 0 + quaternion2rot q 1 1 - quaternion2rot q 2 2 + 1) / 4)
      = |q 2| := clampSqrt_sq _ _ (by simp [quaternion2rot]; linarith)
  have c3 : clampSqrt ((-quaternion2rot q 0 0 - quaternion2rot q 1 1 + quaternion2rot q 2 2 + 1) / 4)
      = |q 3| := clampSqrt_sq _ _ (by simp [quaternion2rot]; linarith)
  have ex : (∃ i, q i = 0) ↔ q 0 = 0 ∨ q 1 = 0 ∨ q 2 = 0 ∨ q 3 = 0 := by
    constructor
    · rintro ⟨i, hi⟩
      fin_cases i
      · exact .inl hi
      · exact .inr (.inl hi)
      · exact .inr (.inr (.inl hi))
      · exact .inr (.inr (.inr hi))
    · rintro (h | h | h | h)
      exacts [⟨_, h⟩, ⟨_, h⟩, ⟨_, h⟩, ⟨_, h⟩]
  have nz : ∀ a : ℝ, |a| ≥ |q 0| → |a| ≥ |q 1| → |a| ≥ |q 2| → |a| ≥ |q 3| → a ≠ 0 := by
    rintro a h0 h1 h2 h3 rfl
    rw [abs_zero] at *
    have e0 := abs_eq_zero.1 (le_antisymm h0 (abs_nonneg _))
    have e1 := abs_eq_zero.1 (le_antisymm h1 (abs_nonneg _))
    have e2 := abs_eq_zero.1 (le_antisymm h2 (abs_nonneg _))
    have e3 := abs_eq_zero.1 (le_antisymm h3 (abs_nonneg _))
    rw [e0, e1, e2, e3] at hq
    norm_num at hq
  rw [ex]
  unfold rot2quaternion
  simp only [c0, c1, c2, c3]
  split
  · rename_i hm
    have ha := nz (q 0) le_rfl hm.1 hm.2.1 hm.2.2
    rw [signed_mul (q 0) (q 1) _ (by simp [quaternion2rot]; ring) ha,
      signed_mul (q 0) (q 2) _ (by simp [quaternion2rot]; ring) ha,
      signed_mul (q 0) (q 3) _ (by simp [quaternion2rot]; ring) ha]
    refine ⟨fun h => ⟨_, sign_cases _ ha, ?_⟩, fun h => ?_⟩
    · rw [if_neg (h 1), if_neg (h 2), if_neg (h 3), ← finishQuat_sign q hq _ (sign_cases _ ha),
        ← abs_eq_sign_mul _ ha]
    · rcases h with h | h | h | h
      · exact absurd h ha
      all_goals simp [finishQuat, h]
  · split
    · rename_i hm
      have ha := nz (q 1) hm.1 le_rfl hm.2.1 hm.2.2
      rw [signed_mul (q 1) (q 0) _ (by simp [quaternion2rot]; ring) ha,
        signed_mul (q 1) (q 2) _ (by simp [quaternion2rot]; ring) ha,
        signed_mul (q 1) (q 3) _ (by simp [quaternion2rot]; ring) ha]
      refine ⟨fun h => ⟨_, sign_cases _ ha, ?_⟩, fun h => ?_⟩
      · rw [if_neg (h 0), if_neg (h 2), if_neg (h 3), ← finishQuat_sign q hq _ (sign_cases _ ha),
          ← abs_eq_sign_mul _ ha]
      · rcases h with h | h | h | h
        · simp [finishQuat, h]
        · exact absurd h ha
        all_goals simp [finishQuat, h]
    · split
      · rename_i hm
        have ha := nz (q 2) hm.1 hm.2.1 le_rfl hm.2.2
        rw [signed_mul (q 2) (q 0) _ (by simp [quaternion2rot]; ring) ha,
          signed_mul (q 2) (q 1) _ (by simp [quaternion2rot]; ring) ha,
          signed_mul (q 2) (q 3) _ (by simp [quaternion2rot]; ring) ha]
        refine ⟨fun h => ⟨_, sign_cases _ ha, ?_⟩, fun h => ?_⟩
        · rw [if_neg (h 0), if_neg (h 1), if_neg (h 3), ← finishQuat_sign q hq _ (sign_cases _ ha),
            ← abs_eq_sign_mul _ ha]
        · rcases h with h | h | h | h
          · simp [finishQuat, h]
          · simp [finishQuat, h]
          · exact absurd h ha
          · simp [finishQuat, h]
      · split
        · rename_i hm
          have ha := nz (q 3) hm.1 hm.2.1 hm.2.2 le_rfl
          rw [signed_mul (q 3) (q 0) _ (by simp [quaternion2rot]; ring) ha,
            signed_mul (q 3) (q 1) _ (by simp [quaternion2rot]; ring) ha,
            signed_mul (q 3) (q 2) _ (by simp [quaternion2rot]; ring) ha]
          refine ⟨fun h => ⟨_, sign_cases _ ha, ?_⟩, fun h => ?_⟩
          · rw [if_neg (h 0), if_neg (h 1), if_neg (h 2), ← finishQuat_sign q hq _ (sign_cases _ ha),
              ← abs_eq_sign_mul _ ha]
          · rcases h with h | h | h | h
            · simp [finishQuat, h]
            · simp [finishQuat, h]
            · simp [finishQuat, h]
            · exact absurd h ha
        · rename_i h0 h1 h2 h3
          exfalso
          generalize |q 0| = x0 at *
          generalize |q 1| = x1 at *
          generalize |q 2| = x2 at *
          generalize |q 3| = x3 at *
          rcases le_total x0 x1 with a | a <;> rcases le_total x2 x3 with b | b
          · rcases le_total x1 x3 with c | c
            · exact h3 ⟨by linarith, c, b⟩
            · exact h1 ⟨a, by linarith, c⟩
          · rcases le_total x1 x2 with c | c
            · exact h2 ⟨by linarith, c, b⟩
            · exact h1 ⟨a, c, by linarith⟩
          · rcases le_total x0 x3 with c | c
            · exact h3 ⟨c, by linarith, b⟩
            · exact h0 ⟨a, by linarith, c⟩
          · rcases le_total x0 x2 with c | c
            · exact h2 ⟨c, by linarith, b⟩
            · exact h0 ⟨a, c, by linarith⟩

end OpenGV
