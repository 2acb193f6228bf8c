import Verif.Model.Roots

namespace OpenGV

theorem csqrt_sq (z : ℂ) : csqrt z ^ 2 = z := Complex.cpow_nat_inv_pow z two_ne_zero

theorem ccbrt_cube (z : ℂ) : ccbrt z ^ 3 = z := Complex.cpow_nat_inv_pow z three_ne_zero

theorem csqrt_eq_zero {z : ℂ} : csqrt z = 0 ↔ z = 0 := by
  constructor
  · intro h; rw [← csqrt_sq z, h]; simp
  · intro h; subst h; have := csqrt_sq 0; exact pow_eq_zero_iff two_ne_zero |>.1 this

theorem ccbrt_eq_zero {z : ℂ} : ccbrt z = 0 ↔ z = 0 := by
  constructor
  · intro h; rw [← ccbrt_cube z, h]; simp
  · intro h; subst h; have := ccbrt_cube 0; exact pow_eq_zero_iff three_ne_zero |>.1 this

/-- The principal cube root of a non-zero number has a positive real part. -/
theorem ccbrt_re_pos {z : ℂ} (hz : z ≠ 0) : 0 < (ccbrt z).re := by
  have e : ccbrt z = Complex.exp (Complex.log z * ((3 : ℕ) : ℂ)⁻¹) := by
    rw [ccbrt, Complex.cpow_def_of_ne_zero hz]
  have him : (Complex.log z * ((3 : ℕ) : ℂ)⁻¹).im = Complex.arg z / 3 := by
    have : ((3 : ℕ) : ℂ)⁻¹ = (((1 / 3 : ℝ)) : ℂ) := by push_cast; norm_num
    rw [this, Complex.im_mul_ofReal, Complex.log_im]; ring
  rw [e, Complex.exp_re, him]
  apply mul_pos (Real.exp_pos _)
  apply Real.cos_pos_of_mem_Ioo
  have h1 := Complex.neg_pi_lt_arg z
  have h2 := Complex.arg_le_pi z
  have := Real.pi_pos
  constructor <;> linarith

theorem ccbrt_re_eq_zero {z : ℂ} : (ccbrt z).re = 0 ↔ z = 0 := by
  constructor
  · intro h
    by_contra hz
    exact (ccbrt_re_pos hz).ne' h
  · intro h; rw [ccbrt_eq_zero.2 h]; simp

/-- `y` solves the resolvent cubic. -/
theorem o4Y_resolvent (al be ga : ℝ) :
    2 * (o4Y al be ga) ^ 3 + 5 * al * (o4Y al be ga) ^ 2 +
      (4 * al ^ 2 - 2 * ga) * (o4Y al be ga) + (al ^ 3 - al * ga - be ^ 2 / 4) = 0 := by
  unfold o4Y
  simp only
  set P : ℝ := -(al * al) / 12 - ga with hP
  set Q : ℝ := -(al * al * al) / 108 + al * ga / 3 - be ^ 2 / 8 with hQ
  have hPc : (P : ℂ) = -((al : ℂ) * al) / 12 - ga := by rw [hP]; push_cast; ring
  have hQc : (Q : ℂ) = -((al : ℂ) * al * al) / 108 + al * ga / 3 - (be : ℂ) ^ 2 / 8 := by
    rw [hQ]; push_cast; ring
  set S := csqrt ((Q : ℂ) ^ 2 / 4 + (P : ℂ) ^ 3 / 27) with hS
  have hS2 : S ^ 2 = (Q : ℂ) ^ 2 / 4 + (P : ℂ) ^ 3 / 27 := csqrt_sq _
  -- the depressed cubic implies the resolvent
  have key : ∀ v : ℂ, v ^ 3 + P * v + Q = 0 →
      2 * (-5 * (al : ℂ) / 6 + v) ^ 3 + 5 * al * (-5 * (al : ℂ) / 6 + v) ^ 2 +
      (4 * (al : ℂ) ^ 2 - 2 * ga) * (-5 * (al : ℂ) / 6 + v) +
      ((al : ℂ) ^ 3 - al * ga - (be : ℂ) ^ 2 / 4) = 0 := by
    intro v hv
    rw [hPc, hQc] at hv
    linear_combination 2 * hv
  split
  · rename_i hU
    have hR := ccbrt_re_eq_zero.1 hU
    have hS' : S = (Q : ℂ) / 2 := by linear_combination hR
    have hP0 : (P : ℂ) = 0 := by
      rw [hS'] at hS2
      have : (P : ℂ) ^ 3 = 0 := by linear_combination -27 * hS2
      exact pow_eq_zero_iff three_ne_zero |>.1 this
    have := key (-ccbrt Q) (by rw [hP0]; linear_combination -ccbrt_cube (Q : ℂ))
    rw [sub_eq_add_neg]
    exact this
  · rename_i hU
    set R := -(Q : ℂ) / 2 + S with hR
    set U := ccbrt R with hUdef
    have hU0 : U ≠ 0 := fun h => hU (by rw [h]; simp)
    have hU3 : U ^ 3 = R := ccbrt_cube R
    have := key (U - P / (3 * U)) (by
      have h6 : U ^ 6 + Q * U ^ 3 - (P : ℂ) ^ 3 / 27 = 0 := by
        have : U ^ 6 = (U ^ 3) ^ 2 := by ring
        rw [this, hU3, hR]
        linear_combination hS2
      field_simp
      linear_combination 27 * h6)
    have e : -5 * (al : ℂ) / 6 - P / (3 * U) + U = -5 * (al : ℂ) / 6 + (U - P / (3 * U)) := by ring
    rw [e]
    exact this

/-- Factorisation of the depressed quartic. -/
theorem quartic_factor {al be ga y w s1 s2 u : ℂ} (hw : w ≠ 0) (hw2 : w ^ 2 = al + 2 * y)
    (h1 : s1 ^ 2 = -(3 * al + 2 * y + 2 * be / w)) (h2 : s2 ^ 2 = -(3 * al + 2 * y - 2 * be / w))
    (hy : 2 * y ^ 3 + 5 * al * y ^ 2 + (4 * al ^ 2 - 2 * ga) * y +
      (al ^ 3 - al * ga - be ^ 2 / 4) = 0) :
    u ^ 4 + al * u ^ 2 + be * u + ga =
      (u - (1 / 2) * (w + s1)) * (u - (1 / 2) * (w - s1)) * (u - (1 / 2) * (-w + s2)) *
        (u - (1 / 2) * (-w - s2)) := by
  have e1 : (u - (1 / 2) * (w + s1)) * (u - (1 / 2) * (w - s1)) =
      u ^ 2 - w * u + (al + y + be / (2 * w)) := by
    have : be / (2 * w) = (2 * be / w) / 4 := by field_simp; norm_num
    rw [this]
    linear_combination -(1 / 4) * h1 + (1 / 4) * hw2
  have e2 : (u - (1 / 2) * (-w + s2)) * (u - (1 / 2) * (-w - s2)) =
      u ^ 2 + w * u + (al + y - be / (2 * w)) := by
    have : be / (2 * w) = (2 * be / w) / 4 := by field_simp; norm_num
    rw [this]
    linear_combination -(1 / 4) * h2 + (1 / 4) * hw2
  have e3 : (al + y) ^ 2 - (be / (2 * w)) ^ 2 = ga := by
    have hq : w ^ 2 * ((al + y) ^ 2 - ga) = be ^ 2 / 4 := by rw [hw2]; linear_combination hy
    have : (be / (2 * w)) ^ 2 = (be ^ 2 / 4) / w ^ 2 := by field_simp; norm_num
    rw [this, ← hq, mul_div_cancel_left₀ _ (pow_ne_zero 2 hw)]
    ring
  have e4 : be / (2 * w) * w = be / 2 := by field_simp
  rw [mul_assoc, e1, e2]
  linear_combination -e3 + u ^ 2 * hw2 - 2 * u * e4

/-- If the first resolvent factor vanishes then the quartic is biquadratic. -/
theorem o4_beta_zero {al be ga : ℝ} (h : (al : ℂ) + 2 * o4Y al be ga = 0) : be = 0 := by
  have hy := o4Y_resolvent al be ga
  have e : o4Y al be ga = -(al : ℂ) / 2 := by linear_combination (1 / 2) * h
  rw [e] at hy
  have : (be : ℂ) ^ 2 = 0 := by linear_combination -4 * hy
  have := pow_eq_zero_iff two_ne_zero |>.1 this
  exact_mod_cast this

theorem o4RootsC_spec {A B C D E : ℝ} {r : Fin 4 → ℂ} (h : o4RootsC A B C D E = some r) :
    ∀ x : ℂ, A * x ^ 4 + B * x ^ 3 + C * x ^ 2 + D * x + E =
      A * (x - r 0) * (x - r 1) * (x - r 2) * (x - r 3) := by
  unfold o4RootsC at h
  simp only at h
  split at h
  · exact absurd h (by simp)
  · rename_i hcond
    push Not at hcond
    obtain ⟨hA, hw⟩ := hcond
    set al : ℝ := -3 * (B * B) / (8 * (A * A)) + C / A with hal
    set be : ℝ := (B * B * B) / (8 * (A * A * A)) - B * C / (2 * (A * A)) + D / A with hbe
    set ga : ℝ := -3 * (B * B * B * B) / (256 * (A * A * A * A)) + (B * B) * C / (16 * (A * A * A)) -
      B * D / (4 * (A * A)) + E / A with hga
    have hal' : (al : ℂ) = -3 * (B * B) / (8 * (A * A)) + C / A := by rw [hal]; push_cast; ring
    have hbe' : (be : ℂ) = (B * B * B) / (8 * (A * A * A)) - B * C / (2 * (A * A)) + D / A := by
      rw [hbe]; push_cast; ring
    have hga' : (ga : ℂ) = -3 * (B * B * B * B) / (256 * (A * A * A * A)) +
      (B * B) * C / (16 * (A * A * A)) - B * D / (4 * (A * A)) + E / A := by
      rw [hga]; push_cast; ring
    have hy := o4Y_resolvent al be ga
    set y := o4Y al be ga
    set w := csqrt (al + 2 * y) with hwdef
    set s1 := csqrt (-(3 * al + 2 * y + 2 * be / w)) with hs1
    set s2 := csqrt (-(3 * al + 2 * y - 2 * be / w)) with hs2
    have hr := Option.some.inj h
    have hAc : (A : ℂ) ≠ 0 := by exact_mod_cast hA
    intro x
    have hq := quartic_factor (u := x + B / (4 * A)) hw (csqrt_sq _) (csqrt_sq _) (csqrt_sq _) hy
    rw [← hs1, ← hs2] at hq
    have hl : A * x ^ 4 + B * x ^ 3 + C * x ^ 2 + D * x + E =
        A * ((x + B / (4 * A)) ^ 4 + al * (x + B / (4 * A)) ^ 2 + be * (x + B / (4 * A)) + ga) := by
      rw [hal', hbe', hga']
      field_simp
      ring
    rw [hl, hq, ← hr]
    simp only [Matrix.cons_val]
    ring

/-! ### The cubic -/

theorem rcbrt_cube {x : ℝ} (hx : 0 ≤ x) : (x ^ ((3 : ℕ) : ℝ)⁻¹) ^ 3 = x :=
  Real.rpow_inv_natCast_pow hx three_ne_zero

theorem angle_spec {re im : ℝ} (him : 0 < im) :
    let at3 := if re = 0 then Real.pi / 2 else Real.arctan (im / re)
    let a3 := if re < 0 then at3 + Real.pi else at3
    Real.sqrt (re ^ 2 + im ^ 2) * Real.cos a3 = re ∧
    Real.sqrt (re ^ 2 + im ^ 2) * Real.sin a3 = im := by
  intro at3 a3
  by_cases h0 : re = 0
  · simp only [a3, at3, h0, if_true, lt_irrefl, if_false, Real.cos_pi_div_two, Real.sin_pi_div_two]
    simp [Real.sqrt_sq him.le]
  · have hs : Real.sqrt (re ^ 2 + im ^ 2) = |re| * Real.sqrt (1 + (im / re) ^ 2) := by
      rw [← Real.sqrt_sq_eq_abs, ← Real.sqrt_mul (sq_nonneg _)]
      congr 1
      field_simp
    have hp : Real.sqrt (1 + (im / re) ^ 2) ≠ 0 := (Real.sqrt_pos.2 (by positivity)).ne'
    by_cases h1 : re < 0
    · have ea : a3 = Real.arctan (im / re) + Real.pi := by simp [a3, at3, h0, h1]
      rw [ea, Real.cos_add_pi, Real.sin_add_pi, Real.cos_arctan, Real.sin_arctan, hs, abs_of_neg h1]
      constructor
      · field_simp
      · field_simp
    · have h2 : 0 < re := lt_of_le_of_ne (not_lt.1 h1) (Ne.symm h0)
      have ea : a3 = Real.arctan (im / re) := by simp [a3, at3, h0, h1]
      rw [ea, Real.cos_arctan, Real.sin_arctan, hs, abs_of_pos h2]
      constructor
      · field_simp
      · field_simp

/-- In the case of three real roots: the cube of `C`, and its squared length. -/
theorem o3C_neg {t0 t1 : ℝ} (hneg : t1 * t1 - 4 * t0 * t0 * t0 < 0) :
    o3C t0 t1 ^ 3 = ⟨(1 / 2) * t1, (1 / 2) * Real.sqrt (-(t1 * t1 - 4 * t0 * t0 * t0))⟩ ∧
    Complex.normSq (o3C t0 t1) = t0 ∧ 0 < t0 := by
  unfold o3C
  simp only
  rw [if_neg (not_le.2 hneg)]
  set im := (1 / 2) * Real.sqrt (-(t1 * t1 - 4 * t0 * t0 * t0)) with him
  set re := (1 / 2) * t1 with hre
  have himp : 0 < im := by
    have := Real.sqrt_pos.2 (neg_pos.2 hneg)
    rw [him]; linarith
  obtain ⟨hc, hs⟩ := angle_spec (re := re) himp
  set a3 := if re < 0 then (if re = 0 then Real.pi / 2 else Real.arctan (im / re)) + Real.pi else
    (if re = 0 then Real.pi / 2 else Real.arctan (im / re)) with ha3
  set r3 := Real.sqrt (re ^ 2 + im ^ 2) with hr3
  have hr30 : 0 ≤ r3 := Real.sqrt_nonneg _
  set r := r3 ^ ((3 : ℕ) : ℝ)⁻¹ with hr
  have hr0 : 0 ≤ r := Real.rpow_nonneg hr30 _
  have hrc : r ^ 3 = r3 := rcbrt_cube hr30
  have ht0 : 0 < t0 := by
    by_contra h
    push Not at h
    have : t0 * t0 * t0 ≤ 0 := mul_nonpos_of_nonneg_of_nonpos (mul_self_nonneg _) h
    nlinarith [mul_self_nonneg t1]
  have hr32 : r3 ^ 2 = t0 ^ 3 := by
    rw [hr3, Real.sq_sqrt (by positivity), him, hre, mul_pow, mul_pow,
      Real.sq_sqrt (neg_pos.2 hneg).le]
    ring
  have hr2 : r ^ 2 = t0 := by
    have h6 : (r ^ 2) ^ 3 = t0 ^ 3 := by
      have : (r ^ 2) ^ 3 = (r ^ 3) ^ 2 := by ring
      rw [this, hrc, hr32]
    exact (pow_left_inj₀ (sq_nonneg r) ht0.le three_ne_zero).1 h6
  refine ⟨?_, ?_, ht0⟩
  · have h1 : Real.cos a3 = 4 * Real.cos (a3 / 3) ^ 3 - 3 * Real.cos (a3 / 3) := by
      rw [← Real.cos_three_mul]; congr 1; ring
    have h2 : Real.sin a3 = 3 * Real.sin (a3 / 3) - 4 * Real.sin (a3 / 3) ^ 3 := by
      rw [← Real.sin_three_mul]; congr 1; ring
    have h3 := Real.sin_sq_add_cos_sq (a3 / 3)
    apply Complex.ext
    · simp only [pow_succ, pow_zero, one_mul, Complex.mul_re, Complex.mul_im]
      rw [← hc, h1, ← hrc]
      linear_combination -3 * r ^ 3 * Real.cos (a3 / 3) * h3
    · simp only [pow_succ, pow_zero, one_mul, Complex.mul_re, Complex.mul_im]
      rw [← hs, h2, ← hrc]
      linear_combination 3 * r ^ 3 * Real.sin (a3 / 3) * h3
  · rw [Complex.normSq_mk]
    have h3 := Real.sin_sq_add_cos_sq (a3 / 3)
    rw [← hr2]
    linear_combination r ^ 2 * h3

/-- In the other case `C` is real and `C³ = (θ₁ + √term)/2`. -/
theorem o3C_nonneg {t0 t1 : ℝ} (hnn : 0 ≤ t1 * t1 - 4 * t0 * t0 * t0) :
    ∃ c : ℝ, o3C t0 t1 = (c : ℂ) ∧
      c ^ 3 = (1 / 2) * (t1 + Real.sqrt (t1 * t1 - 4 * t0 * t0 * t0)) := by
  unfold o3C
  simp only
  rw [if_pos hnn]
  split
  · rename_i h
    refine ⟨_, rfl, ?_⟩
    have := rcbrt_cube (neg_pos.2 h).le
    rw [neg_pow, this]
    ring
  · rename_i h
    exact ⟨_, rfl, rcbrt_cube (not_lt.1 h)⟩

theorem o3C_six (t0 t1 : ℝ) : o3C t0 t1 ^ 6 - t1 * o3C t0 t1 ^ 3 + t0 ^ 3 = 0 := by
  have e6 : o3C t0 t1 ^ 6 = (o3C t0 t1 ^ 3) ^ 2 := by ring
  rw [e6]
  by_cases h : 0 ≤ t1 * t1 - 4 * t0 * t0 * t0
  · obtain ⟨c, hc, h3⟩ := o3C_nonneg h
    rw [hc]
    have hs := Real.mul_self_sqrt h
    set s := Real.sqrt (t1 * t1 - 4 * t0 * t0 * t0)
    have : (c ^ 3) ^ 2 - t1 * c ^ 3 + t0 ^ 3 = 0 := by
      rw [h3]; linear_combination (1 / 4) * hs
    exact_mod_cast this
  · obtain ⟨h3, _⟩ := o3C_neg (not_le.1 h)
    rw [h3]
    have hs := Real.mul_self_sqrt (neg_pos.2 (not_le.1 h)).le
    set s := Real.sqrt (-(t1 * t1 - 4 * t0 * t0 * t0))
    apply Complex.ext
    · simp only [pow_succ, pow_zero, one_mul, Complex.add_re, Complex.sub_re, Complex.mul_re,
        Complex.ofReal_re, Complex.ofReal_im, Complex.zero_re, Complex.mul_im]
      linear_combination -(1 / 4) * hs
    · simp only [pow_succ, pow_zero, one_mul, Complex.add_im, Complex.sub_im, Complex.mul_re,
        Complex.ofReal_re, Complex.ofReal_im, Complex.zero_im, Complex.mul_im]
      ring

/-- `C` vanishes exactly when `θ₀ = 0` and `θ₁ ≤ 0`. -/
theorem o3C_eq_zero (t0 t1 : ℝ) : o3C t0 t1 = 0 ↔ t0 = 0 ∧ t1 ≤ 0 := by
  constructor
  · intro h
    have h6 := o3C_six t0 t1
    rw [h] at h6
    have ht0 : t0 = 0 := by
      have : (t0 : ℂ) ^ 3 = 0 := by simpa using h6
      have := pow_eq_zero_iff three_ne_zero |>.1 this
      exact_mod_cast this
    refine ⟨ht0, ?_⟩
    have hnn : 0 ≤ t1 * t1 - 4 * t0 * t0 * t0 := by rw [ht0]; simpa using mul_self_nonneg t1
    obtain ⟨c, hc, h3⟩ := o3C_nonneg hnn
    rw [h] at hc
    have hc0 : c = 0 := by exact_mod_cast hc.symm
    rw [hc0] at h3
    have := Real.sqrt_nonneg (t1 * t1 - 4 * t0 * t0 * t0)
    norm_num at h3
    linarith
  · rintro ⟨h0, h1⟩
    have hnn : 0 ≤ t1 * t1 - 4 * t0 * t0 * t0 := by rw [h0]; simpa using mul_self_nonneg t1
    obtain ⟨c, hc, h3⟩ := o3C_nonneg hnn
    have : Real.sqrt (t1 * t1 - 4 * t0 * t0 * t0) = -t1 := by
      rw [h0]
      simp only [mul_zero, sub_zero]
      rw [Real.sqrt_mul_self_eq_abs, abs_of_nonpos h1]
    rw [this] at h3
    have : c = 0 := by
      have : c ^ 3 = 0 := by linarith
      exact pow_eq_zero_iff three_ne_zero |>.1 this
    rw [hc, this]; simp

theorem sqrt3_sq : (Real.sqrt 3 : ℂ) ^ 2 = 3 := by
  have : Real.sqrt 3 ^ 2 = 3 := Real.sq_sqrt (by norm_num)
  exact_mod_cast this

theorem unit2_eq : (⟨-(1 / 2), (1 / 2) * Real.sqrt 3⟩ : ℂ) =
    -(1 / 2) + (1 / 2) * Real.sqrt 3 * Complex.I := by
  apply Complex.ext <;> simp

theorem unit3_eq : (⟨-(1 / 2), -(1 / 2) * Real.sqrt 3⟩ : ℂ) =
    -(1 / 2) - (1 / 2) * Real.sqrt 3 * Complex.I := by
  apply Complex.ext <;> simp

/-- Factorisation of the cubic. -/
theorem cubic_factor {a b c d C u v : ℂ} (ha : a ≠ 0) (hC : C ≠ 0) (hu : u + v = -1)
    (huv : u * v = 1)
    (h6 : C ^ 6 - (2 * b * b * b - 9 * a * b * c + 27 * a * a * d) * C ^ 3 +
      (b * b - 3 * a * c) ^ 3 = 0) (x : ℂ) :
    a * x ^ 3 + b * x ^ 2 + c * x + d =
      a * (x - -(1 / (3 * a)) * (b + 1 * C + (b * b - 3 * a * c) / (1 * C))) *
        (x - -(1 / (3 * a)) * (b + u * C + (b * b - 3 * a * c) / (u * C))) *
        (x - -(1 / (3 * a)) * (b + v * C + (b * b - 3 * a * c) / (v * C))) := by
  have hu0 : u ≠ 0 := by rintro rfl; simp at huv
  have hv0 : v ≠ 0 := by rintro rfl; simp at huv
  set t := (b * b - 3 * a * c) / C with ht
  have htC : t * C = b * b - 3 * a * c := by rw [ht]; field_simp
  have e1 : (b * b - 3 * a * c) / (1 * C) = t := by rw [one_mul]
  have e2 : (b * b - 3 * a * c) / (u * C) = v * t := by
    rw [ht, div_mul_eq_div_div_swap, div_eq_iff hu0]; linear_combination -(b * b - 3 * a * c) / C * huv
  have e3 : (b * b - 3 * a * c) / (v * C) = u * t := by
    rw [ht, div_mul_eq_div_div_swap, div_eq_iff hv0]; linear_combination -(b * b - 3 * a * c) / C * huv
  rw [e1, e2, e3]
  clear e1 e2 e3
  clear_value t
  have h3 : C ^ 3 + t ^ 3 = 2 * b * b * b - 9 * a * b * c + 27 * a * a * d := by
    have : C ^ 3 * (C ^ 3 + t ^ 3 - (2 * b * b * b - 9 * a * b * c + 27 * a * a * d)) = 0 := by
      rw [← htC] at h6
      linear_combination h6
    have := (mul_eq_zero.1 this).resolve_left (pow_ne_zero 3 hC)
    linear_combination this
  set z := 3 * a * x + b with hz
  have hprod : (z + C + t) * (z + u * C + v * t) * (z + v * C + u * t) =
      z ^ 3 - 3 * (t * C) * z + (C ^ 3 + t ^ 3) := by
    have hu3 : u ^ 2 + v ^ 2 = -1 := by linear_combination (u + v - 1) * hu - 2 * huv
    linear_combination (z + C + t) * (z * (C + t) * hu + (C ^ 2 + t ^ 2) * huv + C * t * hu3)
  have hx : x = (z - b) / (3 * a) := by rw [hz]; field_simp; ring
  have hfin : (27 : ℂ) * a ^ 2 * (a * x ^ 3 + b * x ^ 2 + c * x + d) =
      z ^ 3 - 3 * (t * C) * z + (C ^ 3 + t ^ 3) := by
    rw [h3, htC, hz]; ring
  have hfac : (27 : ℂ) * a ^ 2 * (a * (x - -(1 / (3 * a)) * (b + 1 * C + t)) *
        (x - -(1 / (3 * a)) * (b + u * C + v * t)) *
        (x - -(1 / (3 * a)) * (b + v * C + u * t))) =
      (z + C + t) * (z + u * C + v * t) * (z + v * C + u * t) := by
    rw [hz]; field_simp; ring
  have h27 : (27 : ℂ) * a ^ 2 ≠ 0 := mul_ne_zero (by norm_num) (pow_ne_zero 2 ha)
  apply mul_left_cancel₀ h27
  rw [hfin, hfac, hprod]

theorem o3RootsC_spec {a b c d : ℝ} {r : Fin 3 → ℂ} (h : o3RootsC a b c d = some r) :
    ∀ x : ℂ, a * x ^ 3 + b * x ^ 2 + c * x + d = a * (x - r 0) * (x - r 1) * (x - r 2) := by
  unfold o3RootsC at h
  simp only at h
  split at h
  · exact absurd h (by simp)
  · rename_i hcond
    push Not at hcond
    obtain ⟨ha, hC⟩ := hcond
    have hac : (a : ℂ) ≠ 0 := by exact_mod_cast ha
    have h6 := o3C_six (b * b - 3 * a * c) (2 * b * b * b - 9 * a * b * c + 27 * a * a * d)
    rw [← Option.some.inj h]
    intro x
    have hu : (⟨-(1 / 2), (1 / 2) * Real.sqrt 3⟩ : ℂ) + ⟨-(1 / 2), -(1 / 2) * Real.sqrt 3⟩ = -1 := by
      rw [unit2_eq, unit3_eq]; ring
    have huv : (⟨-(1 / 2), (1 / 2) * Real.sqrt 3⟩ : ℂ) * ⟨-(1 / 2), -(1 / 2) * Real.sqrt 3⟩ = 1 := by
      rw [unit2_eq, unit3_eq]
      linear_combination -(1 / 4) * (Real.sqrt 3 : ℂ) ^ 2 * Complex.I_sq + (1 / 4) * sqrt3_sq
    push_cast at h6
    have := cubic_factor hac hC hu huv h6 x
    simp only [Matrix.cons_val]
    have e1 : (⟨1, 0⟩ : ℂ) = 1 := rfl
    rw [e1]
    push_cast
    exact this

/-- In the case of three real roots the imaginary parts cancel. -/
theorem conj_cancel {C u : ℂ} {t : ℝ} (hC : Complex.normSq C = t) (hu : Complex.normSq u = 1)
    (hC0 : C ≠ 0) : (u * C + (t : ℂ) / (u * C)).im = 0 := by
  have hu0 : u ≠ 0 := by rintro rfl; simp at hu
  have e : (t : ℂ) / (u * C) = starRingEnd ℂ (u * C) := by
    rw [div_eq_iff (mul_ne_zero hu0 hC0), mul_comm, Complex.mul_conj, Complex.normSq_mul, hu, hC,
      one_mul]
  rw [e, Complex.add_im, Complex.conj_im]
  ring

theorem scaled_im {a b : ℝ} {z : ℂ} (hz : z.im = 0) : (-(1 / (3 * (a : ℂ))) * (b + z)).im = 0 := by
  have e1 : -(1 / (3 * (a : ℂ))) = ((-(1 / (3 * a)) : ℝ) : ℂ) := by push_cast; ring
  rw [e1, Complex.im_ofReal_mul]; simp [hz]

end OpenGV
