import Verif.Proof.Roots

/-!
# Properties of the closed-form root finders (C27, C28)
-/

namespace OpenGV.Props

/-- **C27 (all roots).** Whenever `o4_roots` divides by no zero, the four complex numbers it
computes are the roots with multiplicity: the quartic is the product of its linear factors. The
returned values are their real parts, so every real root is returned. -/
theorem C27_quartic_roots (A B C D E : ℝ) (l : List ℝ) (h : o4Roots A B C D E = some l) :
    (∃ r : Fin 4 → ℂ, l = [(r 0).re, (r 1).re, (r 2).re, (r 3).re] ∧
      ∀ x : ℂ, A * x ^ 4 + B * x ^ 3 + C * x ^ 2 + D * x + E =
        A * (x - r 0) * (x - r 1) * (x - r 2) * (x - r 3)) ∧
    ∀ x : ℝ, A * x ^ 4 + B * x ^ 3 + C * x ^ 2 + D * x + E = 0 → x ∈ l := by
  unfold o4Roots at h
  obtain ⟨r, hr, hl⟩ := Option.map_eq_some_iff.1 h
  have hspec := o4RootsC_spec hr
  refine ⟨⟨r, hl.symm, hspec⟩, ?_⟩
  intro x hx
  have hA : (A : ℂ) ≠ 0 := by
    intro h0
    have : A = 0 := by exact_mod_cast h0
    rw [this] at hr
    unfold o4RootsC at hr
    simp at hr
  have h1 := hspec x
  have hx' : (A : ℂ) * x ^ 4 + B * x ^ 3 + C * x ^ 2 + D * x + E = 0 := by exact_mod_cast hx
  rw [hx'] at h1
  have h2 : ∃ i, (x : ℂ) = r i := by
    have := h1.symm
    simp only [mul_eq_zero, hA, false_or] at this
    rcases this with ((h | h) | h) | h
    · exact ⟨0, sub_eq_zero.1 h⟩
    · exact ⟨1, sub_eq_zero.1 h⟩
    · exact ⟨2, sub_eq_zero.1 h⟩
    · exact ⟨3, sub_eq_zero.1 h⟩
  obtain ⟨i, hi⟩ := h2
  have : x = (r i).re := by rw [← hi]; simp
  rw [← hl, this]
  fin_cases i <;> simp

/-- **C27 (when it is defined).** For every quartic whose depressed form has a linear term, no
division by zero happens. -/
theorem C27_quartic_defined (A B C D E : ℝ) (hA : A ≠ 0)
    (hlin : B ^ 3 - 4 * A * B * C + 8 * A ^ 2 * D ≠ 0) : ∃ l, o4Roots A B C D E = some l := by
  unfold o4Roots o4RootsC
  simp only
  rw [if_neg]
  · exact ⟨_, rfl⟩
  · rintro (h | h)
    · exact hA h
    · have := o4_beta_zero (csqrt_eq_zero.1 h)
      apply hlin
      field_simp at this
      linarith

example : (1 : ℝ) ≠ 0 ∧ (0 : ℝ) ^ 3 - 4 * 1 * 0 * (-5) + 8 * 1 ^ 2 * 3 ≠ 0 := by norm_num

/-- **C27 (undefined).** For `x⁴ - 1`, which has the real roots 1 and -1, the code divides by
zero. -/
theorem C27_quartic_undefined : o4Roots 1 0 0 0 (-1) = none := by
  unfold o4Roots o4RootsC
  simp only
  rw [if_pos, Option.map_none]
  right
  rw [csqrt_eq_zero]
  have e0 : (-3 * ((0 : ℝ) * 0) / (8 * (1 * 1)) + 0 / 1) = 0 := by norm_num
  have e1 : ((0 : ℝ) * 0 * 0 / (8 * (1 * 1 * 1)) - 0 * 0 / (2 * (1 * 1)) + 0 / 1) = 0 := by norm_num
  have e2 : (-3 * ((0 : ℝ) * 0 * 0 * 0) / (256 * (1 * 1 * 1 * 1)) + 0 * 0 * 0 / (16 * (1 * 1 * 1)) -
    0 * 0 / (4 * (1 * 1)) + -1 / 1) = -1 := by norm_num
  rw [e0, e1, e2]
  unfold o4Y
  simp only
  norm_num
  have hs : csqrt (1 / 27) ≠ 0 := by rw [Ne, csqrt_eq_zero]; norm_num
  have hre := ccbrt_re_pos hs
  rw [if_neg hre.ne']
  -- `U` is a positive real number with `U² = 1/3`
  have h27 : csqrt (1 / 27) = ((1 / Real.sqrt 27 : ℝ) : ℂ) := by
    have hp : (0 : ℝ) ≤ 1 / 27 := by norm_num
    have : csqrt (((1 / 27 : ℝ)) : ℂ) = (((1 / 27 : ℝ) ^ ((2 : ℕ) : ℝ)⁻¹ : ℝ) : ℂ) := by
      rw [csqrt, Complex.ofReal_cpow hp]; push_cast; rfl
    push_cast at this
    rw [this]
    norm_cast
    have e : (2 : ℝ)⁻¹ = 1 / 2 := by norm_num
    rw [e, ← Real.sqrt_eq_rpow, Real.sqrt_div (by norm_num)]
    simp
  have hU : ccbrt (csqrt (1 / 27)) = ((1 / Real.sqrt 3 : ℝ) : ℂ) := by
    have hs3 : (0 : ℝ) < Real.sqrt 3 := Real.sqrt_pos.2 (by norm_num)
    have hp : (0 : ℝ) ≤ 1 / Real.sqrt 27 := by positivity
    have h1 : ccbrt (((1 / Real.sqrt 27 : ℝ)) : ℂ) =
        (((1 / Real.sqrt 27 : ℝ) ^ ((3 : ℕ) : ℝ)⁻¹ : ℝ) : ℂ) := by
      rw [ccbrt, Complex.ofReal_cpow hp]; push_cast; rfl
    have h2 : (1 / Real.sqrt 27 : ℝ) = (1 / Real.sqrt 3) ^ 3 := by
      have : Real.sqrt 27 = Real.sqrt 3 ^ 3 := by
        rw [show (27 : ℝ) = 3 ^ 3 by norm_num]
        rw [Real.sqrt_eq_iff_mul_self_eq (by norm_num) (by positivity)]
        have := Real.sq_sqrt (show (0 : ℝ) ≤ 3 by norm_num)
        calc (3 : ℝ) ^ 3 = (Real.sqrt 3 ^ 2) ^ 3 := by rw [this]
          _ = Real.sqrt 3 ^ 3 * Real.sqrt 3 ^ 3 := by ring
      rw [this, one_div_pow]
    rw [h27, h1, h2, Real.pow_rpow_inv_natCast (by positivity) three_ne_zero]
  rw [hU]
  have hs3 : (Real.sqrt 3 : ℂ) ≠ 0 := by
    have : Real.sqrt 3 ≠ 0 := (Real.sqrt_pos.2 (by norm_num)).ne'
    exact_mod_cast this
  push_cast
  field_simp
  rw [sqrt3_sq]
  norm_num

/-- **C28 (all roots).** Whenever `o3_roots` divides by no zero, the three complex numbers it
computes are the roots with multiplicity; the returned values are their real parts, so every real
root is returned. -/
theorem C28_cubic_roots (a b c d : ℝ) (l : List ℝ) (h : o3Roots a b c d = some l) :
    (∃ r : Fin 3 → ℂ, l = [(r 0).re, (r 1).re, (r 2).re] ∧
      ∀ x : ℂ, a * x ^ 3 + b * x ^ 2 + c * x + d = a * (x - r 0) * (x - r 1) * (x - r 2)) ∧
    ∀ x : ℝ, a * x ^ 3 + b * x ^ 2 + c * x + d = 0 → x ∈ l := by
  unfold o3Roots at h
  obtain ⟨r, hr, hl⟩ := Option.map_eq_some_iff.1 h
  have hspec := o3RootsC_spec hr
  refine ⟨⟨r, hl.symm, hspec⟩, ?_⟩
  intro x hx
  have ha : (a : ℂ) ≠ 0 := by
    intro h0
    have : a = 0 := by exact_mod_cast h0
    rw [this] at hr
    unfold o3RootsC at hr
    simp at hr
  have h1 := hspec x
  have hx' : (a : ℂ) * x ^ 3 + b * x ^ 2 + c * x + d = 0 := by exact_mod_cast hx
  rw [hx'] at h1
  have h2 : ∃ i, (x : ℂ) = r i := by
    have := h1.symm
    simp only [mul_eq_zero, ha, false_or] at this
    rcases this with (h | h) | h
    · exact ⟨0, sub_eq_zero.1 h⟩
    · exact ⟨1, sub_eq_zero.1 h⟩
    · exact ⟨2, sub_eq_zero.1 h⟩
  obtain ⟨i, hi⟩ := h2
  have : x = (r i).re := by rw [← hi]; simp
  rw [← hl, this]
  fin_cases i <;> simp

/-- **C28 (when it is defined).** The exact set of cubics for which a division by zero happens: the
leading coefficient is zero, or the derivative has a double root (`b² = 3 a c`) and
`2b³ - 9abc + 27a²d ≤ 0`. -/
theorem C28_cubic_undefined_iff (a b c d : ℝ) :
    o3Roots a b c d = none ↔
      a = 0 ∨ (b ^ 2 = 3 * a * c ∧ 2 * b ^ 3 - 9 * a * b * c + 27 * a ^ 2 * d ≤ 0) := by
  unfold o3Roots o3RootsC
  simp only [Option.map_eq_none_iff]
  have e := o3C_eq_zero (b * b - 3 * a * c) (2 * b * b * b - 9 * a * b * c + 27 * a * a * d)
  have e1 : b * b - 3 * a * c = 0 ↔ b ^ 2 = 3 * a * c := by rw [sub_eq_zero, sq]
  have e2 : 2 * b * b * b - 9 * a * b * c + 27 * a * a * d =
      2 * b ^ 3 - 9 * a * b * c + 27 * a ^ 2 * d := by ring
  rw [e1, e2] at e
  rw [e2, ← e]
  split
  · rename_i h
    exact ⟨fun _ => h, fun _ => rfl⟩
  · rename_i h
    exact ⟨fun h0 => by simp at h0, fun h0 => absurd h0 h⟩

/-- `x³ - 1` and `(x - 1)³` are among them, `x³ + 1` and `x³ - x` are not. -/
example : o3Roots 1 0 0 (-1) = none ∧ o3Roots 1 (-3) 3 (-1) = none ∧ o3Roots 1 0 0 1 ≠ none ∧
    o3Roots 1 0 (-1) 0 ≠ none := by
  refine ⟨?_, ?_, ?_, ?_⟩ <;> simp only [ne_eq, C28_cubic_undefined_iff] <;> norm_num

/-- **C28 (three real roots).** If the discriminant is positive, the code divides by no zero and all
three returned values are roots. -/
theorem C28_three_real_roots (a b c d : ℝ) (ha : a ≠ 0)
    (hdisc : 0 < 18 * a * b * c * d - 4 * b ^ 3 * d + b ^ 2 * c ^ 2 - 4 * a * c ^ 3 -
      27 * a ^ 2 * d ^ 2) :
    ∃ l, o3Roots a b c d = some l ∧ l.length = 3 ∧
      ∀ x ∈ l, a * x ^ 3 + b * x ^ 2 + c * x + d = 0 := by
  set t0 := b * b - 3 * a * c with ht0
  set t1 := 2 * b * b * b - 9 * a * b * c + 27 * a * a * d with ht1
  have hneg : t1 * t1 - 4 * t0 * t0 * t0 < 0 := by
    have : t1 * t1 - 4 * t0 * t0 * t0 = -(27 * a ^ 2 * (18 * a * b * c * d - 4 * b ^ 3 * d +
      b ^ 2 * c ^ 2 - 4 * a * c ^ 3 - 27 * a ^ 2 * d ^ 2)) := by rw [ht0, ht1]; ring
    rw [this]
    have ha2 : 0 < a ^ 2 := by positivity
    have := mul_pos (mul_pos (show (0 : ℝ) < 27 by norm_num) ha2) hdisc
    linarith
  obtain ⟨h3, hns, hpos⟩ := o3C_neg hneg
  have hC0 : o3C t0 t1 ≠ 0 := by
    intro h
    rw [h] at hns
    simp at hns
    linarith
  obtain ⟨r, hr⟩ : ∃ r, o3RootsC a b c d = some r := by
    unfold o3RootsC
    simp only
    rw [if_neg (by rintro (h | h); exacts [ha h, hC0 h])]
    exact ⟨_, rfl⟩
  have him : ∀ i, (r i).im = 0 := by
    have hr' := hr
    unfold o3RootsC at hr'
    simp only at hr'
    rw [if_neg (by rintro (h | h); exacts [ha h, hC0 h])] at hr'
    rw [← Option.some.inj hr']
    have hs3 : Real.sqrt 3 * Real.sqrt 3 = 3 := Real.mul_self_sqrt (by norm_num)
    intro i
    fin_cases i
    · simp only [Fin.zero_eta, Matrix.cons_val_zero]
      rw [add_assoc]
      exact scaled_im (conj_cancel hns (by simp) hC0)
    · simp only [Fin.mk_one, Matrix.cons_val]
      rw [add_assoc]
      exact scaled_im (conj_cancel hns (by rw [Complex.normSq_mk]; linarith) hC0)
    · simp only [Fin.reduceFinMk, Matrix.cons_val]
      rw [add_assoc]
      exact scaled_im (conj_cancel hns (by rw [Complex.normSq_mk]; linarith) hC0)
  refine ⟨[(r 0).re, (r 1).re, (r 2).re], by unfold o3Roots; rw [hr]; rfl, rfl, ?_⟩
  have hroot : ∀ i, a * (r i).re ^ 3 + b * (r i).re ^ 2 + c * (r i).re + d = 0 := by
    intro i
    have h1 := o3RootsC_spec hr (r i)
    have h2 : a * (r i) ^ 3 + b * (r i) ^ 2 + c * (r i) + d = 0 := by
      rw [h1]
      fin_cases i <;> simp
    have h4 : r i = (((r i).re : ℝ) : ℂ) := by
      apply Complex.ext <;> simp [him i]
    rw [h4] at h2
    exact_mod_cast h2
  intro x hx
  simp only [List.mem_cons, List.not_mem_nil, or_false] at hx
  rcases hx with rfl | rfl | rfl
  · exact hroot 0
  · exact hroot 1
  · exact hroot 2

example : (0 : ℝ) < 18 * 1 * 0 * (-1) * 0 - 4 * 0 ^ 3 * 0 + 0 ^ 2 * (-1) ^ 2 - 4 * 1 * (-1) ^ 3 -
    27 * 1 ^ 2 * 0 ^ 2 := by norm_num

end OpenGV.Props
