import Verif.Model.Eigensolver
import Verif.Spec.Eigensolver
import Verif.Proof.SevenPoint
import Verif.Proof.Rotation
import Mathlib.Analysis.SpecialFunctions.Trigonometric.InverseDeriv
import Mathlib.Analysis.SpecialFunctions.Pow.Deriv
import Mathlib.Analysis.SpecialFunctions.Sqrt

namespace OpenGV

open Matrix Spec

theorem list_sum_zero {l : List ℝ} (h : ∀ x ∈ l, 0 ≤ x) (h0 : l.sum = 0) : ∀ x ∈ l, x = 0 := by
  induction l with
  | nil => simp
  | cons a l ih =>
    rw [List.sum_cons] at h0
    have ha := h a List.mem_cons_self
    have hl : 0 ≤ l.sum := List.sum_nonneg fun x hx => h x (List.mem_cons_of_mem _ hx)
    intro x hx
    rcases List.mem_cons.1 hx with rfl | hx
    · linarith
    · exact ih (fun y hy => h y (List.mem_cons_of_mem _ hy)) (by linarith) x hx

/-! ### The Gram matrix -/

theorem rowForm_add (R : Mat3) (i j : Fin 3) (F : Mat3) (k : ℝ) (f : Vec3) (R' : Mat3) :
    rowForm R i (F + k • vecMulVec f f) R' j =
      rowForm R i F R' j + k * ((R i ⬝ᵥ f) * (R' j ⬝ᵥ f)) := by
  rw [rowForm, rowForm, add_mulVec, smul_mulVec, vecMulVec_mulVec, dotProduct_add,
    dotProduct_smul, dotProduct_smul, dotProduct_comm f (R' j)]
  simp only [smul_eq_mul, MulOpposite.smul_eq_mul_unop, MulOpposite.unop_op]

theorem composeMR_add (s : FSums) (w : ℝ) (f1 f2 : Vec3) (R : Mat3) :
    composeMR (s.add w f1 f2) R = composeMR s R +
      w • vecMulVec (crossProduct f1 (R *ᵥ f2)) (crossProduct f1 (R *ᵥ f2)) := by
  have hg : R *ᵥ f2 = ![R 0 ⬝ᵥ f2, R 1 ⬝ᵥ f2, R 2 ⬝ᵥ f2] := by apply ext3 <;> rfl
  rw [hg]
  simp only [composeMR, FSums.add, rowForm_add]
  generalize R 0 ⬝ᵥ f2 = g0
  generalize R 1 ⬝ᵥ f2 = g1
  generalize R 2 ⬝ᵥ f2 = g2
  apply mat3_ext <;>
    simp only [Matrix.add_apply, Matrix.smul_apply, vecMulVec_apply, cross_apply, smul_eq_mul,
      Matrix.of_apply, Matrix.cons_val, Matrix.cons_val', Matrix.cons_val_fin_one] <;> ring

theorem composeMR_zero (R : Mat3) : composeMR FSums.zero R = 0 := by
  apply mat3_ext <;> simp [composeMR, FSums.zero, rowForm]

theorem composeMR_foldl (R : Mat3) (cs : List (ℝ × Vec3 × Vec3)) (s : FSums) :
    composeMR (cs.foldl (fun s c => s.add c.1 c.2.1 c.2.2) s) R =
      composeMR s R + normalGram R cs := by
  induction cs generalizing s with
  | nil => simp [normalGram]
  | cons c cs ih =>
    rw [List.foldl_cons, ih, composeMR_add, normalGram, normalGram, List.map_cons, List.sum_cons,
      add_assoc]

theorem composeMR_eigenSums (R : Mat3) (cs : List (ℝ × Vec3 × Vec3)) :
    composeMR (eigenSums cs) R = normalGram R cs := by
  rw [eigenSums, composeMR_foldl, composeMR_zero, zero_add]

theorem cayley2rotReduced_eq (c : Vec3) :
    cayley2rotReduced c = (1 + c ⬝ᵥ c) • cayley2rot c := by
  have h := (cayley_scale_pos c).ne'
  have e : 1 + c ⬝ᵥ c = 1 + c 0 ^ 2 + c 1 ^ 2 + c 2 ^ 2 := by rw [dot3]; ring
  rw [e, cayley2rot, cayley2rotReduced]
  simp only [smul_smul, mul_one_div_cancel h, one_smul]

theorem normalGram_smul (k : ℝ) (R : Mat3) (cs : List (ℝ × Vec3 × Vec3)) :
    normalGram (k • R) cs = k ^ 2 • normalGram R cs := by
  induction cs with
  | nil => simp [normalGram]
  | cons c cs ih =>
    rw [normalGram, List.map_cons, List.sum_cons, ← normalGram, ih, normalGram, normalGram,
      List.map_cons, List.sum_cons, smul_add]
    congr 1
    rw [smul_mulVec, map_smul, smul_vecMulVec, vecMulVec_smul, smul_comm c.1 k, smul_comm c.1 k,
      smul_smul, sq]

theorem normalGram_mulVec (R : Mat3) (cs : List (ℝ × Vec3 × Vec3)) (v : Vec3) :
    normalGram R cs *ᵥ v = (cs.map fun c => (c.1 * (crossProduct c.2.1 (R *ᵥ c.2.2) ⬝ᵥ v)) •
      crossProduct c.2.1 (R *ᵥ c.2.2)).sum := by
  induction cs with
  | nil => simp [normalGram]
  | cons c cs ih =>
    rw [normalGram, List.map_cons, List.sum_cons, ← normalGram, add_mulVec, ih, List.map_cons,
      List.sum_cons, smul_mulVec, vecMulVec_mulVec]
    congr 1
    rw [mul_smul, op_smul_eq_smul]

theorem normalGram_form (R : Mat3) (cs : List (ℝ × Vec3 × Vec3)) (v : Vec3) :
    v ⬝ᵥ (normalGram R cs *ᵥ v) =
      (cs.map fun c => c.1 * (crossProduct c.2.1 (R *ᵥ c.2.2) ⬝ᵥ v) ^ 2).sum := by
  rw [normalGram_mulVec]
  induction cs with
  | nil => simp
  | cons c cs ih =>
    rw [List.map_cons, List.sum_cons, dotProduct_add, ih, List.map_cons, List.sum_cons,
      dotProduct_smul, smul_eq_mul, dotProduct_comm v]
    ring

theorem normalGram_transpose (R : Mat3) (cs : List (ℝ × Vec3 × Vec3)) :
    (normalGram R cs).transpose = normalGram R cs := by
  induction cs with
  | nil => simp [normalGram]
  | cons c cs ih =>
    rw [normalGram, List.map_cons, List.sum_cons, ← normalGram, transpose_add, ih, transpose_smul,
      transpose_vecMulVec]

theorem composeMR_transpose (s : FSums) (R : Mat3) :
    (composeMR s R).transpose = composeMR s R := by
  apply mat3_ext <;> simp [composeMR]

/-! ### The smallest eigenvalue -/

theorem det_cubic {M : Mat3} (hM : M.transpose = M) (x : ℝ) :
    (x • (1 : Mat3) - M).det = x ^ 3 + cubicB M * x ^ 2 + cubicC M * x + cubicD M := by
  have h : ∀ i j, M j i = M i j := fun i j => congrFun (congrFun hM i) j
  have h10 := h 0 1
  have h20 := h 0 2
  have h21 := h 1 2
  rw [det_fin_three, cubicB, cubicC, cubicD]
  simp
  rw [h10, h20, h21]
  ring

theorem diag_det {M V : Mat3} {l : Vec3} (hV : V.transpose * V = 1)
    (hd : V.transpose * M * V = diagonal l) (x : ℝ) :
    (x • (1 : Mat3) - M).det = (x - l 0) * (x - l 1) * (x - l 2) := by
  have e : V.transpose * (x • (1 : Mat3) - M) * V = diagonal fun i => x - l i := by
    rw [Matrix.mul_sub, Matrix.sub_mul, hd, Matrix.mul_smul, Matrix.mul_one, Matrix.smul_mul, hV]
    ext i j
    rcases eq_or_ne i j with rfl | hij
    · simp
    · simp [hij]
  have e2 := congrArg Matrix.det e
  rw [det_mul, det_mul, det_diagonal, Fin.prod_univ_three, mul_right_comm, ← det_mul, hV, det_one,
    one_mul] at e2
  exact e2

theorem cubic_coeffs {M V : Mat3} {l : Vec3} (hM : M.transpose = M) (hV : V.transpose * V = 1)
    (hd : V.transpose * M * V = diagonal l) :
    cubicB M = -(l 0 + l 1 + l 2) ∧ cubicC M = l 0 * l 1 + l 0 * l 2 + l 1 * l 2 ∧
      cubicD M = -(l 0 * l 1 * l 2) := by
  have h : ∀ x : ℝ, x ^ 3 + cubicB M * x ^ 2 + cubicC M * x + cubicD M =
      (x - l 0) * (x - l 1) * (x - l 2) := fun x => by rw [← det_cubic hM, diag_det hV hd]
  have h0 := h 0
  have h1 := h 1
  have h2 := h (-1)
  refine ⟨?_, ?_, ?_⟩ <;> linarith

theorem evT_pos_iff {M : Mat3} (hM : M.transpose = M) :
    0 < evT (cubicB M) (cubicC M) ↔ ∀ k : ℝ, M ≠ k • (1 : Mat3) := by
  have h : ∀ i j, M j i = M i j := fun i j => congrFun (congrFun hM i) j
  have e : cubicB M ^ 2 - 3 * cubicC M = ((M 0 0 - M 1 1) ^ 2 + (M 0 0 - M 2 2) ^ 2 +
      (M 1 1 - M 2 2) ^ 2) / 2 + 3 * (M 0 1 ^ 2 + M 0 2 ^ 2 + M 1 2 ^ 2) := by
    rw [cubicB, cubicC]; ring
  have hn : 0 ≤ cubicB M ^ 2 - 3 * cubicC M := by rw [e]; positivity
  constructor
  · rintro hpos k rfl
    rw [evT, e] at hpos
    simp at hpos
  · intro hne
    rw [evT]
    have : 0 < cubicB M ^ 2 - 3 * cubicC M := by
      refine lt_of_le_of_ne hn fun h0 => hne (M 0 0) ?_
      rw [e] at h0
      have s1 := sq_nonneg (M 0 0 - M 1 1)
      have s2 := sq_nonneg (M 0 0 - M 2 2)
      have s3 := sq_nonneg (M 1 1 - M 2 2)
      have s4 := sq_nonneg (M 0 1)
      have s5 := sq_nonneg (M 0 2)
      have s6 := sq_nonneg (M 1 2)
      have a1 : M 0 0 - M 1 1 = 0 := pow_eq_zero_iff two_ne_zero |>.1 (by linarith)
      have a2 : M 0 0 - M 2 2 = 0 := pow_eq_zero_iff two_ne_zero |>.1 (by linarith)
      have a4 : M 0 1 = 0 := pow_eq_zero_iff two_ne_zero |>.1 (by linarith)
      have a5 : M 0 2 = 0 := pow_eq_zero_iff two_ne_zero |>.1 (by linarith)
      have a6 : M 1 2 = 0 := pow_eq_zero_iff two_ne_zero |>.1 (by linarith)
      have b1 := h 0 1
      have b2 := h 0 2
      have b3 := h 1 2
      apply mat3_ext <;> simp <;> linarith
    positivity

theorem evS_sq_le {M : Mat3} (hM : M.transpose = M) :
    evS (cubicB M) (cubicC M) (cubicD M) ^ 2 ≤ evT (cubicB M) (cubicC M) := by
  obtain ⟨V, l, hV, hd, -⟩ := exists_sorted_diag M hM
  obtain ⟨eb, ec, ed⟩ := cubic_coeffs hM hV hd
  have : evT (cubicB M) (cubicC M) - evS (cubicB M) (cubicC M) (cubicD M) ^ 2 =
      27 * ((l 0 - l 1) * (l 0 - l 2) * (l 1 - l 2)) ^ 2 := by
    rw [evT, evS, eb, ec, ed]; ring
  have h2 := sq_nonneg ((l 0 - l 1) * (l 0 - l 2) * (l 1 - l 2))
  linarith

theorem evW_cube {e : ℝ} (he : 0 < e) : (0.5 * √(4 * e ^ 3)) ^ ((1 : ℝ) / 3) = √e ∧
    √(4 * e ^ 3) = 2 * √e ^ 3 := by
  have hs : 0 < √e := Real.sqrt_pos.2 he
  have h1 : √(4 * e ^ 3) = 2 * √e ^ 3 := by
    rw [show 4 * e ^ 3 = (2 * √e ^ 3) ^ 2 by
      rw [mul_pow, ← pow_mul, mul_comm 3 2, pow_mul, Real.sq_sqrt he.le]; ring]
    exact Real.sqrt_sq (by positivity)
  refine ⟨?_, h1⟩
  rw [h1, show (0.5 : ℝ) * (2 * √e ^ 3) = √e ^ 3 by ring, ← Real.rpow_natCast, ← Real.rpow_mul hs.le]
  norm_num

/-- The formula is a root of the cubic, to the left of its first critical point. -/
theorem evFormula_root {b c d : ℝ} (ht : 0 < evT b c) (hst : evS b c d ^ 2 ≤ evT b c) :
    0 < b ^ 2 - 3 * c ∧ |evS b c d / √(evT b c)| ≤ 1 ∧
    (let x := evFormula b (evS b c d) (evT b c)
     x ^ 3 + b * x ^ 2 + c * x + d = 0 ∧ 3 * x + b ≤ -√(b ^ 2 - 3 * c)) := by
  set s := evS b c d with hs
  set t := evT b c with htt
  set e := b ^ 2 - 3 * c with he
  have hte : t = 4 * e ^ 3 := by rw [htt, evT]
  have hepos : 0 < e := by
    by_contra hcon
    have h4 : e ≤ 0 := not_lt.1 hcon
    have h3 : e ^ 3 ≤ 0 := by
      rw [pow_succ]
      exact mul_nonpos_of_nonneg_of_nonpos (sq_nonneg e) h4
    rw [hte] at ht
    linarith
  obtain ⟨hw, hsq⟩ := evW_cube hepos
  have hD : 0 < √e := Real.sqrt_pos.2 hepos
  have hsqt : 0 < √t := Real.sqrt_pos.2 ht
  have habs : |s / √t| ≤ 1 := by
    rw [abs_div, abs_of_pos hsqt, div_le_one hsqt]
    exact Real.abs_le_sqrt hst
  obtain ⟨hlo, hhi⟩ := abs_le.1 habs
  refine ⟨hepos, habs, ?_⟩
  intro x
  set y := Real.cos (Real.arccos (s / √t) / 3) with hy
  have hx2 : 3 * x = -b - 2 * (√e * y) := by
    have hx : x = (-b - 2 * ((0.5 * √t) ^ ((1 : ℝ) / 3) * y)) / 3 := rfl
    rw [hx, hte, hw]
    ring
  have hcos : 4 * y ^ 3 - 3 * y = s / √t := by
    rw [hy, ← Real.cos_three_mul, mul_div_cancel₀ _ (by norm_num : (3 : ℝ) ≠ 0),
      Real.cos_arccos hlo hhi]
  have hyhalf : 1 / 2 ≤ y := by
    rw [hy, ← Real.cos_pi_div_three]
    apply Real.cos_le_cos_of_nonneg_of_le_pi
    · have := Real.arccos_nonneg (s / √t); positivity
    · have := Real.pi_pos; linarith
    · have := Real.arccos_le_pi (s / √t); linarith
  constructor
  · have h1 : s = (4 * y ^ 3 - 3 * y) * (2 * √e ^ 3) := by
      rw [hcos, ← hsq, ← hte, div_mul_cancel₀ _ hsqt.ne']
    have h2 : √e ^ 2 = e := Real.sq_sqrt hepos.le
    have h3 : x = (-b - 2 * (√e * y)) / 3 := by linarith
    rw [hs, evS] at h1
    have hc : c = (b ^ 2 - √e ^ 2) / 3 := by rw [h2, he]; ring
    rw [h3]
    generalize √e = E at *
    rw [hc] at h1 ⊢
    linear_combination h1 / 27
  · rw [hx2]
    have := mul_le_mul_of_nonneg_left hyhalf hD.le
    linarith

/-- Among three ordered numbers, the one to the left of the first critical point is the
smallest. -/
theorem smallest_of_left {l0 l1 l2 x E : ℝ} (l01 : l1 ≤ l0) (l12 : l2 ≤ l1) (hE : 0 < E)
    (hee : E ^ 2 = l0 ^ 2 + l1 ^ 2 + l2 ^ 2 - l0 * l1 - l0 * l2 - l1 * l2)
    (hroot : (x - l0) * (x - l1) * (x - l2) = 0) (hle : 3 * x + -(l0 + l1 + l2) ≤ -E) :
    x = l2 := by
  rcases mul_eq_zero.1 hroot with h | h
  · rcases mul_eq_zero.1 h with h | h
    · exfalso
      have : x = l0 := by linarith
      subst this
      linarith
    · have hx1 : x = l1 := by linarith
      subst hx1
      have h6 : E ^ 2 ≤ (2 * x - l0 - l2) ^ 2 := by
        have := mul_self_le_mul_self hE.le (show E ≤ -(2 * x - l0 - l2) by linarith)
        linarith
      have h7 : 0 ≤ (x - l0) * (x - l2) := by
        have : (2 * x - l0 - l2) ^ 2 - E ^ 2 = 3 * ((x - l0) * (x - l2)) := by rw [hee]; ring
        linarith
      rcases (eq_or_lt_of_le l12) with h8 | h8
      · exact h8.symm
      · exfalso
        have h9 : l0 ≤ x := by
          by_contra h10
          have : (x - l0) * (x - l2) < 0 := mul_neg_of_neg_of_pos (by linarith) (by linarith)
          linarith
        linarith
  · linarith

theorem diag_smallest {M V : Mat3} {l : Vec3} (hV : V.transpose * V = 1)
    (hd : V.transpose * M * V = diagonal l) (l01 : l 1 ≤ l 0) (l12 : l 2 ≤ l 1) :
    IsSmallestEV M (l 2) := by
  have hVV := rot_mul_transpose hV
  constructor
  · refine ⟨fun i => V i 2, ?_, ?_⟩
    · intro h0
      have h1 := congrFun (congrFun hV 2) 2
      rw [Matrix.mul_apply] at h1
      have h2 : ∀ j, V j 2 = 0 := congrFun h0
      simp [h2] at h1
    · have e1 : M * V = V * diagonal l := by
        rw [← hd, ← Matrix.mul_assoc, ← Matrix.mul_assoc, hVV, Matrix.one_mul]
      funext i
      have := congrFun (congrFun e1 i) 2
      rw [Matrix.mul_apply, mul_diagonal] at this
      rw [mulVec, dotProduct, this, Pi.smul_apply, smul_eq_mul, mul_comm]
  · intro v
    have hMd : M = V * diagonal l * V.transpose := by
      rw [← hd]
      rw [show V * (V.transpose * M * V) * V.transpose = (V * V.transpose) * M * (V * V.transpose) by
        simp only [Matrix.mul_assoc], hVV, Matrix.one_mul, Matrix.mul_one]
    have huv : (V.transpose *ᵥ v) ⬝ᵥ (V.transpose *ᵥ v) = v ⬝ᵥ v :=
      rot_dot (by rw [transpose_transpose]; exact hVV) v v
    have hform : v ⬝ᵥ (M *ᵥ v) = (V.transpose *ᵥ v) ⬝ᵥ (diagonal l *ᵥ (V.transpose *ᵥ v)) := by
      rw [hMd, ← mulVec_mulVec, ← mulVec_mulVec, dotProduct_mulVec v V, ← mulVec_transpose]
    rw [hform, ← huv]
    generalize V.transpose *ᵥ v = u
    rw [dot3, dot3]
    simp only [mulVec_diagonal]
    have h1 := mul_nonneg (sub_nonneg.2 l12) (mul_self_nonneg (u 1))
    have h0 := mul_nonneg (sub_nonneg.2 (l12.trans l01)) (mul_self_nonneg (u 0))
    linarith

theorem smallestEVOf_spec {M : Mat3} (hM : M.transpose = M) (hne : ∀ k : ℝ, M ≠ k • (1 : Mat3)) :
    ∃ x, smallestEVOf M = some x ∧ IsSmallestEV M x ∧
      x = evFormula (cubicB M) (evS (cubicB M) (cubicC M) (cubicD M))
        (evT (cubicB M) (cubicC M)) := by
  have ht := (evT_pos_iff hM).2 hne
  have hst := evS_sq_le hM
  obtain ⟨V, l, hV, hd, hl⟩ := exists_sorted_diag M hM
  obtain ⟨eb, ec, ed⟩ := cubic_coeffs hM hV hd
  obtain ⟨he, habs, hroot, hle⟩ := evFormula_root ht hst
  refine ⟨_, ?_, ?_, rfl⟩
  · rw [smallestEVOf, if_neg]
    rintro (h | h)
    · linarith
    · linarith
  · have l01 := hl 0 1 (by decide)
    have l12 := hl 1 2 (by decide)
    rw [← det_cubic hM, diag_det hV hd] at hroot
    have hee : √(cubicB M ^ 2 - 3 * cubicC M) ^ 2 =
        l 0 ^ 2 + l 1 ^ 2 + l 2 ^ 2 - l 0 * l 1 - l 0 * l 2 - l 1 * l 2 := by
      rw [Real.sq_sqrt he.le, eb, ec]; ring
    have hE := Real.sqrt_pos.2 he
    generalize √(cubicB M ^ 2 - 3 * cubicC M) = E at *
    generalize evFormula (cubicB M) (evS (cubicB M) (cubicC M) (cubicD M))
        (evT (cubicB M) (cubicC M)) = x at *
    rw [eb] at hle
    rw [smallest_of_left l01 l12 hE hee hroot hle]
    exact diag_smallest hV hd l01 l12

theorem smallestEVOf_none {M : Mat3} (hM : M.transpose = M) :
    smallestEVOf M = none ↔ ∃ k : ℝ, M = k • (1 : Mat3) := by
  constructor
  · intro h
    by_contra hcon
    obtain ⟨x, hx, -⟩ := smallestEVOf_spec hM (by simpa using hcon)
    rw [h] at hx
    simp at hx
  · rintro ⟨k, hk⟩
    have : ¬0 < evT (cubicB M) (cubicC M) := fun h => (evT_pos_iff hM).1 h k hk
    rw [smallestEVOf, if_pos (Or.inl (not_lt.1 this))]

end OpenGV
