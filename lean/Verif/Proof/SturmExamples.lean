import Verif.Proof.SturmFindRoots2
import Mathlib.Tactic.IntervalCases
import Mathlib.Tactic.NormNum.BigOperators

/-!
# Concrete polynomials for the properties of `src/math/Sturm.cpp`
-/

namespace OpenGV

open Classical Spec

/-- Coefficients from a list. -/
noncomputable def coeffs (l : List ℝ) (i : ℕ) : ℝ := l.getD i 0

/-! ## x³-3x+1: three simple roots -/

/-- x³-3x+1 -/
noncomputable def cubic3 : ℕ → ℝ := coeffs [1, 0, -3, 1]

theorem cubic3_row0 (j : ℕ) (hj : j < 4) : sturmRow 4 cubic3 0 j = coeffs [1, 0, -3, 1] j := by
  rw [sturmRow_zero, if_pos hj]; rfl

theorem cubic3_eval (x : ℝ) : evalPoly 4 cubic3 x = x ^ 3 - 3 * x + 1 := by
  simp [evalPoly, cubic3, coeffs, Finset.sum_range_succ]; ring

theorem cubic3_row1 (j : ℕ) (hj : j < 4) : sturmRow 4 cubic3 1 j = coeffs [0, 3, 0, -3] j := by
  interval_cases j <;> simp [sturmRow_one, sturmRow_zero, cubic3, coeffs]

theorem cubic3_row2 : sturmRow 4 cubic3 2 2 = 2 := by
  rw [sturmRow_succ, if_pos (by omega)]
  simp [negRem, cubic3_row1, cubic3_row0, coeffs]
  norm_num

theorem cubic3_defined : SturmDefined 4 cubic3 := by
  intro i h1 h2
  have : i = 1 ∨ i = 2 := by omega
  rcases this with rfl | rfl
  · rw [cubic3_row1 1 (by omega)]; norm_num [coeffs]
  · rw [cubic3_row2]; norm_num

theorem cubic3_deriv (x : ℝ) : deriv (evalPoly 4 cubic3) x = 3 * x ^ 2 - 3 := by
  rw [deriv_evalPoly]
  simp only [rowPoly, Finset.sum_range_succ, Finset.sum_range_zero, cubic3_row1 _ (show 0 < 4 by omega),
    cubic3_row1 _ (show 1 < 4 by omega), cubic3_row1 _ (show 2 < 4 by omega),
    cubic3_row1 _ (show 3 < 4 by omega)]
  simp [coeffs]; ring

theorem cubic3_simple : SimpleRoots 4 cubic3 := by
  intro x hx hd
  rw [cubic3_eval] at hx
  rw [cubic3_deriv] at hd
  have h1 : x * x ^ 2 = x := by linear_combination x / 3 * hd
  have h2 : 2 * x = 1 := by linear_combination h1 - hx
  have h3 : x = 1 / 2 := by linarith
  rw [h3] at hd
  norm_num at hd

theorem cubic3_lead : cubic3 0 ≠ 0 := by norm_num [cubic3, coeffs]

/-! ## x²-1: both roots on the bound -/

/-- x²-1 -/
noncomputable def square1 : ℕ → ℝ := coeffs [1, 0, -1]

theorem square1_row0 (j : ℕ) (hj : j < 3) : sturmRow 3 square1 0 j = coeffs [1, 0, -1] j := by
  rw [sturmRow_zero, if_pos hj]; rfl

theorem square1_bound : lagrangianBound 3 square1 = some 1 := by
  simp only [lagrangianBound, square1, coeffs, max1Loop, max2Loop, lagrangeCoefficient]
  norm_num

theorem square1_eval (x : ℝ) : evalPoly 3 square1 x = x ^ 2 - 1 := by
  simp [evalPoly, square1, coeffs, Finset.sum_range_succ]; ring

theorem square1_row (i x) : rowPoly 3 (sturmRow 3 square1 i) x =
    match i with
    | 0 => x ^ 2 - 1
    | 1 => 2 * x
    | 2 => 1
    | _ => 0 := by
  have e1 : ∀ j, j < 3 → sturmRow 3 square1 1 j = coeffs [0, 2, 0] j := by
    intro j hj
    interval_cases j <;> simp [sturmRow_one, sturmRow_zero, square1, coeffs]
  match i with
  | 0 => rw [rowPoly_zero]; exact square1_eval x
  | 1 => simp [rowPoly, Finset.sum_range_succ, e1, coeffs]
  | 2 =>
    have := rowPoly_last 3 square1 (by omega) x
    simp only [Nat.reduceSub] at this
    rw [this, sturmRow_succ, if_pos (by omega)]
    simp [negRem, e1, square1_row0, coeffs]
  | i + 3 =>
    simp only [rowPoly]
    apply Finset.sum_eq_zero
    intro j hj
    rw [sturmRow_low _ _ (by have := Finset.mem_range.mp hj; omega), zero_mul]

theorem square1_changes_neg : evaluateChain2 3 square1 (-1) = 1 := by
  rw [evaluateChain2_eq]
  simp [List.range, List.range.loop, square1_row, signChanges, countChanges]

theorem square1_changes_pos : evaluateChain2 3 square1 1 = 1 := by
  rw [evaluateChain2_eq]
  simp [List.range, List.range.loop, square1_row, signChanges, countChanges]

theorem square1_lost (eps : ℝ) (fuel : ℕ) : bracketRoots 3 square1 eps (fuel + 1) = some [] := by
  rw [bracketRoots, square1_bound]
  simp only [square1_changes_neg, square1_changes_pos]
  rw [bracketLoop, if_neg (by simp [Bracket.Dividable, Bracket.numberRoots]),
    if_neg (by simp [Bracket.numberRoots])]
  cases fuel <;> rfl

/-! ## x³-x²: double root on a midpoint -/

/-- x³-x² -/
noncomputable def double0 : ℕ → ℝ := coeffs [1, -1, 0, 0]

theorem double0_row0 (j : ℕ) (hj : j < 4) : sturmRow 4 double0 0 j = coeffs [1, -1, 0, 0] j := by
  rw [sturmRow_zero, if_pos hj]; rfl

theorem double0_bound : lagrangianBound 4 double0 = some 1 := by
  simp only [lagrangianBound, double0, coeffs, max1Loop, max2Loop, lagrangeCoefficient]
  norm_num

theorem double0_eval (x : ℝ) : evalPoly 4 double0 x = x ^ 3 - x ^ 2 := by
  simp [evalPoly, double0, coeffs, Finset.sum_range_succ]; ring

theorem double0_row1 (j : ℕ) (hj : j < 4) : sturmRow 4 double0 1 j = coeffs [0, 3, -2, 0] j := by
  interval_cases j <;> simp [sturmRow_one, sturmRow_zero, double0, coeffs]

theorem double0_row2 (j : ℕ) (hj : j < 4) : sturmRow 4 double0 2 j = coeffs [0, 0, 2 / 9, 0] j := by
  rw [sturmRow_succ]
  interval_cases j <;>
    simp [negRem, double0_row1, double0_row0, coeffs]
  norm_num

theorem double0_row (i x) : rowPoly 4 (sturmRow 4 double0 i) x =
    match i with
    | 0 => x ^ 3 - x ^ 2
    | 1 => 3 * x ^ 2 - 2 * x
    | 2 => 2 / 9 * x
    | _ => 0 := by
  match i with
  | 0 => rw [rowPoly_zero]; exact double0_eval x
  | 1 => simp [rowPoly, Finset.sum_range_succ, double0_row1, coeffs]; ring
  | 2 => simp [rowPoly, Finset.sum_range_succ, double0_row2, coeffs]
  | 3 =>
    have := rowPoly_last 4 double0 (by omega) x
    simp only [Nat.reduceSub] at this
    rw [this, sturmRow_succ, if_pos (by omega)]
    simp [negRem, double0_row1, double0_row2, coeffs]
  | i + 4 =>
    simp only [rowPoly]
    apply Finset.sum_eq_zero
    intro j hj
    rw [sturmRow_low _ _ (by have := Finset.mem_range.mp hj; omega), zero_mul]

theorem double0_defined : SturmDefined 4 double0 := by
  intro i h1 h2
  have : i = 1 ∨ i = 2 := by omega
  rcases this with rfl | rfl
  · rw [double0_row1 1 (by omega)]; norm_num [coeffs]
  · rw [double0_row2 2 (by omega)]; norm_num [coeffs]

theorem double0_changes_zero : evaluateChain2 4 double0 0 = 0 := by
  rw [evaluateChain2_eq]
  simp [List.range, List.range.loop, double0_row, signChanges, countChanges]

theorem double0_changes_neg : evaluateChain2 4 double0 (-1) = 2 := by
  rw [evaluateChain2_eq]
  simp [List.range, List.range.loop, double0_row, signChanges]
  norm_num [countChanges]

theorem double0_changes_pos {x : ℝ} (h0 : 0 < x) (h1 : x ≤ 1) : evaluateChain2 4 double0 x = 1 := by
  rw [evaluateChain2_eq]
  have e0 : ¬ (0 < x ^ 3 - x ^ 2) := by nlinarith [sq_nonneg x]
  have e2 : 0 < 2 / 9 * x := by linarith
  simp only [List.range, List.range.loop, List.map_cons, List.map_nil, double0_row, signChanges,
    gt_iff_lt, e0, decide_false]
  rcases lt_trichotomy (3 * x ^ 2 - 2 * x) 0 with h | h | h
  · rw [countChanges_neg h, countChanges_pos e2]; simp [countChanges]
  · rw [countChanges_zero h, countChanges_pos e2]; simp [countChanges]
  · rw [countChanges_pos h, countChanges_pos e2]; simp [countChanges]

/-- A queue with the bracket between the double root and a place with one change never gets
empty. -/
theorem double0_loop (eps : ℝ) : ∀ fuel stack out,
    (∃ b ∈ stack, b.lo = 0 ∧ b.loChanges = 0 ∧ b.hiChanges = 1 ∧ 0 < b.hi ∧ b.hi ≤ 1) →
    bracketLoop (evaluateChain2 4 double0) eps fuel stack out = none := by
  intro fuel
  induction fuel with
  | zero =>
    rintro stack out ⟨b, hb, -⟩
    rcases stack with _ | ⟨c, stack⟩
    · simp at hb
    · rfl
  | succ fuel ih =>
    rintro stack out ⟨b, hb, h1, h2, h3, h4, h5⟩
    rcases stack with _ | ⟨c, stack⟩
    · simp at hb
    rw [bracketLoop]
    rcases List.mem_cons.mp hb with rfl | hb
    · have hdiv : b.Dividable eps := by
        refine ⟨?_, ?_, ?_⟩
        · simp [Bracket.numberRoots, h2, h3]
        · simp [Bracket.numberRoots, h2, h3]
        · rw [h1]; rintro (e | e) <;> linarith
      rw [if_pos hdiv]
      apply ih
      refine ⟨⟨b.lo, (b.hi + b.lo) / 2, b.loChanges, evaluateChain2 4 double0 ((b.hi + b.lo) / 2)⟩,
        by simp, h1, h2, ?_, ?_, ?_⟩
      · exact double0_changes_pos (by rw [h1]; linarith) (by rw [h1]; linarith)
      · rw [h1]; linarith
      · rw [h1]; linarith
    · split_ifs
      · exact ih _ _ ⟨b, List.mem_append_left _ hb, h1, h2, h3, h4, h5⟩
      · exact ih _ _ ⟨b, hb, h1, h2, h3, h4, h5⟩
      · exact ih _ _ ⟨b, hb, h1, h2, h3, h4, h5⟩

theorem double0_diverges (fuel : ℕ) : bracketRoots 4 double0 (-1) fuel = none := by
  rw [bracketRoots, double0_bound]
  simp only [double0_changes_neg, double0_changes_pos one_pos le_rfl]
  rw [if_pos (by norm_num)]
  rcases fuel with _ | fuel
  · rfl
  rw [bracketLoop]
  have hnum : Bracket.numberRoots ⟨-1, 1, 2, 1⟩ = 1 := by simp [Bracket.numberRoots]
  rw [if_pos (by
    refine ⟨?_, ?_, ?_⟩
    · rw [hnum]; norm_num
    · rw [hnum]; norm_num
    · norm_num)]
  apply double0_loop
  refine ⟨⟨(1 + -1) / 2, 1, evaluateChain2 4 double0 ((1 + -1) / 2), 1⟩, by simp, by norm_num, ?_, rfl,
    by norm_num, le_rfl⟩
  have : ((1 : ℝ) + -1) / 2 = 0 := by norm_num
  simp only [this]
  exact double0_changes_zero

/-! ## x⁵-5x⁴+20x²+16x-32: two-cycle of Newton's method -/

/-- x⁵-5x⁴+20x²+16x-32 -/
noncomputable def quintic : ℕ → ℝ := coeffs [1, -5, 0, 20, 16, -32]

theorem quintic_row0 (j : ℕ) (hj : j < 6) : sturmRow 6 quintic 0 j = coeffs [1, -5, 0, 20, 16, -32] j := by
  rw [sturmRow_zero, if_pos hj]; rfl

theorem quintic_eval (x : ℝ) :
    evalPoly 6 quintic x = x ^ 5 - 5 * x ^ 4 + 20 * x ^ 2 + 16 * x - 32 := by
  simp [evalPoly, quintic, coeffs, Finset.sum_range_succ]; ring

theorem quintic_row1 (j : ℕ) (hj : j < 6) :
    sturmRow 6 quintic 1 j = coeffs [0, 5, -20, 0, 40, 16] j := by
  interval_cases j <;> simp [sturmRow_one, sturmRow_zero, quintic, coeffs] <;> norm_num

theorem quintic_row2 (j : ℕ) (hj : j < 6) :
    sturmRow 6 quintic 2 j = coeffs [0, 0, 4, -12, -104 / 5, 144 / 5] j := by
  rw [sturmRow_succ]
  interval_cases j <;>
    simp [negRem, quintic_row1, quintic_row0, coeffs] <;> norm_num

theorem quintic_row3 (j : ℕ) (hj : j < 6) :
    sturmRow 6 quintic 3 j = coeffs [0, 0, 0, -11, 22, -52] j := by
  rw [sturmRow_succ]
  interval_cases j <;>
    simp [negRem, quintic_row1, quintic_row2, coeffs] <;> norm_num

theorem quintic_row4 : sturmRow 6 quintic 4 4 = 2624 / 55 := by
  rw [sturmRow_succ]
  simp [negRem, quintic_row2, quintic_row3, coeffs]
  norm_num

theorem quintic_defined : SturmDefined 6 quintic := by
  intro i h1 h2
  have : i = 1 ∨ i = 2 ∨ i = 3 ∨ i = 4 := by omega
  rcases this with rfl | rfl | rfl | rfl
  · rw [quintic_row1 1 (by omega)]; norm_num [coeffs]
  · rw [quintic_row2 2 (by omega)]; norm_num [coeffs]
  · rw [quintic_row3 3 (by omega)]; norm_num [coeffs]
  · rw [quintic_row4]; norm_num

theorem quintic_deriv (x : ℝ) :
    deriv (evalPoly 6 quintic) x = 5 * x ^ 4 - 20 * x ^ 3 + 40 * x + 16 := by
  rw [deriv_evalPoly]
  simp [rowPoly, Finset.sum_range_succ, quintic_row1, coeffs]
  ring

theorem quintic_root (x : ℝ) : evalPoly 6 quintic x = 0 ↔ x = 1 := by
  rw [quintic_eval]
  constructor
  · intro h
    have : (x - 1) * ((((x - 1) ^ 2 - 5) ^ 2 + 16)) = 0 := by linear_combination h
    rcases mul_eq_zero.mp this with h | h
    · linarith
    · exact absurd h (by positivity)
  · rintro rfl; norm_num

theorem quintic_simple : SimpleRoots 6 quintic := by
  intro x hx
  rw [(quintic_root x).mp hx, quintic_deriv]
  norm_num

theorem quintic_lead : quintic 0 ≠ 0 := by norm_num [quintic, coeffs]

theorem quintic_bound : ∃ B, lagrangianBound 6 quintic = some B ∧ 5 ≤ B := by
  obtain ⟨j, ρ₂, hj, hB, h1, h2, -⟩ := lagrangianBound_spec (n := 6) (p := quintic) (by omega)
    quintic_lead
  refine ⟨_, hB, ?_⟩
  have h3 := h1 0 (by omega)
  have h4 : lagrangeCoefficient quintic 0 = 5 := by
    norm_num [lagrangeCoefficient, quintic, coeffs]
  obtain ⟨l, hl, hlj⟩ : ∃ l, l < 5 ∧ l ≠ j := by
    by_cases h : j = 0
    · exact ⟨1, by omega, by omega⟩
    · exact ⟨0, by omega, fun h' => h h'.symm⟩
  have h5 := (lagrangeCoefficient_nonneg quintic l).trans (h2 l hl hlj)
  linarith

theorem quintic_diverges (fuel : ℕ) : findRoots2 6 quintic 0.001 0.001 fuel = none := by
  obtain ⟨B, hB, hB5⟩ := quintic_bound
  rw [findRoots2, hB]
  simp only
  rcases fuel with _ | fuel
  · rfl
  have hC := sturm_counting (by omega) (by norm_num) quintic_lead quintic_defined quintic_simple
  set b0 : Bracket := ⟨-B, B, evaluateChain2 6 quintic (-B), evaluateChain2 6 quintic B⟩ with hb0
  have hnum : b0.numberRoots = 1 := by
    rw [hC.numberRoots ⟨by simp only [hb0]; linarith, rfl, rfl⟩, Finset.card_eq_one]
    refine ⟨1, ?_⟩
    ext r
    rw [Finset.mem_filter, Finset.mem_singleton, mem_rootSet' (by omega) quintic_lead, quintic_root]
    constructor
    · exact fun h => h.1
    · rintro rfl
      refine ⟨rfl, Or.inl (by simp only [hb0]; linarith), ?_⟩
      exact hC.gt _ _ (by simp only [hb0]; linarith)
  rw [findRoots2Loop]
  rw [if_pos (show b0.Dividable 0.001 from ?_), if_pos hnum]
  · have hf0 : rowValue 6 quintic 0 0 = -32 := by rw [rowValue_zero, quintic_eval]; norm_num
    have hf2 : rowValue 6 quintic 0 2 = 32 := by rw [rowValue_zero, quintic_eval]; norm_num
    have hd0 : rowValue 6 quintic 1 0 = 16 := by rw [rowValue_one, quintic_deriv]; norm_num
    have hd2 : rowValue 6 quintic 1 2 = 16 := by rw [rowValue_one, quintic_deriv]; norm_num
    have hmid : (0.5 : ℝ) * (b0.lo + b0.hi) = 0 := by simp only [hb0]; ring
    have := (newtonLoop_cycle (f := rowValue 6 quintic 0) (f' := rowValue 6 quintic 1) (lo := b0.lo)
      (hi := b0.hi) (epsVal := 0.001) (a := 0) (b := 2) (by simp only [hb0]; linarith)
      (by simp only [hb0]; linarith) (by simp only [hb0]; linarith) (by simp only [hb0]; linarith)
      (by rw [hd0]; norm_num) (by rw [hd2]; norm_num) (by rw [hf0, hd0]; norm_num)
      (by rw [hf2, hd2]; norm_num) (by rw [hf0, hf2]; norm_num) (by rw [hf0]; norm_num) fuel).1
    rw [hmid, this]
  · refine ⟨?_, by rw [hnum]; norm_num, ?_⟩
    · rintro ⟨-, h⟩
      simp only [hb0] at h
      norm_num at h
      linarith
    · simp only [hb0]
      rintro (h | h) <;> linarith

end OpenGV
