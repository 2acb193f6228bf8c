import Verif.Proof.SturmTheorem
import Mathlib.Analysis.Calculus.Deriv.Pow
import Mathlib.Analysis.Calculus.Deriv.Add
import Mathlib.Analysis.Calculus.Deriv.Mul
import Mathlib.Analysis.Complex.Norm
import Mathlib.Algebra.Polynomial.Roots
import Mathlib.Algebra.Order.Field.GeomSum
import Mathlib.Tactic.LinearCombination

/-!
# Proofs about `src/math/Sturm.cpp`: root bound and Sturm chain
-/

namespace OpenGV

open Finset Classical

/-! ## The Lagrangian bound -/

theorem max1Loop_spec (c : ℕ → ℝ) : ∀ k i s, 
    (∀ l, l < i → c l ≤ s.2) → ((s.1 < i ∧ s.2 = c s.1) ∨ (i = 0 ∧ ∀ l, s.2 < c l)) → 0 < i + k →
    (max1Loop c k i s).1 < i + k ∧ (max1Loop c k i s).2 = c (max1Loop c k i s).1 ∧
      ∀ l, l < i + k → c l ≤ (max1Loop c k i s).2 := by
  intro k
  induction k with
  | zero =>
    intro i s h1 h2 h3
    rcases h2 with h2 | h2
    · exact ⟨h2.1, h2.2, h1⟩
    · omega
  | succ k ih =>
    intro i s h1 h2 h3
    simp only [max1Loop]
    have e : i + (k + 1) = i + 1 + k := by omega
    rw [e]
    apply ih
    · intro l hl
      split_ifs with hc
      · rcases Nat.lt_succ_iff_lt_or_eq.mp hl with h | h
        · exact (h1 l h).trans hc.le
        · rw [h]
      · rcases Nat.lt_succ_iff_lt_or_eq.mp hl with h | h
        · exact h1 l h
        · rw [h]; exact not_lt.mp hc
    · left
      split_ifs with hc
      · exact ⟨Nat.lt_succ_self i, rfl⟩
      · rcases h2 with h2 | h2
        · exact ⟨by omega, h2.2⟩
        · exact absurd (h2.2 i) hc
    · omega

theorem max2Loop_spec (c : ℕ → ℝ) : ∀ k i m, (∀ l, l < i → c l ≤ m) →
    ∀ l, l < i + k → c l ≤ max2Loop c k i m := by
  intro k
  induction k with
  | zero => intro i m h l hl; exact h l hl
  | succ k ih =>
    intro i m h l hl
    simp only [max2Loop]
    refine ih (i + 1) _ ?_ l (by omega)
    intro l hl
    split_ifs with hc
    · rcases Nat.lt_succ_iff_lt_or_eq.mp hl with h' | h'
      · exact (h l h').trans hc.le
      · rw [h']
    · rcases Nat.lt_succ_iff_lt_or_eq.mp hl with h' | h'
      · exact h l h'
      · rw [h']; exact not_lt.mp hc

theorem max2Loop_const (c : ℕ → ℝ) : ∀ k i m, (∀ l, l < i + k → c l ≤ m) →
    max2Loop c k i m = m := by
  intro k
  induction k with
  | zero => intro i m h; rfl
  | succ k ih =>
    intro i m h
    simp only [max2Loop]
    rw [if_neg (not_lt.mpr (h i (by omega)))]
    exact ih _ _ fun l hl => h l (by omega)

theorem lagrangeCoefficient_nonneg (p : ℕ → ℝ) (i : ℕ) : 0 ≤ lagrangeCoefficient p i :=
  Real.rpow_nonneg (abs_nonneg _) _

theorem lagrangeCoefficient_pow (p : ℕ → ℝ) (i : ℕ) :
    lagrangeCoefficient p i ^ (i + 1) = |p (i + 1) / p 0| := by
  unfold lagrangeCoefficient
  rw [← Real.rpow_natCast, ← Real.rpow_mul (abs_nonneg _)]
  push_cast
  rw [one_div, inv_mul_cancel₀ (by positivity), Real.rpow_one]

/-- What the two loops compute. -/
theorem lagrangianBound_spec {n : ℕ} {p : ℕ → ℝ} (hn : 2 ≤ n) (h0 : p 0 ≠ 0) :
    ∃ j ρ₂, j < n - 1 ∧ lagrangianBound n p = some (lagrangeCoefficient p j + ρ₂) ∧
      (∀ l, l < n - 1 → lagrangeCoefficient p l ≤ lagrangeCoefficient p j) ∧
      (∀ l, l < n - 1 → l ≠ j → lagrangeCoefficient p l ≤ ρ₂) ∧
      (n = 2 → ρ₂ = -1) := by
  set c := lagrangeCoefficient p with hc
  obtain ⟨h1, h2, h3⟩ := max1Loop_spec c (n - 1) 0 (0, -1) (by simp)
    (Or.inr ⟨rfl, fun l => by have := lagrangeCoefficient_nonneg p l; simp only [hc]; linarith⟩)
    (by omega)
  rw [zero_add] at h1 h3
  set s := max1Loop c (n - 1) 0 (0, -1) with hs
  refine ⟨s.1, max2Loop (fun i => if i = s.1 then -1 else c i) (n - 1) 0 (-1), h1, ?_, ?_, ?_, ?_⟩
  · unfold lagrangianBound
    rw [if_neg (by simp [h0]; omega)]
    simp only [← hc, ← hs, h2]
  · intro l hl; rw [← h2]; exact h3 l hl
  · intro l hl hne
    have := max2Loop_spec (fun i => if i = s.1 then -1 else c i) (n - 1) 0 (-1) (by simp) l
      (by omega)
    simpa [hne] using this
  · rintro rfl
    apply max2Loop_const
    intro l hl
    have : l = s.1 := by omega
    simp [this]

theorem pow_sub_pow_le {s t : ℝ} (hs : 0 ≤ s) (hst : s ≤ t) (h1 : s + t ≤ 1) (k : ℕ) :
    t ^ (k + 1) - s ^ (k + 1) ≤ t - s := by
  induction k with
  | zero => simp
  | succ k ih =>
    have ht : 0 ≤ t := hs.trans hst
    have hsk : s ^ (k + 1) ≤ s := by
      rw [pow_succ]
      exact mul_le_of_le_one_left hs (pow_le_one₀ hs (by linarith))
    have e : t ^ (k + 1 + 1) - s ^ (k + 1 + 1) =
        t * (t ^ (k + 1) - s ^ (k + 1)) + s ^ (k + 1) * (t - s) := by ring
    have h2 : t * (t ^ (k + 1) - s ^ (k + 1)) ≤ t * (t - s) := mul_le_mul_of_nonneg_left ih ht
    have h3 : s ^ (k + 1) * (t - s) ≤ s * (t - s) := mul_le_mul_of_nonneg_right hsk (by linarith)
    have h4 : (s + t) * (t - s) ≤ 1 * (t - s) := mul_le_mul_of_nonneg_right h1 (by linarith)
    linarith only [e, h2, h3, h4]

theorem geom_le {s : ℝ} (hs : 0 ≤ s) (h : s ≤ 1 / 2) (k : ℕ) :
    ∑ i ∈ range k, s ^ (i + 1) ≤ 2 * s := by
  have h2 : ∀ k, (1 - s) * ∑ i ∈ range k, s ^ (i + 1) = s - s ^ (k + 1) := by
    intro k
    induction k with
    | zero => simp
    | succ k ih => rw [sum_range_succ, mul_add, ih]; ring
  have h3 := h2 k
  have h4 : 0 ≤ s ^ (k + 1) := by positivity
  have h5 : 0 ≤ ∑ i ∈ range k, s ^ (i + 1) := sum_nonneg fun i _ => by positivity
  nlinarith

/-- Lagrange's bound, as an inequality between reals. -/
theorem lagrange_ineq {N : ℕ} {c : ℕ → ℝ} (hc : ∀ i, 0 ≤ c i) {j : ℕ} (hj : j < N) {ρ₂ r : ℝ}
    (h1 : ∀ l, l < N → c l ≤ c j) (h2 : ∀ l, l < N → l ≠ j → c l ≤ ρ₂) (hN : 2 ≤ N)
    (hr : c j + ρ₂ < r) : ∑ i ∈ range N, c i ^ (i + 1) / r ^ (i + 1) < 1 := by
  obtain ⟨l0, hl0, hlj⟩ : ∃ l, l < N ∧ l ≠ j := by
    by_cases h : j = 0
    · exact ⟨1, by omega, by omega⟩
    · exact ⟨0, by omega, fun h' => h h'.symm⟩
  obtain ⟨l1, hl1, hl1j, hmax⟩ : ∃ l, l ∈ range N ∧ l ≠ j ∧ ∀ i ∈ range N, i ≠ j → c i ≤ c l := by
    obtain ⟨l, hl, hm⟩ := exists_max_image ((range N).erase j) c
      ⟨l0, mem_erase.mpr ⟨hlj, mem_range.mpr hl0⟩⟩
    refine ⟨l, mem_of_mem_erase hl, ne_of_mem_erase hl, fun i hi hij => hm i (mem_erase.mpr ⟨hij, hi⟩)⟩
  have hl1' := mem_range.mp hl1
  have hr' : c j + c l1 < r := by have := h2 l1 hl1' hl1j; linarith
  have hr0 : 0 < r := by have := hc j; have := hc l1; linarith
  set t := c j / r with ht
  set s := c l1 / r with hs
  have hs0 : 0 ≤ s := div_nonneg (hc _) hr0.le
  have hst : s ≤ t := div_le_div_of_nonneg_right (h1 l1 hl1') hr0.le
  have hsum : s + t < 1 := by
    rw [hs, ht, ← add_div, div_lt_one hr0]; linarith
  have hterm : ∀ i ∈ range N, c i ^ (i + 1) / r ^ (i + 1) ≤
      s ^ (i + 1) + if i = j then t ^ (j + 1) - s ^ (j + 1) else 0 := by
    intro i hi
    rw [← div_pow]
    split_ifs with hij
    · subst hij; simp [ht]
    · rw [add_zero]
      exact pow_le_pow_left₀ (div_nonneg (hc _) hr0.le)
        (div_le_div_of_nonneg_right (hmax i hi hij) hr0.le) _
  calc ∑ i ∈ range N, c i ^ (i + 1) / r ^ (i + 1)
      ≤ ∑ i ∈ range N, (s ^ (i + 1) + if i = j then t ^ (j + 1) - s ^ (j + 1) else 0) :=
        sum_le_sum hterm
    _ = ∑ i ∈ range N, s ^ (i + 1) + (t ^ (j + 1) - s ^ (j + 1)) := by
        rw [sum_add_distrib, sum_ite_eq' (range N) j, if_pos (mem_range.mpr hj)]
    _ ≤ 2 * s + (t - s) :=
        add_le_add (geom_le hs0 (by linarith) N) (pow_sub_pow_le hs0 hst hsum.le j)
    _ < 1 := by linarith

/-- Every complex root is inside the bound. -/
theorem lagrangianBound_root {n : ℕ} {p : ℕ → ℝ} (hn : 3 ≤ n) (h0 : p 0 ≠ 0) {z : ℂ}
    (hz : ∑ j ∈ range n, (p j : ℂ) * z ^ (n - 1 - j) = 0) :
    ∃ B, lagrangianBound n p = some B ∧ ‖z‖ ≤ B := by
  obtain ⟨j, ρ₂, hj, hB, hm1, hm2, -⟩ := lagrangianBound_spec (n := n) (p := p) (by omega) h0
  refine ⟨_, hB, ?_⟩
  by_contra hlt
  rw [not_le] at hlt
  have hineq := lagrange_ineq (lagrangeCoefficient_nonneg p) hj hm1 hm2 (by omega) hlt
  have hr0 : 0 < ‖z‖ := by
    have h1 := lagrangeCoefficient_nonneg p j
    obtain ⟨l, hl, hlj⟩ : ∃ l, l < n - 1 ∧ l ≠ j := by
      by_cases h : j = 0
      · exact ⟨1, by omega, by omega⟩
      · exact ⟨0, by omega, fun h' => h h'.symm⟩
    have h2 := (lagrangeCoefficient_nonneg p l).trans (hm2 l hl hlj)
    linarith
  have hz0 : z ≠ 0 := norm_pos_iff.mp hr0
  obtain ⟨N, rfl⟩ : ∃ N, n = N + 1 := ⟨n - 1, by omega⟩
  simp only [Nat.add_sub_cancel] at hz hineq
  rw [sum_range_succ'] at hz
  have hp0 : (p 0 : ℂ) ≠ 0 := by exact_mod_cast h0
  have key : ∑ i ∈ range N, ((p (i + 1) : ℂ) / p 0) / z ^ (i + 1) = -1 := by
    have e : ∑ i ∈ range N, (p (i + 1) : ℂ) * z ^ (N - (i + 1)) =
        ((p 0 : ℂ) * z ^ N) * ∑ i ∈ range N, ((p (i + 1) : ℂ) / p 0) / z ^ (i + 1) := by
      rw [mul_sum]
      refine sum_congr rfl fun i hi => ?_
      have hi := mem_range.mp hi
      have : z ^ N = z ^ (N - (i + 1)) * z ^ (i + 1) := by rw [← pow_add]; congr 1; omega
      rw [this]
      field_simp
    rw [e, Nat.sub_zero] at hz
    have hne : (p 0 : ℂ) * z ^ N ≠ 0 := mul_ne_zero hp0 (pow_ne_zero _ hz0)
    have : ((p 0 : ℂ) * z ^ N) * (∑ i ∈ range N, ((p (i + 1) : ℂ) / p 0) / z ^ (i + 1) + 1) = 0 := by
      linear_combination hz
    have := (mul_eq_zero.mp this).resolve_left hne
    linear_combination this
  have hnorm : (1 : ℝ) ≤ ∑ i ∈ range N, lagrangeCoefficient p i ^ (i + 1) / ‖z‖ ^ (i + 1) := by
    calc (1 : ℝ) = ‖∑ i ∈ range N, ((p (i + 1) : ℂ) / p 0) / z ^ (i + 1)‖ := by rw [key]; simp
      _ ≤ ∑ i ∈ range N, ‖((p (i + 1) : ℂ) / p 0) / z ^ (i + 1)‖ := norm_sum_le _ _
      _ = _ := by
        refine sum_congr rfl fun i _ => ?_
        rw [lagrangeCoefficient_pow, norm_div, norm_pow, norm_div, Complex.norm_real,
          Complex.norm_real, abs_div]
        rfl
  linarith

/-! ## The chain -/

/-- The polynomial with the entries of a row as coefficients. -/
noncomputable def rowPoly (n : ℕ) (row : ℕ → ℝ) (x : ℝ) : ℝ :=
  ∑ j ∈ range n, row j * x ^ (n - 1 - j)

theorem sturmRow_zero (n : ℕ) (p : ℕ → ℝ) (j : ℕ) :
    sturmRow n p 0 j = if j < n then p j else 0 := by simp only [sturmRow]

theorem sturmRow_one (n : ℕ) (p : ℕ → ℝ) (j : ℕ) : sturmRow n p 1 j =
    if 1 ≤ j ∧ j < n then sturmRow n p 0 (j - 1) * (n - j : ℕ) else 0 := by simp only [sturmRow]

theorem sturmRow_succ (n : ℕ) (p : ℕ → ℝ) (i j : ℕ) : sturmRow n p (i + 2) j =
    if i + 2 ≤ j ∧ j < n then negRem n i (sturmRow n p i) (sturmRow n p (i + 1)) j else 0 := by
  simp only [sturmRow]

theorem sturmRow_low (n : ℕ) (p : ℕ → ℝ) {i j : ℕ} (h : j < i) : sturmRow n p i j = 0 := by
  match i, h with
  | 1, h => simp only [sturmRow]; rw [if_neg (by omega)]
  | i + 2, h => simp only [sturmRow]; rw [if_neg (by omega)]

theorem sturmRow_high (n : ℕ) (p : ℕ → ℝ) {i j : ℕ} (h : n ≤ j) : sturmRow n p i j = 0 := by
  match i with
  | 0 => simp only [sturmRow]; rw [if_neg (by omega)]
  | 1 => simp only [sturmRow]; rw [if_neg (by omega)]
  | i + 2 => simp only [sturmRow]; rw [if_neg (by omega)]

theorem mono_eq (x : ℝ) (k : ℕ) : monoRec x k = x ^ k := by
  induction k with
  | zero => rfl
  | succ k ih => rw [monoRec, ih, pow_succ]

theorem signLoop_eq (row mono : ℕ → ℝ) : ∀ k j acc,
    signLoop row mono k j acc = acc + ∑ l ∈ range k, row (j + l) * mono (j + l) := by
  intro k
  induction k with
  | zero => intro j acc; simp [signLoop]
  | succ k ih =>
    intro j acc
    rw [signLoop, ih, sum_range_succ']
    simp only [Nat.add_zero]
    rw [add_assoc, add_comm (row j * mono j)]
    congr 2
    refine sum_congr rfl fun l _ => ?_
    rw [show j + 1 + l = j + (l + 1) by omega]

theorem block_eq_rowPoly (n : ℕ) (p : ℕ → ℝ) (x : ℝ) {i : ℕ} (hi : i ≤ n) :
    ∑ k ∈ range (n - i), sturmRow n p i (i + k) * monomials n x (i + k) =
      rowPoly n (sturmRow n p i) x := by
  unfold rowPoly
  obtain ⟨d, rfl⟩ := Nat.exists_eq_add_of_le hi
  rw [Nat.add_sub_cancel_left, sum_range_add, sum_eq_zero (s := range i), zero_add]
  · simp only [monomials, mono_eq]
  · intro j hj
    rw [sturmRow_low _ _ (mem_range.mp hj), zero_mul]

theorem evaluateChain_eq (n : ℕ) (p : ℕ → ℝ) (x : ℝ) : evaluateChain n p x =
    signChanges ((List.range n).map fun i => rowPoly n (sturmRow n p i) x) := by
  unfold evaluateChain
  congr 1
  apply List.map_congr_left
  intro i hi
  exact block_eq_rowPoly n p x (List.mem_range.mp hi).le

theorem evaluateChain2_eq (n : ℕ) (p : ℕ → ℝ) (x : ℝ) : evaluateChain2 n p x =
    signChanges ((List.range n).map fun i => rowPoly n (sturmRow n p i) x) := by
  unfold evaluateChain2
  congr 1
  apply List.map_congr_left
  intro i hi
  rw [signLoop_eq, zero_add]
  exact block_eq_rowPoly n p x (List.mem_range.mp hi).le

theorem signChanges_eq_chainChanges (f : ℕ → ℝ → ℝ) (m : ℕ) (x : ℝ) :
    signChanges ((List.range (m + 1)).map fun i => f i x) = chainChanges f m x := by
  rw [List.range_eq_range', List.range'_succ, List.map_cons]
  rfl

theorem rowPoly_cont (n : ℕ) (row : ℕ → ℝ) : Continuous (rowPoly n row) := by
  unfold rowPoly
  fun_prop

/-- The second row is the derivative. -/
theorem rowPoly_deriv (n : ℕ) (p : ℕ → ℝ) (x : ℝ) :
    HasDerivAt (rowPoly n (sturmRow n p 0)) (rowPoly n (sturmRow n p 1) x) x := by
  rcases n with _ | N
  · simp only [rowPoly, range_zero, sum_empty]; exact hasDerivAt_const x 0
  have h : HasDerivAt (rowPoly (N + 1) (sturmRow (N + 1) p 0))
      (∑ j ∈ range (N + 1), sturmRow (N + 1) p 0 j * ((N - j : ℕ) * x ^ (N - j - 1))) x := by
    unfold rowPoly
    apply HasDerivAt.fun_sum
    intro j _
    simp only [Nat.add_sub_cancel]
    exact (hasDerivAt_pow (N - j) x).const_mul _
  convert h using 1
  unfold rowPoly
  rw [sum_range_succ', sum_range_succ]
  simp only [Nat.sub_self, Nat.cast_zero, zero_mul, mul_zero, add_zero]
  rw [sturmRow_low _ _ (by omega : 0 < 1), zero_mul, add_zero]
  refine sum_congr rfl fun j hj => ?_
  have hj := mem_range.mp hj
  have e : sturmRow (N + 1) p 1 (j + 1) = sturmRow (N + 1) p 0 j * ((N - j : ℕ) : ℝ) := by
    rw [sturmRow_one, if_pos (by omega), Nat.add_sub_cancel, show N + 1 - (j + 1) = N - j by omega]
  rw [e, show N + 1 - 1 - (j + 1) = N - j - 1 by omega]
  ring

/-- Polynomial division: the sum of two rows is a multiple of the row between. -/
theorem rowPoly_rec (n : ℕ) (p : ℕ → ℝ) {i : ℕ} (hi : i + 2 < n)
    (hne : sturmRow n p (i + 1) (i + 1) ≠ 0) :
    ∃ a b : ℝ, ∀ x, rowPoly n (sturmRow n p i) x + rowPoly n (sturmRow n p (i + 2)) x =
      (a * x + b) * rowPoly n (sturmRow n p (i + 1)) x := by
  set p1 := sturmRow n p i with hp1
  set p2 := sturmRow n p (i + 1) with hp2
  refine ⟨p1 i / p2 (i + 1), p1 (i + 1) / p2 (i + 1) - p2 (i + 2) * p1 i / (p2 (i + 1)) ^ 2,
    fun x => ?_⟩
  have hshift : x * rowPoly n p2 x = ∑ j ∈ range n, p2 (j + 1) * x ^ (n - 1 - j) := by
    obtain ⟨N, rfl⟩ : ∃ N, n = N + 1 := ⟨n - 1, by omega⟩
    unfold rowPoly
    rw [sum_range_succ', sum_range_succ, mul_add, mul_sum]
    have e0 : p2 0 = 0 := by rw [hp2]; exact sturmRow_low _ _ (by omega)
    have e1 : p2 (N + 1) = 0 := by rw [hp2]; exact sturmRow_high _ _ (by omega)
    rw [e0, e1]
    simp only [zero_mul, mul_zero, add_zero]
    refine sum_congr rfl fun j hj => ?_
    have hj := mem_range.mp hj
    have : x ^ (N + 1 - 1 - j) = x ^ (N + 1 - 1 - (j + 1)) * x := by
      rw [← pow_succ]; congr 1; omega
    rw [this]; ring
  rw [add_mul, mul_assoc, hshift]
  unfold rowPoly
  rw [mul_sum, mul_sum, ← sum_add_distrib, ← sum_add_distrib]
  refine sum_congr rfl fun j hj => ?_
  have hj := mem_range.mp hj
  have hcoef : p1 j + sturmRow n p (i + 2) j = p1 i / p2 (i + 1) * p2 (j + 1) +
      (p1 (i + 1) / p2 (i + 1) - p2 (i + 2) * p1 i / (p2 (i + 1)) ^ 2) * p2 j := by
    rcases lt_trichotomy j i with h | h | h
    · have e1 : p1 j = 0 := sturmRow_low _ _ h
      have e2 : p2 j = 0 := sturmRow_low _ _ (by omega)
      have e3 : p2 (j + 1) = 0 := sturmRow_low _ _ (by omega)
      rw [e1, e2, e3, sturmRow_low _ _ (by omega)]; ring
    · subst h
      have e2 : p2 j = 0 := sturmRow_low _ _ (by omega)
      rw [e2, sturmRow_low _ _ (by omega)]
      field_simp; ring
    · rcases Nat.lt_or_ge j (i + 2) with h' | h'
      · have : j = i + 1 := by omega
        subst this
        rw [sturmRow_low _ _ (by omega)]
        field_simp; ring
      · rw [sturmRow_succ, if_pos ⟨h', hj⟩, ← hp1, ← hp2]
        unfold negRem
        split_ifs with hl
        · have : p2 (j + 1) = 0 := sturmRow_high _ _ (by omega)
          rw [this]; ring
        · ring
  calc p1 j * x ^ (n - 1 - j) + sturmRow n p (i + 2) j * x ^ (n - 1 - j)
      = (p1 j + sturmRow n p (i + 2) j) * x ^ (n - 1 - j) := by ring
    _ = _ := by rw [hcoef]; ring

theorem rowPoly_last (n : ℕ) (p : ℕ → ℝ) (hn : 1 ≤ n) (x : ℝ) :
    rowPoly n (sturmRow n p (n - 1)) x = sturmRow n p (n - 1) (n - 1) := by
  obtain ⟨N, rfl⟩ : ∃ N, n = N + 1 := ⟨n - 1, by omega⟩
  unfold rowPoly
  rw [sum_range_succ, sum_eq_zero, zero_add]
  · simp
  · intro j hj
    have := mem_range.mp hj
    rw [sturmRow_low _ _ (by omega), zero_mul]

theorem rowPoly_zero (n : ℕ) (p : ℕ → ℝ) (x : ℝ) :
    rowPoly n (sturmRow n p 0) x = ∑ j ∈ range n, p j * x ^ (n - 1 - j) := by
  unfold rowPoly
  refine sum_congr rfl fun j hj => ?_
  rw [sturmRow_zero, if_pos (mem_range.mp hj)]

/-- With a defined chain and no double root the last row is not zero. -/
theorem sturm_last_ne {n : ℕ} {p : ℕ → ℝ} (hn : 2 ≤ n) (h0 : p 0 ≠ 0) (hd : SturmDefined n p)
    (hs : ∀ x, rowPoly n (sturmRow n p 0) x = 0 → rowPoly n (sturmRow n p 1) x ≠ 0) :
    sturmRow n p (n - 1) (n - 1) ≠ 0 := by
  intro hz
  obtain ⟨N, rfl⟩ : ∃ N, n = N + 2 := ⟨n - 2, by omega⟩
  rw [show N + 2 - 1 = N + 1 by omega] at hz
  have hlead : sturmRow (N + 2) p N N ≠ 0 := by
    rcases N with _ | N
    · simpa [sturmRow] using h0
    · exact hd (N + 1) (by omega) (by omega)
  -- the root of the linear row
  have hlin : ∀ x, rowPoly (N + 2) (sturmRow (N + 2) p N) x =
      sturmRow (N + 2) p N N * x + sturmRow (N + 2) p N (N + 1) := by
    intro x
    unfold rowPoly
    rw [sum_range_succ, sum_range_succ, sum_eq_zero]
    · simp
    · intro j hj
      rw [sturmRow_low _ _ (mem_range.mp hj), zero_mul]
  set x := -sturmRow (N + 2) p N (N + 1) / sturmRow (N + 2) p N N with hx
  have hxN : rowPoly (N + 2) (sturmRow (N + 2) p N) x = 0 := by
    rw [hlin, hx]; field_simp; ring
  have hxN1 : rowPoly (N + 2) (sturmRow (N + 2) p (N + 1)) x = 0 := by
    have := rowPoly_last (N + 2) p (by omega) x
    rw [show N + 2 - 1 = N + 1 by omega] at this
    rw [this, hz]
  have down : ∀ k, k ≤ N → rowPoly (N + 2) (sturmRow (N + 2) p (N - k)) x = 0 ∧
      rowPoly (N + 2) (sturmRow (N + 2) p (N - k + 1)) x = 0 := by
    intro k
    induction k with
    | zero => intro _; exact ⟨hxN, hxN1⟩
    | succ k ih =>
      intro hk
      obtain ⟨h1, h2⟩ := ih (by omega)
      have e : N - (k + 1) + 1 = N - k := by omega
      have e2 : N - (k + 1) + 2 = N - k + 1 := by omega
      obtain ⟨a, b, hab⟩ := rowPoly_rec (N + 2) p (i := N - (k + 1)) (by omega)
        (hd _ (by omega) (by omega))
      have := hab x
      rw [e, e2, h1, h2] at this
      rw [e]
      exact ⟨by linarith, h1⟩
  have := down N le_rfl
  rw [Nat.sub_self] at this
  exact hs x this.1 this.2

/-- The chain that the constructor computes. -/
theorem sturm_isChain {n : ℕ} {p : ℕ → ℝ} (hn : 2 ≤ n) (h0 : p 0 ≠ 0) (hd : SturmDefined n p)
    (hs : ∀ x, rowPoly n (sturmRow n p 0) x = 0 → rowPoly n (sturmRow n p 1) x ≠ 0) :
    IsSturmChain (fun i => rowPoly n (sturmRow n p i)) (n - 1) where
  cont i := rowPoly_cont _ _
  deriv _ x := rowPoly_deriv n p x
  flank i hi x hx := by
    obtain ⟨a, b, hab⟩ := rowPoly_rec n p (i := i) (by omega) (hd _ (by omega) (by omega))
    have := hab x
    rw [hx, mul_zero] at this
    linarith
  last x := by
    rw [rowPoly_last n p (by omega)]
    exact sturm_last_ne hn h0 hd hs

theorem evaluateChain2_eq_chainChanges {n : ℕ} (hn : 1 ≤ n) (p : ℕ → ℝ) (x : ℝ) :
    evaluateChain2 n p x = chainChanges (fun i => rowPoly n (sturmRow n p i)) (n - 1) x := by
  obtain ⟨N, rfl⟩ : ∃ N, n = N + 1 := ⟨n - 1, by omega⟩
  rw [evaluateChain2_eq, Nat.add_sub_cancel]
  exact signChanges_eq_chainChanges (fun i => rowPoly (N + 1) (sturmRow (N + 1) p i)) N x

/-! ## The roots -/

/-- The polynomial as an element of `ℝ[X]`. -/
noncomputable def toPoly (n : ℕ) (p : ℕ → ℝ) : Polynomial ℝ :=
  ∑ j ∈ range n, Polynomial.C (p j) * Polynomial.X ^ (n - 1 - j)

theorem toPoly_eval (n : ℕ) (p : ℕ → ℝ) (x : ℝ) :
    (toPoly n p).eval x = ∑ j ∈ range n, p j * x ^ (n - 1 - j) := by
  simp [toPoly, Polynomial.eval_finsetSum]

theorem toPoly_natDegree_le (n : ℕ) (p : ℕ → ℝ) : (toPoly n p).natDegree ≤ n - 1 := by
  unfold toPoly
  apply Polynomial.natDegree_sum_le_of_forall_le
  intro j _
  refine (Polynomial.natDegree_C_mul_X_pow_le _ _).trans (by omega)

theorem toPoly_ne_zero {n : ℕ} {p : ℕ → ℝ} (hn : 1 ≤ n) (h0 : p 0 ≠ 0) : toPoly n p ≠ 0 := by
  intro h
  have hc : (toPoly n p).coeff (n - 1) = p 0 := by
    unfold toPoly
    rw [Polynomial.finsetSum_coeff, sum_eq_single_of_mem 0 (mem_range.mpr (by omega))]
    · simp
    · intro j hj hne
      have := mem_range.mp hj
      rw [Polynomial.coeff_C_mul_X_pow, if_neg (by omega)]
  rw [h, Polynomial.coeff_zero] at hc
  exact h0 hc.symm

/-- The set of real roots. -/
noncomputable def rootSet (n : ℕ) (p : ℕ → ℝ) : Finset ℝ := (toPoly n p).roots.toFinset

theorem mem_rootSet {n : ℕ} {p : ℕ → ℝ} (hn : 1 ≤ n) (h0 : p 0 ≠ 0) (r : ℝ) :
    r ∈ rootSet n p ↔ ∑ j ∈ range n, p j * r ^ (n - 1 - j) = 0 := by
  unfold rootSet
  rw [Multiset.mem_toFinset, Polynomial.mem_roots (toPoly_ne_zero hn h0), Polynomial.IsRoot,
    toPoly_eval]

theorem rootSet_card (n : ℕ) (p : ℕ → ℝ) : (rootSet n p).card ≤ n - 1 :=
  (Multiset.toFinset_card_le _).trans ((Polynomial.card_roots' _).trans (toPoly_natDegree_le n p))

end OpenGV
