import Verif.Model.Ransac
import Mathlib.Tactic.Linarith
import Mathlib.Tactic.Positivity
import Mathlib.Tactic.NormNum
import Mathlib.Data.Nat.Choose.Basic
import Mathlib.Data.Nat.Factorial.BigOperators

/-! Facts on the adaptive stopping rule. -/

namespace OpenGV.Sac

theorem dblEps_pos : 0 < dblEps := by unfold dblEps; positivity
theorem dblEps_small : dblEps < 1 / 100 := by unfold dblEps; norm_num

theorem pNoOutliers_ge (count n card : ℕ) : dblEps ≤ pNoOutliers count n card := by
  unfold pNoOutliers
  have := dblEps_small
  split
  · exact le_refl _
  · exact le_min (by linarith) (le_max_left _ _)

theorem pNoOutliers_le (count n card : ℕ) : pNoOutliers count n card ≤ 1 - dblEps := by
  unfold pNoOutliers
  have := dblEps_small
  split
  · linarith
  · exact min_le_left _ _

theorem log_pNoOutliers_neg (count n card : ℕ) : Real.log (pNoOutliers count n card) < 0 := by
  have h1 := pNoOutliers_ge count n card
  have h2 := pNoOutliers_le count n card
  have := dblEps_pos
  exact Real.log_neg (by linarith) (by linarith)

/-- If the adaptive rule wants to stop after `it` iterations, then `p^it ≤ 1 - probability`. -/
theorem stop_rule (prob : ℝ) (hp : prob ≤ 1) (count n card it : ℕ)
    (h : ¬ (kOf prob count n card).gtInt it) :
    pNoOutliers count n card ^ it ≤ 1 - prob := by
  have hneg := log_pNoOutliers_neg count n card
  have hpos : 0 < pNoOutliers count n card :=
    lt_of_lt_of_le dblEps_pos (pNoOutliers_ge count n card)
  unfold kOf at h
  rw [if_neg (by linarith)] at h
  by_cases h1 : 1 - prob = 0
  · rw [if_pos h1] at h; exact absurd trivial h
  · rw [if_neg h1] at h
    simp only [KVal.gtInt, not_lt, Int.cast_natCast] at h
    have h2 : 0 < 1 - prob := lt_of_le_of_ne (by linarith) (Ne.symm h1)
    rw [div_le_iff_of_neg hneg] at h
    have : Real.log (pNoOutliers count n card ^ it) ≤ Real.log (1 - prob) := by
      rw [Real.log_pow]; linarith
    exact (Real.log_le_log_iff (by positivity) h2).1 this

theorem stop_rule_w (prob : ℝ) (hp : prob ≤ 1) (count n card it : ℕ) (hn : 0 < n)
    (hc : count ≤ n) (hw : dblEps ≤ ((count : ℝ) / n) ^ card)
    (h : ¬ (kOf prob count n card).gtInt it) :
    (1 - ((count : ℝ) / n) ^ card) ^ it ≤ 1 - prob := by
  refine le_trans ?_ (stop_rule prob hp count n card it h)
  have hq : ((count : ℝ) / n) ^ card ≤ 1 := by
    apply pow_le_one₀ (by positivity)
    rw [div_le_one (by exact_mod_cast hn)]
    exact_mod_cast hc
  apply pow_le_pow_left₀ (by linarith)
  unfold pNoOutliers
  rw [if_neg (by omega)]
  exact le_min (by linarith) (le_max_right _ _)

theorem descFactorial_ratio (I n : ℕ) (h : I ≤ n) : ∀ s,
    I.descFactorial s * n ^ s ≤ n.descFactorial s * I ^ s := by
  intro s
  induction s with
  | zero => simp
  | succ s ih =>
    rw [Nat.descFactorial_succ, Nat.descFactorial_succ, pow_succ, pow_succ]
    have h2 : (I - s) * n ≤ (n - s) * I := by
      rcases Nat.le_total I s with hs | hs
      · have : I - s = 0 := by omega
        simp [this]
      · obtain ⟨a, rfl⟩ := Nat.exists_eq_add_of_le hs
        obtain ⟨b, rfl⟩ := Nat.exists_eq_add_of_le h
        have e1 : s + a - s = a := by omega
        have e2 : s + a + b - s = a + b := by omega
        rw [e1, e2]
        nlinarith [Nat.zero_le (s * b), Nat.zero_le (a * s)]
    calc (I - s) * I.descFactorial s * (n ^ s * n)
        = ((I - s) * n) * (I.descFactorial s * n ^ s) := by ring
      _ ≤ ((n - s) * I) * (n.descFactorial s * I ^ s) := Nat.mul_le_mul h2 ih
      _ = (n - s) * n.descFactorial s * (I ^ s * I) := by ring

/-- The probability that a sample of `s` without repetition out of `n` lies in a given subset of
`I` is at most `(I/n)^s`. -/
theorem choose_ratio_le (I n s : ℕ) (h : I ≤ n) (hs : s ≤ n) (hn : 0 < n) :
    (I.choose s : ℝ) / (n.choose s : ℝ) ≤ ((I : ℝ) / n) ^ s := by
  have h1 := descFactorial_ratio I n h s
  rw [Nat.descFactorial_eq_factorial_mul_choose, Nat.descFactorial_eq_factorial_mul_choose] at h1
  have h2 : I.choose s * n ^ s ≤ n.choose s * I ^ s := by
    have hf := Nat.factorial_pos s
    have : s.factorial * (I.choose s * n ^ s) ≤ s.factorial * (n.choose s * I ^ s) := by
      calc _ = s.factorial * I.choose s * n ^ s := by ring
        _ ≤ _ := h1
        _ = _ := by ring
    exact Nat.le_of_mul_le_mul_left this hf
  have hc : 0 < n.choose s := Nat.choose_pos hs
  rw [div_pow, div_le_div_iff₀ (by exact_mod_cast hc) (by positivity)]
  have : (I.choose s * n ^ s : ℝ) ≤ (n.choose s * I ^ s : ℝ) := by exact_mod_cast h2
  linarith

end OpenGV.Sac
