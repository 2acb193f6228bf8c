import Verif.Proof.SturmFindRoots2
import Mathlib.Analysis.Calculus.Deriv.Inv
import Mathlib.Analysis.Calculus.FDeriv.Defs

namespace OpenGV

open Spec Topology

theorem rowValue_differentiable (n : ℕ) (p : ℕ → ℝ) (i : ℕ) : Differentiable ℝ (rowValue n p i) := by
  have : rowValue n p i = fun x => rowPoly n (sturmRow n p i) x := funext fun x => rowValue_eq n p i x
  rw [this]
  unfold rowPoly
  fun_prop

/-- Near a simple root the correction steps converge to it, faster than any geometric rate. -/
theorem correction_contracts (n : ℕ) (p : ℕ → ℝ) (r : ℝ) (h0 : evalPoly n p r = 0)
    (h1 : deriv (evalPoly n p) r ≠ 0) (c : ℝ) (hc : 0 < c) (hc1 : c ≤ 1) :
    ∃ δ, 0 < δ ∧ ∀ (k : ℕ) (x : ℝ), |x - r| < δ →
      ∃ y, correctionSteps n p k x = some y ∧ |y - r| ≤ c ^ k * |x - r| := by
  set f := rowValue n p 0 with hf
  set g := rowValue n p 1 with hg
  have hfe : f = evalPoly n p := rowValue_zero n p
  have hge : g = deriv (evalPoly n p) := rowValue_one n p
  have hgr : g r ≠ 0 := by rw [hge]; exact h1
  have hfr : f r = 0 := by rw [hfe]; exact h0
  have df : HasDerivAt f (g r) r := by
    rw [hge, ← hfe]
    exact (rowValue_differentiable n p 0 r).hasDerivAt
  have dg : HasDerivAt g (deriv g r) r := (rowValue_differentiable n p 1 r).hasDerivAt
  have dN : HasDerivAt (fun x => x - f x / g x) 0 r := by
    have := (hasDerivAt_id' r).fun_sub (df.fun_div dg hgr)
    refine this.congr_deriv ?_
    rw [hfr]
    field_simp
    ring
  have e1 := dN.isLittleO.def hc
  have e2 : ∀ᶠ x in 𝓝 r, g x ≠ 0 := dg.continuousAt.eventually_ne hgr
  obtain ⟨δ, hδ, hball⟩ := Metric.eventually_nhds_iff.1 (e1.and e2)
  refine ⟨δ, hδ, fun k => ?_⟩
  induction k with
  | zero => intro x _; exact ⟨x, rfl, by simp⟩
  | succ k ih =>
    intro x hx
    obtain ⟨h2, h3⟩ := hball (by rwa [Real.dist_eq])
    rw [hfr] at h2
    simp only [zero_div, sub_zero, smul_eq_mul, mul_zero, Real.norm_eq_abs,
      ContinuousLinearMap.toSpanSingleton_apply] at h2
    have h4 : |x - f x / g x - r| < δ := by
      refine lt_of_le_of_lt h2 (lt_of_le_of_lt ?_ hx)
      exact mul_le_of_le_one_left (abs_nonneg _) hc1
    obtain ⟨y, hy, hyr⟩ := ih _ h4
    refine ⟨y, ?_, ?_⟩
    · rw [correctionSteps, if_neg h3]; exact hy
    · calc |y - r| ≤ c ^ k * |x - f x / g x - r| := hyr
        _ ≤ c ^ k * (c * |x - r|) := mul_le_mul_of_nonneg_left h2 (by positivity)
        _ = c ^ (k + 1) * |x - r| := by ring

end OpenGV
