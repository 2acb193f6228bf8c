import Verif.Proof.RansacSingle
import Verif.Proof.RansacToy
import Verif.Props.Sampling

/-!
# Properties of the RANSAC driver (C05 - C09)

All theorems are about `Ransac::computeModel` run on a problem derived from
`SampleConsensusProblem` with an arbitrary user part `U`, an arbitrary random stream and an
arbitrary index set. `r.final.scored` is the list of hypotheses (sample, model) that the run has
scored, oldest first.
-/

namespace OpenGV.Props

open OpenGV.Sac OpenGV.Spec

variable {σ M : Type}

/-- **C05.** `computeModel` always returns (the same result for every sufficiently large fuel of the
model, and never undefined behaviour), scores at most `max_iterations_ + 1` hypotheses, skips at most
`10 * max_iterations_` samples, and `iterations_` is the number of scored hypotheses unless
sampling failed.
Hypotheses: `10 * max_iterations_` fits in an `int`; the user's distance function returns one
distance per index; the pool is a permutation of the indices (C02). -/
theorem C05_terminates_within_budget (U : UserProblem σ M) (rng : ℕ → ℕ) (indices : List ℤ)
    (thr prob : ℝ) (maxIt : ℤ) (h0 : 0 ≤ maxIt) (h1 : 10 * maxIt ≤ intMax)
    (hdist : ∀ m, (U.dist m indices).length = indices.length)
    (obj : RansacObj (σ × List ℤ × ℕ) (List ℤ) M (List ℤ))
    (hpool : obj.world.2.1.Perm indices)
    (hobj : obj.model.isSome → obj.coeffs.isSome) :
    ∃ r, (∀ fuel : ℕ, 11 * maxIt + 2 ≤ fuel →
        computeModel (single U rng indices) thr prob maxIt obj fuel = .done r) ∧
      (r.final.scored.length : ℤ) ≤ maxIt + 1 ∧
      (r.final.skipped : ℤ) ≤ 10 * maxIt ∧
      (r.final.failed = false → r.obj.iterations = r.final.scored.length) := by
  have hms : ∃ maxSkip, maxSkipOf maxIt = some maxSkip := by
    unfold maxSkipOf
    rw [if_neg (by simp only [intMax] at *; omega)]
    exact ⟨_, rfl⟩
  obtain ⟨maxSkip, hms⟩ := hms
  have hmz := maxSkipOf_nonneg maxIt h0 maxSkip hms
  obtain ⟨r, hr⟩ := computeModel_total (single U rng indices) _ (single_safe U rng indices)
    (by
      intro m thr
      obtain ⟨ins, hi, _⟩ := C12_select_and_count indices (U.dist m indices) thr (hdist m)
      exact ⟨ins, hi⟩)
    thr prob maxIt maxSkip hms obj hpool hobj
  have hd := hr _ (le_refl _)
  obtain ⟨maxSkip', e, hl, hit, _⟩ := computeModel_done _ _ _ _ _ _ _ hd
  rw [hms] at e
  cases e
  obtain ⟨b1, b2, _⟩ := budget_final _ _ _ _ _ _ _ _ hl
  have hI := rinv_final _ _ _ _ _ _ _ _ hl
  refine ⟨r, fun fuel hf => hr fuel (by omega), by omega, by omega, fun hf => ?_⟩
  rw [hit, hI.iter hf]

/-- **C05 (the bound `max_iterations_` is not respected).** For every `max_iterations_ ≥ 1` there is
a run, with the default probability 0.99, which scores `max_iterations_ + 1` hypotheses. -/
theorem C05_one_extra_iteration (maxIt : ℤ) (h0 : 1 ≤ maxIt) (h1 : 10 * maxIt ≤ intMax) :
    ∃ (U : UserProblem Unit Unit) (indices : List ℤ) (thr : ℝ)
      (r : RansacReturn (Unit × List ℤ × ℕ) (List ℤ) Unit (List ℤ)) (fuel : ℕ),
      computeModel (single U (fun _ => 0) indices) thr (99 / 100) maxIt
        ⟨((), indices, 0), 0, none, none, []⟩ fuel = .done r ∧
      (r.final.scored.length : ℤ) = maxIt + 1 ∧ r.obj.iterations = maxIt + 1 := by
  obtain ⟨r, hr, b1, _, b3⟩ := C05_terminates_within_budget (constProblem 1 [1]) (fun _ => 0) [0]
    0 (99 / 100) maxIt (by omega) h1 (by intro m; rfl) (constObj [0]) (List.Perm.refl _)
    (by simp [constObj])
  refine ⟨constProblem 1 [1], [0], 0, r, (11 * maxIt + 2).toNat, hr _ (by omega), ?_⟩
  have hd := hr (11 * maxIt + 2).toNat (by omega)
  obtain ⟨maxSkip, e, hl, hit, _⟩ := computeModel_done _ _ _ _ _ _ _ hd
  have hmz := maxSkipOf_nonneg maxIt (by omega) maxSkip e
  obtain ⟨c1, _, c3, c4, _, _, c7⟩ := constProblem_run 1 [1] (fun _ => 0) [0] (by norm_num) (by simp)
    _ _ _ _ _ _ (by omega) hl
  have hc : countWithinDistance [1] 0 = 0 := by norm_num [countWithinDistance]
  have hbig : (r.final.scored.length : ℤ) > maxIt := by
    rcases c7 with c7 | c7
    · by_contra hle
      rw [hc] at c7
      have := stop_rule (99 / 100) (by norm_num) 0 1 1 r.final.scored.length c7
      have hp : pNoOutliers 0 1 1 = 1 - dblEps := by
        unfold pNoOutliers
        have := dblEps_pos
        have := dblEps_small
        norm_num
        right
        linarith
      rw [hp] at this
      have hb := one_add_mul_le_pow (a := -dblEps) (by linarith [dblEps_small])
        r.final.scored.length
      have hle' : (r.final.scored.length : ℝ) ≤ 2147483647 := by
        have : (r.final.scored.length : ℤ) ≤ 2147483647 := by simp only [intMax] at h1; omega
        exact_mod_cast this
      have hsm : (r.final.scored.length : ℝ) * dblEps ≤ 1 / 2 := by
        unfold dblEps
        norm_num
        linarith
      rw [← sub_eq_add_neg] at hb
      linarith
    · exact c7
  exact ⟨by omega, by rw [hit, c4]; omega⟩

/-- Non-vacuity of C05: the problem of the previous theorem meets all hypotheses. -/
example : (constObj [0]).world.2.1.Perm [0] ∧
    (∀ m, ((constProblem 1 [1]).dist m [0]).length = [(0 : ℤ)].length) :=
  ⟨List.Perm.refl _, fun _ => rfl⟩

/-- **C06.** On a fresh object (`model_` empty), if `computeModel` returns true, then the scored
hypotheses split as `pre ++ (s, m) :: post` where `(s, m)` is what is returned, `m` was computed
from the sample `s`, `s` is a valid sample of the index set, all earlier hypotheses had strictly
smaller support and all later ones not larger support. -/
theorem C06_maximal_support (U : UserProblem σ M) (rng : ℕ → ℕ) (indices : List ℤ)
    (thr prob : ℝ) (maxIt : ℤ) (obj : RansacObj (σ × List ℤ × ℕ) (List ℤ) M (List ℤ))
    (hfresh : obj.model = none) (hpool : obj.world.2.1.Perm indices)
    (r : RansacReturn (σ × List ℤ × ℕ) (List ℤ) M (List ℤ)) (fuel : ℕ)
    (h : computeModel (single U rng indices) thr prob maxIt obj fuel = .done r)
    (hret : r.ret = true) :
    ∃ pre s m post, r.final.scored = pre ++ (s, m) :: post ∧
      r.obj.model = some s ∧ r.obj.coeffs = some m ∧
      (∃ w, (U.compute w s).1 = some m) ∧ IsSampleOf indices U.sampleSize s ∧
      (∀ x ∈ pre, support (U.dist x.2 indices) thr < support (U.dist m indices) thr) ∧
      (∀ x ∈ post, support (U.dist x.2 indices) thr ≤ support (U.dist m indices) thr) := by
  obtain ⟨maxSkip, e, hl, _, hmod, hco, hcase⟩ := computeModel_done _ _ _ _ _ _ _ h
  have hI := rinv_final _ _ _ _ _ _ _ _ hl
  have hne : r.final.scored ≠ [] := by
    intro hs
    have := (hI.empty hs).1
    rw [hfresh] at this
    rcases hcase with ⟨_, h2, _⟩ | ⟨s, m, ins, h2, _⟩
    · rw [hret] at h2; cases h2
    · rw [this] at h2; cases h2
  obtain ⟨pre, s, m, post, e1, e2, e3, e4, e5, e6, _⟩ := hI.nonempty hne
  have hmem : (s, m) ∈ r.final.scored := by rw [e1]; simp
  have hsmp := ransacLoop_samples _ _ (single_safe U rng indices)
    (fun s => IsSampleOf indices U.sampleSize s)
    (by
      intro w s w' hw hg
      obtain ⟨res, w'', h1, _, h3⟩ := single_getSamples U rng indices w hw
      rw [h1] at hg
      cases hg
      exact h3 s rfl)
    thr prob maxIt maxSkip fuel (ransacInit obj) r.final hpool (by simp [ransacInit]) hl _ hmem
  refine ⟨pre, s, m, post, e1, hmod.trans e2, hco.trans e3, ?_, hsmp, ?_, ?_⟩
  · obtain ⟨_, w, hw⟩ := hI.comp _ hmem
    obtain ⟨w, pool, pos⟩ := w
    refine ⟨w, ?_⟩
    simp only [single] at hw
    exact hw
  · intro x hx; have := e5 x hx; simpa only [single, support_eq] using this
  · intro x hx; have := e6 x hx; simpa only [single, support_eq] using this

/-- **C07.** If `computeModel` returns true (also on an object used before) then `inliers_` are
exactly the indices with distance to `model_coefficients_` strictly below the threshold, in
index-set order; their number is the support of the returned model. -/
theorem C07_inliers_exact (U : UserProblem σ M) (rng : ℕ → ℕ) (indices : List ℤ)
    (thr prob : ℝ) (maxIt : ℤ) (obj : RansacObj (σ × List ℤ × ℕ) (List ℤ) M (List ℤ))
    (hdist : ∀ m, (U.dist m indices).length = indices.length)
    (r : RansacReturn (σ × List ℤ × ℕ) (List ℤ) M (List ℤ)) (fuel : ℕ)
    (h : computeModel (single U rng indices) thr prob maxIt obj fuel = .done r)
    (hret : r.ret = true) :
    ∃ m, r.obj.coeffs = some m ∧ Selected (· < thr) indices (U.dist m indices) r.obj.inliers ∧
      r.obj.inliers.length = support (U.dist m indices) thr := by
  obtain ⟨maxSkip, e, hl, _, hmod, hco, hcase⟩ := computeModel_done _ _ _ _ _ _ _ h
  rcases hcase with ⟨_, h2, _⟩ | ⟨s, m, ins, _, h3, h4, _, h6⟩
  · rw [hret] at h2; cases h2
  · obtain ⟨ins', hs, hsel, hcnt⟩ := C12_select_and_count indices (U.dist m indices) thr (hdist m)
    have : ins' = ins := by
      simp only [single] at h4
      rw [hs] at h4
      cases h4; rfl
    subst this
    refine ⟨m, hco.trans h3, h6 ▸ hsel, ?_⟩
    rw [h6, ← hcnt, support_eq]

/-- **C08.** On a fresh object the returned value is true iff some sample of the run produced a
model, and if it is false then `inliers_` is empty and `model_` is still empty. -/
theorem C08_return_value_fresh (U : UserProblem σ M) (rng : ℕ → ℕ) (indices : List ℤ)
    (thr prob : ℝ) (maxIt : ℤ) (obj : RansacObj (σ × List ℤ × ℕ) (List ℤ) M (List ℤ))
    (hfresh : obj.model = none)
    (r : RansacReturn (σ × List ℤ × ℕ) (List ℤ) M (List ℤ)) (fuel : ℕ)
    (h : computeModel (single U rng indices) thr prob maxIt obj fuel = .done r) :
    (r.ret = true ↔ r.final.scored ≠ []) ∧
    (r.ret = false → r.obj.inliers = [] ∧ r.obj.model = none) := by
  obtain ⟨maxSkip, e, hl, _, hmod, hco, hcase⟩ := computeModel_done _ _ _ _ _ _ _ h
  have hI := rinv_final _ _ _ _ _ _ _ _ hl
  rcases hcase with ⟨h1, h2, h3⟩ | ⟨s, m, ins, h1, h3, h4, h5, h6⟩
  · refine ⟨⟨fun hr => ?_, fun hs => ?_⟩, fun _ => ⟨h3, hmod.trans h1⟩⟩
    · rw [h2] at hr; cases hr
    · obtain ⟨_, _, _, _, _, e2, _⟩ := hI.nonempty hs
      rw [h1] at e2; cases e2
  · refine ⟨⟨fun _ hs => ?_, fun _ => h5⟩, fun hr => ?_⟩
    · have := (hI.empty hs).1
      rw [h1, hfresh] at this; cases this
    · rw [h5] at hr; cases hr

/-- **C08 (reuse).** Whenever a RANSAC object that already holds a model is run on a problem with too
few indices for even one sample, it reports success with the *old* model although nothing was scored
(with a positive iteration budget; `iterations_` is then `INT_MAX`). -/
theorem C08_stale_model_on_reuse (U : UserProblem σ M) (rng : ℕ → ℕ) (indices : List ℤ)
    (thr prob : ℝ) (maxIt : ℤ) (h0 : 1 ≤ maxIt) (h1 : 10 * maxIt ≤ intMax)
    (hdist : ∀ m, (U.dist m indices).length = indices.length)
    (obj : RansacObj (σ × List ℤ × ℕ) (List ℤ) M (List ℤ))
    (s : List ℤ) (m : M) (hm : obj.model = some s) (hc : obj.coeffs = some m)
    (hfew : indices.length < U.sampleSize) :
    ∃ r, computeModel (single U rng indices) thr prob maxIt obj 1 = .done r ∧
      r.ret = true ∧ r.obj.model = some s ∧ r.obj.coeffs = some m ∧ r.final.scored = [] ∧
      r.obj.iterations = intMax := by
  have hms : ∃ maxSkip, maxSkipOf maxIt = some maxSkip ∧ 0 < maxSkip := by
    unfold maxSkipOf
    rw [if_neg (by simp only [intMax] at *; omega)]
    refine ⟨_, rfl, ?_⟩
    simp only [intMax] at h1
    rw [Int.emod_eq_of_lt (by omega) (by omega)]
    omega
  obtain ⟨maxSkip, hms, hpos⟩ := hms
  obtain ⟨ins, hs, _⟩ := C12_select_and_count indices (U.dist m indices) thr (hdist m)
  obtain ⟨⟨w, pool, pos⟩, it, mo, co, inl⟩ := obj
  simp only at hm hc
  subst hm hc
  refine ⟨⟨true, ⟨(single U rng indices).distEffect (w, pool, pos) m, intMax, some s, some m, ins⟩,
    { ransacInit ⟨(w, pool, pos), it, some s, some m, inl⟩ with
      iterations := intMax, failed := true }⟩, ?_, rfl, rfl, rfl, rfl, rfl⟩
  unfold computeModel
  rw [hms]
  have hg : (KVal.fin 1).gtInt 0 := by simp [KVal.gtInt]
  simp [ransacLoop, ransacInit, hg, hpos, ransacBody, single, getSamples, hfew, hs]

/-- Non-vacuity of the reuse theorem: an object with a model, and an empty index set. -/
example : ([] : List ℤ).length < (constProblem 1 []).sampleSize ∧
    (∀ m, ((constProblem 1 []).dist m []).length = ([] : List ℤ).length) := by
  constructor
  · simp [constProblem]
  · intro m; rfl

/-- **C09.** If a run on a fresh object ends by the adaptive rule (sampling did not fail and
neither budget was exhausted), then with `w` the inlier ratio of the returned model and `s` the
sample size, `(1 - w^s)^iterations ≤ 1 - probability`, provided `w^s` is at least the machine
epsilon at which the code clamps. -/
theorem C09_confidence (U : UserProblem σ M) (rng : ℕ → ℕ) (indices : List ℤ)
    (thr prob : ℝ) (hprob : prob ≤ 1) (maxIt : ℤ) (h0 : 0 ≤ maxIt)
    (obj : RansacObj (σ × List ℤ × ℕ) (List ℤ) M (List ℤ))
    (hdist : ∀ m, (U.dist m indices).length = indices.length)
    (hfresh : obj.model = none) (hpool : obj.world.2.1.Perm indices) (hne : indices ≠ [])
    (r : RansacReturn (σ × List ℤ × ℕ) (List ℤ) M (List ℤ)) (fuel : ℕ)
    (h : computeModel (single U rng indices) thr prob maxIt obj fuel = .done r)
    (hret : r.ret = true)
    (hfail : r.final.failed = false) (hbudget : (r.final.scored.length : ℤ) ≤ maxIt)
    (hskip : (r.final.skipped : ℤ) < 10 * maxIt)
    (hw : (2 : ℝ)⁻¹ ^ 52 ≤ ((r.obj.inliers.length : ℝ) / indices.length) ^ U.sampleSize) :
    (1 - ((r.obj.inliers.length : ℝ) / indices.length) ^ U.sampleSize) ^ r.obj.iterations.toNat
      ≤ 1 - prob := by
  obtain ⟨pre, s, m, post, d1, d2, d3, _, ⟨hs, _⟩, _⟩ :=
    C06_maximal_support U rng indices thr prob maxIt obj hfresh hpool r fuel h hret
  obtain ⟨m', f1, _, f3⟩ := C07_inliers_exact U rng indices thr prob maxIt obj hdist r fuel h hret
  have : m' = m := by rw [f1] at d3; cases d3; rfl
  subst this
  obtain ⟨maxSkip, e, hl, hit, hmod, hco, hcase⟩ := computeModel_done _ _ _ _ _ _ _ h
  have hI := rinv_final _ _ _ _ _ _ _ _ hl
  have hmz := maxSkipOf_nonneg maxIt h0 maxSkip e
  obtain ⟨_, _, b3⟩ := budget_final _ _ _ _ _ _ _ _ hl
  have hsc : r.final.scored ≠ [] := by rw [d1]; simp
  obtain ⟨_, s', m'', _, _, e2, e3, e4, _, _, e7⟩ := hI.nonempty hsc
  have : s' = s := by rw [hmod, e2] at d2; cases d2; rfl
  subst this
  have : m'' = m' := by rw [hco, e3] at d3; cases d3; rfl
  subst this
  have hcnt : (single U rng indices).count m'' thr = r.obj.inliers.length := by
    rw [f3]; simp only [single, support_eq]
  rw [hcnt] at e7
  have hk : ¬ r.final.k.gtInt r.final.iterations := by
    rcases b3 with b3 | b3 | b3
    · rw [hfail] at b3; cases b3
    · omega
    · intro hg; exact b3 ⟨hg, by omega⟩
  have hits := hI.iter hfail
  rw [e7, hits] at hk
  have hcard : (single U rng indices).sampleCard s' = U.sampleSize := hs
  have hnum : (single U rng indices).numIndices = indices.length := rfl
  rw [hcard, hnum] at hk
  have hin : r.obj.inliers.length ≤ indices.length := by
    rw [f3, ← hdist m'']
    exact List.countP_le_length
  rw [hit, hits, Int.toNat_natCast]
  refine stop_rule_w prob hprob _ _ _ _ (List.length_pos_iff.2 hne) hin ?_ hk
  have : dblEps = (2 : ℝ)⁻¹ ^ 52 := by unfold dblEps; rw [inv_pow, one_div]
  rw [this]; exact hw

/-- **C09 (what sampling without repetition really achieves).** The chance `C(I,s)/C(n,s)` that a
sample of `s` out of `n` without repetition hits only the `I` inliers is at most `w^s`. -/
theorem C09_true_probability_le (I n s : ℕ) (h : I ≤ n) (hs : s ≤ n) (hn : 0 < n) :
    (I.choose s : ℝ) / (n.choose s : ℝ) ≤ ((I : ℝ) / n) ^ s :=
  choose_ratio_le I n s h hs hn

/-- **C09 (the confidence is not achieved).** There is a run, ended by the adaptive rule, with four
indices, three inliers, sample size three and requested probability 0.99 for which the
probability of having seen no all-inlier sample, `(1 - C(3,3)/C(4,3))^iterations`, exceeds
`1 - 0.99`: it is above `0.07`. -/
theorem C09_confidence_not_achieved :
    ∃ (U : UserProblem Unit Unit) (indices : List ℤ) (thr : ℝ)
      (r : RansacReturn (Unit × List ℤ × ℕ) (List ℤ) Unit (List ℤ)) (fuel : ℕ),
      computeModel (single U (fun _ => 0) indices) thr (99 / 100) 1000
        ⟨((), indices, 0), 0, none, none, []⟩ fuel = .done r ∧
      r.ret = true ∧ r.final.failed = false ∧ (r.final.scored.length : ℤ) ≤ 1000 ∧
      (r.final.skipped : ℤ) < 10000 ∧ U.sampleSize = 3 ∧ indices.length = 4 ∧
      r.obj.inliers.length = 3 ∧
      7 / 100 < (1 - (Nat.choose 3 3 : ℝ) / (Nat.choose 4 3 : ℝ)) ^ r.obj.iterations.toNat := by
  set d : List ℝ := [0, 0, 0, 2] with hd
  set ix : List ℤ := [0, 1, 2, 3] with hix
  have hc : countWithinDistance d 1 = 3 := by norm_num [countWithinDistance, hd]
  obtain ⟨r, hr, b1, b2, b3⟩ := C05_terminates_within_budget (constProblem 3 d) (fun _ => 0) ix
    1 (99 / 100) 1000 (by norm_num) (by norm_num [intMax]) (by intro m; rfl) (constObj ix)
    (List.Perm.refl _) (by simp [constObj])
  have hrun := hr 11002 (by norm_num)
  obtain ⟨maxSkip, e, hl, hit, _⟩ := computeModel_done _ _ _ _ _ _ _ hrun
  have hmz := maxSkipOf_nonneg 1000 (by norm_num) maxSkip e
  obtain ⟨c1, c2, c3, c4, c5, c6, c7⟩ := constProblem_run 3 d (fun _ => 0) ix (by norm_num)
    (by simp [hix]) _ _ _ _ _ _ (by omega) hl
  rw [hc] at c6 c7
  have hp : pNoOutliers 3 4 3 = 37 / 64 := by
    unfold pNoOutliers dblEps
    norm_num
  have hlen : ix.length = 4 := rfl
  rw [hlen] at c6 c7
  have hle : r.final.scored.length ≤ 9 := by
    rcases c6 with c6 | c6
    · omega
    · by_contra hgt
      have hge : (9 : ℝ) ≤ ((r.final.scored.length - 1 : ℤ) : ℝ) := by
        have : (9 : ℤ) ≤ (r.final.scored.length - 1 : ℤ) := by omega
        exact_mod_cast this
      unfold kOf at c6
      rw [if_neg (by norm_num), if_neg (by norm_num), hp] at c6
      simp only [KVal.gtInt] at c6
      have hneg : Real.log (37 / 64) < 0 := Real.log_neg (by norm_num) (by norm_num)
      rw [lt_div_iff_of_neg hneg] at c6
      have h9 : Real.log ((37 / 64) ^ 9) ≤ Real.log (1 - 99 / 100) :=
        Real.log_le_log (by norm_num) (by norm_num)
      rw [Real.log_pow] at h9
      push_cast at h9 c6 hge
      have := mul_le_mul_of_nonpos_right hge hneg.le
      linarith
  have hsc : r.final.scored ≠ [] := by
    intro h0; rw [h0] at c3; simp at c3
  have hret := (C08_return_value_fresh _ _ _ _ _ _ _ rfl r _ hrun).1.2 hsc
  obtain ⟨m, _, _, f3⟩ := C07_inliers_exact (constProblem 3 d) (fun _ => 0) ix 1 (99 / 100) 1000
    (constObj ix) (by intro m; rfl) r _ hrun hret
  refine ⟨constProblem 3 d, ix, 1, r, 11002, hrun, hret, c1, by omega, by omega, rfl, rfl, ?_, ?_⟩
  · rw [f3, ← support_eq]; exact hc
  · rw [hit, c4, Int.toNat_natCast]
    have h34 : (1 - (Nat.choose 3 3 : ℝ) / (Nat.choose 4 3 : ℝ)) = 3 / 4 := by
      norm_num [Nat.choose]
    rw [h34]
    calc (7 / 100 : ℝ) < (3 / 4) ^ 9 := by norm_num
      _ ≤ (3 / 4) ^ r.final.scored.length :=
        pow_le_pow_of_le_one (by norm_num) (by norm_num) hle

/-- Non-vacuity of C06, C07, C08 and C09: the run of the previous theorem satisfies all their
hypotheses (fresh object, pool equal to the indices, true returned, stopped by the rule, and
`w^s = 27/64` is above the machine epsilon). -/
example : ∃ (U : UserProblem Unit Unit) (r : RansacReturn (Unit × List ℤ × ℕ) (List ℤ) Unit (List ℤ))
    (indices : List ℤ) (thr : ℝ) (fuel : ℕ),
    computeModel (single U (fun _ => 0) indices) thr (99 / 100) 1000
      ⟨((), indices, 0), 0, none, none, []⟩ fuel = .done r ∧ r.ret = true ∧
    (2 : ℝ)⁻¹ ^ 52 ≤ ((r.obj.inliers.length : ℝ) / indices.length) ^ U.sampleSize := by
  obtain ⟨U, ix, thr, r, fuel, h1, h2, _, _, _, h6, h7, h8, _⟩ := C09_confidence_not_achieved
  refine ⟨U, r, ix, thr, fuel, h1, h2, ?_⟩
  rw [h6, h7, h8]
  norm_num

end OpenGV.Props
