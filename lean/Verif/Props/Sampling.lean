import Verif.Model.SamplingHistory
import Verif.Spec.Sampling
import Verif.Proof.Sampling
import Verif.Proof.SamplingHistory
import Mathlib.Tactic.NormNum

/-!
# Properties of sampling (C01 - C04, C12)
-/

namespace OpenGV.Props

open OpenGV.Sac OpenGV.Spec

/-- **C01.** After any history of calls on a fresh problem object and for every random stream,
a request for a sample succeeds without undefined behaviour, and a non-empty answer consists of
exactly `k` entries of the current index set at pairwise different positions and passed
`isSampleGood`. In particular it has no repetitions when the index set has none. -/
theorem C01_samples_valid (rng : ℕ → ℕ) (history : List Call) (good : List ℤ → Bool) (k : ℕ) :
    ∃ st, calls rng fresh history = some st ∧
    ∃ res pool' pos', Sac.getSamples rng good k st.indices st.pos st.pool = some (res, pool', pos') ∧
      ∀ s, res = .sample s →
        IsSampleOf (lastIndices history) k s ∧ good s = true ∧
        ((lastIndices history).Nodup → s.Nodup) := by
  obtain ⟨st, e, h⟩ := calls_inv rng history fresh (List.Perm.refl _)
  obtain ⟨res, pool', pos', h1, _, h3⟩ := getSamples_spec rng good k st h
  rw [lastIndices_eq rng history st e] at h3
  refine ⟨st, e, res, pool', pos', h1, ?_⟩
  rintro s rfl
  rcases h3 with ⟨_, h3⟩ | ⟨_, h3 | ⟨s', hs', hg, hl, hsp⟩⟩
  · cases h3
  · cases h3
  · cases hs'
    exact ⟨⟨hl, isSampleOf_of_subperm _ _ hsp⟩, hg, fun hn => nodup_of_subperm hsp hn⟩

/-- Non-vacuity: on ten correspondences, with all random numbers 3, the first sample of size 2
is `[3, 4]` and it satisfies the conclusion. -/
example : ∃ pool' pos', Sac.getSamples (fun _ => 3) (fun _ => true) 2
    ((List.range 10).map Int.ofNat) 0 ((List.range 10).map Int.ofNat)
      = some (.sample [3, 4], pool', pos') := ⟨_, _, rfl⟩

/-- **C02.** No history of calls ever loses or duplicates indices: the shuffled pool is always
a permutation of the index set last given by the user. -/
theorem C02_pool_permutation (rng : ℕ → ℕ) (history : List Call) :
    ∃ st, calls rng fresh history = some st ∧ st.indices = lastIndices history ∧
      st.pool.Perm (lastIndices history) := by
  obtain ⟨st, e, h⟩ := calls_inv rng history fresh (List.Perm.refl _)
  have := lastIndices_eq rng history st e
  exact ⟨st, e, this, this ▸ h⟩

/-- Non-vacuity: a history that really shuffles. -/
example : calls (fun _ => 1) fresh [.setIndices [7, 8, 9], .getSamples (fun _ => true) 2]
    = some ⟨[7, 8, 9], [8, 9, 7], 2⟩ := rfl

/-- **C03 (reachability).** From any pool (any history), every choice of entries of the pool from
different positions, in any order, is the next draw for suitable random numbers. -/
theorem C03_every_sample_reachable (pool t : List ℤ) (pos : ℕ)
    (ht : IsSampleOf pool t.length t) :
    ∃ rng : ℕ → ℕ, ∃ pool' pos', drawIndexSample rng t.length pos pool = some (t, pool', pos') := by
  have hsp : t.Subperm pool := by
    obtain ⟨_, f, hf, he⟩ := ht
    have e1 : t = (List.finRange t.length).map (fun i => pool.get (f i)) := by
      conv_lhs => rw [← List.map_get_finRange t]
      exact List.map_congr_left (fun i _ => he i)
    have e2 : (List.finRange t.length).map (fun i => pool.get (f i))
        = ((List.finRange t.length).map f).map pool.get := by simp
    rw [e1, e2]
    have h3 : ((List.finRange t.length).map f).Subperm (List.finRange pool.length) := by
      apply List.Nodup.subperm
      · exact (List.nodup_map_iff hf).2 (List.nodup_finRange _)
      · intro x _; simp
    have := subperm_map pool.get h3
    rwa [List.map_get_finRange] at this
  obtain ⟨rng, h⟩ := pick_surj t pos pool hsp
  have hd := drawIndexSample_eq rng t.length pos pool hsp.length_le
  rw [h] at hd
  exact ⟨rng, _, _, hd⟩

/-- **C03 (uniformity).** On an index set without repetitions two draws that return the same
sample used the same residues. With `C03_every_sample_reachable`: each sample corresponds to exactly
one vector of residues, so uniform residues give uniform samples. -/
theorem C03_residues_determine_sample (rng rng' : ℕ → ℕ) (k pos : ℕ) (pool t q q' : List ℤ)
    (p p' : ℕ) (hnd : pool.Nodup)
    (h : drawIndexSample rng k pos pool = some (t, q, p))
    (h' : drawIndexSample rng' k pos pool = some (t, q', p')) :
    ∀ i, i < k → rng (pos + i) % (pool.length - i) = rng' (pos + i) % (pool.length - i) := by
  have hk : k ≤ pool.length := by
    by_contra hk
    rw [drawIndexSample_none rng k pos pool (by omega)] at h
    cases h
  rw [drawIndexSample_eq rng k pos pool hk] at h
  rw [drawIndexSample_eq rng' k pos pool hk] at h'
  simp only [Option.some.injEq, Prod.mk.injEq] at h h'
  exact pick_inj rng rng' k pos pool hk hnd (h.1.trans h'.1.symm)

/-- Non-vacuity of both parts: the sample `[9, 7]` of `[7, 8, 9]`. -/
example : IsSampleOf [7, 8, 9] 2 [9, 7] ∧
    ∃ q p, drawIndexSample (fun i => if i = 0 then 2 else 1) 2 0 [7, 8, 9] = some ([9, 7], q, p) := by
  refine ⟨⟨rfl, isSampleOf_of_subperm _ _ ?_⟩, _, _, rfl⟩
  decide

/-- **C04.** With fewer indices than the sample size the caller gets the `tooFew` answer (empty
sample, iteration counter set to `INT_MAX`) and nothing is drawn; with enough indices the answer is
never `tooFew`, and after any history no undefined behaviour occurs in either case. -/
theorem C04_too_few (rng : ℕ → ℕ) (history : List Call) (good : List ℤ → Bool) (k : ℕ) :
    ∃ st, calls rng fresh history = some st ∧
      ((lastIndices history).length < k →
        Sac.getSamples rng good k st.indices st.pos st.pool = some (.tooFew, st.pool, st.pos)) ∧
      (k ≤ (lastIndices history).length →
        ∃ res pool' pos', Sac.getSamples rng good k st.indices st.pos st.pool
          = some (res, pool', pos') ∧ res ≠ .tooFew) := by
  obtain ⟨st, e, h⟩ := calls_inv rng history fresh (List.Perm.refl _)
  have hi := lastIndices_eq rng history st e
  refine ⟨st, e, ?_, ?_⟩
  · intro hk
    simp [Sac.getSamples, hi, hk]
  · intro hk
    obtain ⟨res, pool', pos', h1, _, h3⟩ := getSamples_spec rng good k st h
    refine ⟨res, pool', pos', h1, ?_⟩
    rcases h3 with ⟨h3, _⟩ | ⟨_, h3 | ⟨s, hs, _⟩⟩
    · rw [hi] at h3; omega
    · rw [h3]; simp
    · rw [hs]; simp

/-- **C04 (raw draw).** `drawIndexSample` itself is undefined exactly when the requested sample is
larger than the pool. -/
theorem C04_draw_undefined_iff (rng : ℕ → ℕ) (k pos : ℕ) (pool : List ℤ) :
    drawIndexSample rng k pos pool = none ↔ pool.length < k := by
  constructor
  · intro h
    by_contra hk
    rw [drawIndexSample_eq rng k pos pool (by omega)] at h
    cases h
  · exact drawIndexSample_none rng k pos pool

example : drawIndexSample (fun _ => 5) 3 0 [1, 2] = none := rfl

/-- At most `10 * k` random numbers are consumed by one request, whatever `isSampleGood` says. -/
theorem C04_bounded_attempts (rng : ℕ → ℕ) (good : List ℤ → Bool) (k : ℕ) (indices pool : List ℤ)
    (pos : ℕ) (res : SampleResult (List ℤ)) (pool' : List ℤ) (pos' : ℕ)
    (hl : indices.length = pool.length)
    (h : Sac.getSamples rng good k indices pos pool = some (res, pool', pos')) :
    pos ≤ pos' ∧ pos' ≤ pos + 10 * k := by
  unfold Sac.getSamples at h
  split at h
  · cases h; omega
  · obtain ⟨r, q, p, h1, _, h3, h4, _⟩ :=
      getSamplesLoop_spec rng good k maxSampleChecks pos pool (by omega)
    rw [h1] at h
    cases h
    exact ⟨h3, h4⟩

/-- **C12.** `selectWithinDistance` returns exactly the indices with distance strictly below the
threshold, in order, `countWithinDistance` is their number. -/
theorem C12_select_and_count (ix : List ℤ) (d : List ℝ) (thr : ℝ) (h : d.length = ix.length) :
    ∃ ins, selectWithinDistance ix d thr = some ins ∧ Selected (· < thr) ix d ins ∧
      countWithinDistance d thr = ins.length := by
  refine ⟨_, selectWithinDistance_eq ix d thr (by omega), ?_, ?_⟩
  · induction ix generalizing d with
    | nil =>
      have : d = [] := by simpa using h
      subst this; exact .nil
    | cons a ix ih =>
      cases d with
      | nil => simp at h
      | cons x d =>
        have := ih d (by simpa using h)
        by_cases hx : x < thr
        · simpa [hx] using Selected.keep (P := (· < thr)) hx this
        · simpa [hx] using Selected.skip (P := (· < thr)) hx this
  · rw [countWithinDistance_eq, filter_zip_length ix d thr (by omega)]

/-- **C12 (monotone).** Raising the threshold never loses an inlier. -/
theorem C12_monotone (ix : List ℤ) (d : List ℝ) (thr thr' : ℝ) (h : d.length = ix.length)
    (hle : thr ≤ thr') (ins ins' : List ℤ)
    (h1 : selectWithinDistance ix d thr = some ins)
    (h2 : selectWithinDistance ix d thr' = some ins') :
    ins.Sublist ins' ∧ countWithinDistance d thr ≤ countWithinDistance d thr' := by
  rw [selectWithinDistance_eq ix d _ (by omega)] at h1 h2
  cases h1; cases h2
  have hs : ∀ {α} (l : List α) (f : α → ℝ),
      (l.filter (fun p => decide (f p < thr))).Sublist (l.filter (fun p => decide (f p < thr'))) := by
    intro α l f
    apply List.monotone_filter_right
    intro a ha
    simp only [decide_eq_true_eq] at ha ⊢
    exact lt_of_lt_of_le ha hle
  refine ⟨(hs _ _).map _, ?_⟩
  rw [countWithinDistance_eq, countWithinDistance_eq]
  exact (hs d id).length_le

/-- **C12 (zero threshold).** Non-negative distances are never below a non-positive threshold. -/
theorem C12_nonpositive_threshold (ix : List ℤ) (d : List ℝ) (thr : ℝ) (h : d.length = ix.length)
    (hd : ∀ x ∈ d, 0 ≤ x) (ht : thr ≤ 0) :
    selectWithinDistance ix d thr = some [] ∧ countWithinDistance d thr = 0 := by
  have : d.filter (fun x => decide (x < thr)) = [] := by
    rw [List.filter_eq_nil_iff]
    intro x hx
    have := hd x hx
    simp only [decide_eq_true_eq]
    intro hlt
    exact absurd (lt_of_lt_of_le hlt ht) (not_lt.2 this)
  have hc : countWithinDistance d thr = 0 := by rw [countWithinDistance_eq, this]; rfl
  obtain ⟨ins, h1, _, h3⟩ := C12_select_and_count ix d thr h
  refine ⟨?_, hc⟩
  rw [hc] at h3
  rw [h1, List.length_eq_zero_iff.1 h3.symm]

/-- Non-vacuity for C12: the middle index is an inlier at threshold 2, the boundary value 2 is not. -/
example : selectWithinDistance [5, 6, 7] [3, 1, 2] 2 = some [6] ∧
    countWithinDistance [3, 1, 2] 2 = 1 := by
  norm_num [selectWithinDistance, countWithinDistance]

end OpenGV.Props
