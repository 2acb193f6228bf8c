import Verif.Proof.MultiRansac

/-!
# Properties of the multi-camera RANSAC driver (C13)

`U` is an arbitrary multi-camera problem, `indices` the per-camera index lists.
-/

namespace OpenGV.Props

open OpenGV.Sac OpenGV.Spec

variable {σ M : Type}

/-- **C13 (samples).** One request for a multi-camera sample never runs into undefined behaviour when
there are at least as many index lists as sample sizes, keeps the per-camera pools permutations
of the index lists, and a sample has, for each camera, the requested number of entries at
pairwise different positions of that camera's index list. -/
theorem C13_samples_valid (rng : ℕ → ℕ) (good : List (List ℤ) → Bool) (sizes : List ℕ)
    (indices pools : List (List ℤ)) (pos : ℕ) (hlen : sizes.length ≤ indices.length)
    (hp : List.Forall₂ List.Perm pools indices) :
    ∃ res pools' pos', multiGetSamples rng good sizes indices pos pools = some (res, pools', pos') ∧
      List.Forall₂ List.Perm pools' indices ∧
      (∀ s, res = .sample s → IsMultiSampleOf indices sizes s ∧ good s = true) ∧
      (res = .tooFew ↔ ∃ (j k : ℕ) (ix : List ℤ), indices[j]? = some ix ∧ sizes[j]? = some k ∧
        ix.length < k) := by
  obtain ⟨b, hb⟩ := multiCheck_total sizes indices hlen
  cases b with
  | false =>
    refine ⟨.tooFew, pools, pos, by simp only [multiGetSamples, hb], hp, by simp, ?_⟩
    exact ⟨fun _ => multiCheck_false sizes indices hb, fun _ => rfl⟩
  | true =>
    obtain ⟨res, pools', pos', h1, h2, h3⟩ := multiGetSamplesLoop_spec rng good sizes indices hb
      maxSampleChecks pos pools hp
    refine ⟨res, pools', pos', by simp only [multiGetSamples, hb, h1], h2, h3, ?_⟩
    constructor
    · intro hr
      exfalso
      subst hr
      have : ∀ (n pos : ℕ) (pools : List (List ℤ)) pools' pos',
          multiGetSamplesLoop rng good sizes n pos pools ≠ some (.tooFew, pools', pos') := by
        intro n
        induction n with
        | zero => intro pos pools pools' pos' h; simp [multiGetSamplesLoop] at h
        | succ n ih =>
          intro pos pools pools' pos' h
          simp only [multiGetSamplesLoop] at h
          cases hd : multiDraw rng sizes pos pools with
          | none => rw [hd] at h; cases h
          | some x =>
            obtain ⟨s, q, p⟩ := x
            rw [hd] at h
            simp only at h
            split at h
            · simp at h
            · exact ih _ _ _ _ h
      exact this _ _ _ _ _ h1
    · rintro ⟨j, k, ix, e1, e2, hlt⟩
      exfalso
      have : ∀ (sizes : List ℕ) (indices : List (List ℤ)) (j : ℕ),
          multiCheck sizes indices = some true → indices[j]? = some ix → sizes[j]? = some k →
          k ≤ ix.length := by
        intro sizes
        induction sizes with
        | nil => intro ixs j _ _ h; simp at h
        | cons a sizes ih =>
          intro ixs j hc h1 h2
          cases ixs with
          | nil => simp at h1
          | cons b ixs =>
            simp only [multiCheck] at hc
            split at hc
            · cases hc
            · cases j with
              | zero => simp only [List.getElem?_cons_zero, Option.some.injEq] at h1 h2
                        subst h1 h2; omega
              | succ j => exact ih ixs j hc (by simpa using h1) (by simpa using h2)
      have := this sizes indices j hb e1 e2
      omega

/-- **C13 (termination).** `MultiRansac::computeModel` always returns and respects the same budgets
as `Ransac::computeModel`. -/
theorem C13_terminates_within_budget (U : MultiUserProblem σ M) (rng : ℕ → ℕ)
    (indices : List (List ℤ)) (thr prob : ℝ) (maxIt : ℤ) (h0 : 0 ≤ maxIt)
    (h1 : 10 * maxIt ≤ intMax) (hsz : ∀ w, (U.sampleSizes w).1.length ≤ indices.length)
    (hdist : ∀ m, List.Forall₂ (fun ix d => d.length = ix.length) indices (U.dist m indices))
    (obj : RansacObj (σ × List (List ℤ) × ℕ) (List (List ℤ)) M (List (List ℤ)))
    (hpool : List.Forall₂ List.Perm obj.world.2.1 indices)
    (hobj : obj.model.isSome → obj.coeffs.isSome) :
    ∃ r, (∀ fuel : ℕ, 11 * maxIt + 2 ≤ fuel →
        computeModel (multi U rng indices) thr prob maxIt obj fuel = .done r) ∧
      (r.final.scored.length : ℤ) ≤ maxIt + 1 ∧ (r.final.skipped : ℤ) ≤ 10 * maxIt ∧
      (r.final.failed = false → r.obj.iterations = r.final.scored.length) := by
  have hms : ∃ maxSkip, maxSkipOf maxIt = some maxSkip := by
    unfold maxSkipOf
    rw [if_neg (by simp only [intMax] at *; omega)]
    exact ⟨_, rfl⟩
  obtain ⟨maxSkip, hms⟩ := hms
  have hmz := maxSkipOf_nonneg maxIt h0 maxSkip hms
  obtain ⟨r, hr⟩ := computeModel_total (multi U rng indices) _ (multi_safe U rng indices hsz)
    (by
      intro m thr
      obtain ⟨ins, hi, _⟩ := multiSelect_spec thr indices (U.dist m indices) (hdist m)
      exact ⟨ins, hi⟩)
    thr prob maxIt maxSkip hms obj hpool hobj
  have hd := hr _ (le_refl _)
  obtain ⟨maxSkip', e, hl, hit, _⟩ := computeModel_done _ _ _ _ _ _ _ hd
  rw [hms] at e
  cases e
  obtain ⟨b1, b2, _⟩ := budget_final _ _ _ _ _ _ _ _ hl
  have hI := rinv_final _ _ _ _ _ _ _ _ hl
  refine ⟨r, fun fuel hf => hr fuel (by omega), by omega, by omega, fun hf => ?_⟩
  rw [hit, hI.iter hf]

/-- **C13 (maximal support and exact inliers).** If true is returned on a fresh object: the returned
model was computed from the returned sample, which is a valid multi-camera sample; no
hypothesis scored had more inliers in total, earlier ones had strictly fewer; and
`inliers_[j]` lists, for every camera `j`, exactly its indices with distance below the threshold, in
order, the total number being the support. -/
theorem C13_best_model_and_inliers (U : MultiUserProblem σ M) (rng : ℕ → ℕ)
    (indices : List (List ℤ)) (thr prob : ℝ) (maxIt : ℤ)
    (hsz : ∀ w, (U.sampleSizes w).1.length ≤ indices.length)
    (hdist : ∀ m, List.Forall₂ (fun ix d => d.length = ix.length) indices (U.dist m indices))
    (obj : RansacObj (σ × List (List ℤ) × ℕ) (List (List ℤ)) M (List (List ℤ)))
    (hfresh : obj.model = none) (hpool : List.Forall₂ List.Perm obj.world.2.1 indices)
    (r : RansacReturn (σ × List (List ℤ) × ℕ) (List (List ℤ)) M (List (List ℤ))) (fuel : ℕ)
    (h : computeModel (multi U rng indices) thr prob maxIt obj fuel = .done r)
    (hret : r.ret = true) :
    ∃ pre s m post, r.final.scored = pre ++ (s, m) :: post ∧
      r.obj.model = some s ∧ r.obj.coeffs = some m ∧
      (∃ w, (U.compute w s).1 = some m) ∧
      (∃ w, IsMultiSampleOf indices (U.sampleSizes w).1 s) ∧
      (∀ x ∈ pre, ((U.dist x.2 indices).map (support · thr)).sum
        < ((U.dist m indices).map (support · thr)).sum) ∧
      (∀ x ∈ post, ((U.dist x.2 indices).map (support · thr)).sum
        ≤ ((U.dist m indices).map (support · thr)).sum) ∧
      r.obj.inliers.length = indices.length ∧
      (∀ (j : ℕ) (ix : List ℤ) (d : List ℝ) (t : List ℤ), indices[j]? = some ix →
        (U.dist m indices)[j]? = some d → r.obj.inliers[j]? = some t →
        Selected (· < thr) ix d t) ∧
      (r.obj.inliers.map List.length).sum = ((U.dist m indices).map (support · thr)).sum := by
  obtain ⟨maxSkip, e, hl, _, hmod, hco, hcase⟩ := computeModel_done _ _ _ _ _ _ _ h
  have hI := rinv_final _ _ _ _ _ _ _ _ hl
  rcases hcase with ⟨_, h2, _⟩ | ⟨s', m', ins, h2, h3, h4, _, h6⟩
  · rw [hret] at h2; cases h2
  have hne : r.final.scored ≠ [] := by
    intro hs
    have := (hI.empty hs).1
    rw [hfresh, h2] at this
    cases this
  obtain ⟨pre, s, m, post, e1, e2, e3, e4, e5, e6, _⟩ := hI.nonempty hne
  rw [h3] at e3
  cases e3
  have hmem : (s, m') ∈ r.final.scored := by rw [e1]; simp
  have hsmp := ransacLoop_samples _ _ (multi_safe U rng indices hsz)
    (fun s => ∃ w, IsMultiSampleOf indices (U.sampleSizes w).1 s)
    (by
      intro w s w' hw hg
      obtain ⟨res, w'', h1, _, h3⟩ := multi_getSamples U rng indices hsz w hw
      rw [h1] at hg
      cases hg
      exact h3 s rfl)
    thr prob maxIt maxSkip fuel (ransacInit obj) r.final hpool (by simp [ransacInit]) hl _ hmem
  have hcnt : ∀ m, (multi U rng indices).count m thr
      = ((U.dist m indices).map (support · thr)).sum := by
    intro m
    exact multiCount_eq thr indices _ (hdist m).length_eq.symm
  obtain ⟨ins', i1, i2, i3, i4⟩ := multiSelect_spec thr indices (U.dist m' indices) (hdist m')
  have hins : ins' = ins := by
    have h4' : multiSelect indices (U.dist m' indices) thr = some ins := h4
    rw [i1] at h4'
    cases h4'; rfl
  subst hins
  refine ⟨pre, s, m', post, e1, hmod.trans e2, hco.trans h3, ?_, hsmp, ?_, ?_, ?_, ?_, ?_⟩
  · obtain ⟨_, w, hw⟩ := hI.comp _ hmem
    obtain ⟨w, pool, pos⟩ := w
    exact ⟨w, hw⟩
  · intro x hx; have := e5 x hx; rwa [hcnt, hcnt] at this
  · intro x hx; have := e6 x hx; rwa [hcnt, hcnt] at this
  · rw [h6]; exact i2
  · rw [h6]; exact i3
  · rw [h6, i4, ← hcnt]; rfl

/-- A two-camera problem for the non-vacuity example: one sample from each camera. -/
noncomputable def twoCameras : MultiUserProblem Unit Unit where
  sampleSizes := fun w => ([1, 1], w)
  isSampleGood := fun _ _ => true
  compute := fun w _ => (some (), w)
  dist := fun _ _ => [[0, 3], [1]]
  distEffect := fun w _ => w

/-- Non-vacuity: a run on two cameras that returns true (with `max_iterations_ = 1`). -/
example : ∃ r, computeModel (multi twoCameras (fun _ => 0) [[4, 5], [6]]) 2 1 1
      ⟨((), [[4, 5], [6]], 0), 0, none, none, []⟩ 3 = .done r ∧ r.ret = true ∧
      r.obj.inliers = [[4], [6]] ∧ r.obj.model = some [[4], [6]] ∧ r.final.scored.length = 2 := by
  have hms : maxSkipOf 1 = some 10 := rfl
  refine ⟨?_, ?_, ?_, ?_, ?_⟩
  rotate_left
  · unfold computeModel
    rw [hms]
    norm_num [ransacLoop, ransacInit, KVal.gtInt, ransacBody, multi, twoCameras, multiGetSamples,
      multiCheck, multiGetSamplesLoop, maxSampleChecks, multiDraw, drawIndexSample, drawLoop,
      drawStep, vecSwap, ransacScore, multiCount, countWithinDistance, kOf, intMax,
      multiSelect, selectWithinDistance]
    rfl
  · rfl
  · rfl
  · exact ⟨rfl, rfl⟩

example : ∀ m, List.Forall₂ (fun (ix : List ℤ) (d : List ℝ) => d.length = ix.length) [[4, 5], [6]]
    (twoCameras.dist m [[4, 5], [6]]) := by
  intro m
  simp [twoCameras]

end OpenGV.Props
