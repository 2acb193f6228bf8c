import Verif.Proof.Lmeds
import Verif.Proof.RansacToy

/-!
# Properties of the LMedS driver (C10, C11)

For every user problem with one distance per index, every random stream and index set.
-/

namespace OpenGV.Props

open OpenGV.Sac OpenGV.Spec

variable {σ M : Type}

/-- The median of a list of distances is unique, and exists when the list is not empty: the order in
C10 is well defined. -/
theorem C10_median_exists_unique (d : List ℝ) (hd : d ≠ []) : ∃! v, IsMedianSq d v := by
  obtain ⟨v, _, hv⟩ := lmedsPenalty_spec d.length d rfl (List.length_pos_iff.2 hd)
  exact ⟨v, hv, fun v' hv' => isMedian_unique _ _ _ hv' hv⟩

/-- **C10.** If `computeModel` returns true on a fresh object then the returned model is one of the
evaluated hypotheses, was computed from the returned sample, and its median squared distance `v` is
strictly smaller than that of all earlier hypotheses and not larger than that of all later ones. -/
theorem C10_minimal_median (U : UserProblem σ M) (rng : ℕ → ℕ) (indices : List ℤ) (thr : ℝ)
    (maxIt : ℤ) (hdist : ∀ m, (U.dist m indices).length = indices.length)
    (obj : RansacObj (σ × List ℤ × ℕ) (List ℤ) M (List ℤ))
    (hfresh : obj.model = none) (hpool : obj.world.2.1.Perm indices)
    (r : LmReturn σ M) (fuel : ℕ)
    (h : lmedsCompute U rng indices thr maxIt obj fuel = .done r) (hret : r.ret = true) :
    ∃ pre s m post v, r.final.scored = pre ++ (s, m) :: post ∧
      r.obj.model = some s ∧ r.obj.coeffs = some m ∧
      (∃ w, (U.compute w s).1 = some m) ∧ IsSampleOf indices U.sampleSize s ∧
      IsMedianSq (U.dist m indices) v ∧
      (∀ x ∈ pre, ∀ v', IsMedianSq (U.dist x.2 indices) v' → v < v') ∧
      (∀ x ∈ post, ∀ v', IsMedianSq (U.dist x.2 indices) v' → v ≤ v') := by
  have hthr : thr ≠ dblMax := by
    intro e
    unfold lmedsCompute at h
    rw [if_pos e] at h
    cases h
    cases hret
  obtain ⟨maxSkip, _, hl, _, hmod, hco, hcase⟩ :=
    lmedsCompute_done U rng indices thr hdist maxIt obj fuel r hthr h
  obtain ⟨hI, _, _⟩ := lmeds_final U rng indices hdist maxIt maxSkip obj hpool fuel _ hl
  rcases hI.best with ⟨h1, _⟩ | ⟨pre, s, m, post, e, h1, h2, hb, hmed, hpre, hpost⟩
  · exfalso
    rw [hfresh] at h1
    rcases hcase with ⟨_, h2, _⟩ | ⟨s, m, h2, _⟩
    · rw [hret] at h2; cases h2
    · rw [h1] at h2; cases h2
  · have hx := hI.comp (s, m) (by rw [e]; simp)
    exact ⟨pre, s, m, post, r.final.best, e, hmod.trans h1, hco.trans h2, hx.2.1, hx.1, hmed, hpre,
      hpost⟩

/-- **C11 (no threshold).** With the threshold at its "unset" value `DBL_MAX`, `computeModel`
returns false immediately and changes nothing. -/
theorem C11_no_threshold (U : UserProblem σ M) (rng : ℕ → ℕ) (indices : List ℤ) (maxIt : ℤ)
    (obj : RansacObj (σ × List ℤ × ℕ) (List ℤ) M (List ℤ)) (fuel : ℕ) :
    ∃ r, lmedsCompute U rng indices ((2 - 2⁻¹ ^ 52) * 2 ^ 1023) maxIt obj fuel = .done r ∧
      r.ret = false ∧ r.obj = obj := by
  have : ((2 - 2⁻¹ ^ 52) * 2 ^ 1023 : ℝ) = dblMax := by
    unfold dblMax; rw [inv_pow, one_div]
  refine ⟨⟨false, obj, lmedsInit obj⟩, ?_, rfl, rfl⟩
  unfold lmedsCompute
  rw [if_pos this]

/-- **C11 (termination and budget).** `computeModel` always returns, evaluates at most
`max_iterations_` hypotheses (unlike RANSAC) and skips at most `10 * max_iterations_` samples. -/
theorem C11_terminates_within_budget (U : UserProblem σ M) (rng : ℕ → ℕ) (indices : List ℤ)
    (thr : ℝ) (hthr : thr ≠ dblMax) (maxIt : ℤ) (h0 : 0 ≤ maxIt) (h1 : 10 * maxIt ≤ intMax)
    (hdist : ∀ m, (U.dist m indices).length = indices.length)
    (obj : RansacObj (σ × List ℤ × ℕ) (List ℤ) M (List ℤ))
    (hpool : obj.world.2.1.Perm indices) (hobj : obj.model.isSome → obj.coeffs.isSome) :
    ∃ r, (∀ fuel : ℕ, 11 * maxIt + 1 ≤ fuel →
        lmedsCompute U rng indices thr maxIt obj fuel = .done r) ∧
      (r.final.scored.length : ℤ) ≤ maxIt ∧ (r.final.skipped : ℤ) ≤ 10 * maxIt ∧
      (r.final.failed = false → r.obj.iterations = r.final.scored.length) := by
  have hms : ∃ maxSkip, maxSkipOf maxIt = some maxSkip := by
    unfold maxSkipOf
    rw [if_neg (by simp only [intMax] at *; omega)]
    exact ⟨_, rfl⟩
  obtain ⟨maxSkip, hms⟩ := hms
  have hmz := maxSkipOf_nonneg maxIt h0 maxSkip hms
  obtain ⟨st, hst0, hst⟩ := lmedsLoop_total U rng indices hdist maxIt maxSkip
    (maxSkip + maxIt.toNat + 1) _ (lmedsInit obj) hpool (by simp [lmedsInit]) (le_refl _)
  obtain ⟨hI, hb1, hb2⟩ := lmeds_final U rng indices hdist maxIt maxSkip obj hpool _ st hst0
  have hbud : (st.scored.length : ℤ) ≤ maxIt ∧ (st.skipped : ℤ) ≤ 10 * maxIt := by omega
  have main : ∃ r : LmReturn σ M, r.final = st ∧ r.obj.iterations = st.iterations ∧
      ∀ fuel : ℕ, 11 * maxIt + 1 ≤ fuel →
        lmedsCompute U rng indices thr maxIt obj fuel = .done r := by
    have hcs : st.model.isSome → st.coeffs.isSome := by
      rcases hI.best with ⟨e1, e2, _⟩ | ⟨_, _, _, _, _, _, e2, _⟩
      · rw [e1, e2]; exact hobj
      · rw [e2]; simp
    cases hm : st.model with
    | none =>
      refine ⟨⟨false, ⟨st.world, st.iterations, st.model, st.coeffs, obj.inliers⟩, st⟩, rfl, rfl,
        fun fuel hf => ?_⟩
      unfold lmedsCompute
      rw [if_neg hthr]
      simp only [hms, hst fuel (by omega), hm]
    | some s =>
      obtain ⟨m, hc⟩ := Option.isSome_iff_exists.1 (hcs (by rw [hm]; rfl))
      by_cases hie : indices = []
      · have hd : (U.dist m indices).isEmpty = true := by
          rw [List.isEmpty_iff, ← List.length_eq_zero_iff, hdist m, hie]; rfl
        refine ⟨⟨false, ⟨(single U rng indices).distEffect st.world m, st.iterations, st.model, st.coeffs, obj.inliers⟩, st⟩, rfl, rfl,
          fun fuel hf => ?_⟩
        unfold lmedsCompute
        rw [if_neg hthr]
        simp only [hms, hst fuel (by omega), hm, hc]
        rw [if_pos hd]
      · have hd : ¬ (U.dist m indices).isEmpty = true := by
          rw [List.isEmpty_iff, ← List.length_eq_zero_iff, hdist m, List.length_eq_zero_iff]
          exact hie
        refine ⟨⟨true, ⟨(single U rng indices).distEffect st.world m, st.iterations, st.model,
          st.coeffs, lmedsInliers indices (U.dist m indices) thr⟩, st⟩, rfl, rfl,
          fun fuel hf => ?_⟩
        unfold lmedsCompute
        rw [if_neg hthr]
        simp only [hms, hst fuel (by omega), hm, hc]
        rw [if_neg hd, if_neg (by rw [hdist m]; simp)]
  obtain ⟨r, hf, hit, hr⟩ := main
  refine ⟨r, hr, by rw [hf]; exact hbud.1, by rw [hf]; exact hbud.2, fun hfail => ?_⟩
  rw [hit, hf]
  exact hI.iter (hf ▸ hfail)

/-- **C11 (inliers).** If true is returned, `inliers_` are exactly the indices with distance at most
the threshold (non-strict), in order. If false is returned `inliers_` keeps its old value. -/
theorem C11_inliers (U : UserProblem σ M) (rng : ℕ → ℕ) (indices : List ℤ) (thr : ℝ)
    (maxIt : ℤ) (hdist : ∀ m, (U.dist m indices).length = indices.length)
    (obj : RansacObj (σ × List ℤ × ℕ) (List ℤ) M (List ℤ)) (r : LmReturn σ M) (fuel : ℕ)
    (h : lmedsCompute U rng indices thr maxIt obj fuel = .done r) :
    (r.ret = true → ∃ m, r.obj.coeffs = some m ∧
      Selected (· ≤ thr) indices (U.dist m indices) r.obj.inliers) ∧
    (r.ret = false → r.obj.inliers = obj.inliers) := by
  by_cases hthr : thr = dblMax
  · unfold lmedsCompute at h
    rw [if_pos hthr] at h
    cases h
    simp
  · obtain ⟨maxSkip, _, hl, _, hmod, hco, hcase⟩ :=
      lmedsCompute_done U rng indices thr hdist maxIt obj fuel r hthr h
    rcases hcase with ⟨_, h2, h3⟩ | ⟨s, m, h2, h3, ⟨_, h4, h5⟩ | ⟨h6, h4, h5⟩⟩
    · rw [h2]; simp [h3]
    · rw [h4]; simp [h5]
    · rw [h4]
      refine ⟨fun _ => ⟨m, hco.trans h3, ?_⟩, by simp⟩
      rw [h5]
      exact lmedsInliers_spec indices _ thr (hdist m)

/-- **C11 (return value).** On a fresh object with a non-empty index set and a threshold, true is
returned iff some evaluated hypothesis has a median below the initial value `DBL_MAX`. -/
theorem C11_return_value (U : UserProblem σ M) (rng : ℕ → ℕ) (indices : List ℤ) (thr : ℝ)
    (hthr : thr ≠ dblMax) (hne : indices ≠ [])
    (maxIt : ℤ) (hdist : ∀ m, (U.dist m indices).length = indices.length)
    (obj : RansacObj (σ × List ℤ × ℕ) (List ℤ) M (List ℤ))
    (hfresh : obj.model = none) (hpool : obj.world.2.1.Perm indices) (r : LmReturn σ M) (fuel : ℕ)
    (h : lmedsCompute U rng indices thr maxIt obj fuel = .done r) :
    r.ret = true ↔ ∃ x ∈ r.final.scored, ∃ v, IsMedianSq (U.dist x.2 indices) v ∧ v < dblMax := by
  obtain ⟨maxSkip, _, hl, _, hmod, hco, hcase⟩ :=
    lmedsCompute_done U rng indices thr hdist maxIt obj fuel r hthr h
  obtain ⟨hI, _, _⟩ := lmeds_final U rng indices hdist maxIt maxSkip obj hpool fuel _ hl
  rcases hI.best with ⟨h1, _, _, hall⟩ | ⟨pre, s, m, post, e, h1, h2, hb, hmed, hpre, hpost⟩
  · have hret : r.ret = false := by
      rcases hcase with ⟨_, h2, _⟩ | ⟨s, m, h2, _⟩
      · exact h2
      · rw [h1, hfresh] at h2; cases h2
    rw [hret]
    refine ⟨by simp, ?_⟩
    rintro ⟨x, hx, v, hv, hlt⟩
    exact absurd (hall x hx v hv) (not_le.2 hlt)
  · have hret : r.ret = true := by
      rcases hcase with ⟨h3, _⟩ | ⟨_, _, _, _, ⟨h6, _⟩ | ⟨_, h4, _⟩⟩
      · rw [h1] at h3; cases h3
      · exact absurd h6 hne
      · exact h4
    rw [hret]
    exact ⟨fun _ => ⟨(s, m), by rw [e]; simp, _, hmed, hb⟩, fun _ => rfl⟩

/-- Non-vacuity of C10 and C11: a concrete run that returns true. Two indices, distances `-3` and
`2`, whose median squared distance is `2`; the distance `2` equal to the threshold is an inlier. -/
example : ∃ r, lmedsCompute (constProblem 1 [-3, 2]) (fun _ => 0) [5, 6] 2 1 (constObj [5, 6]) 2
    = .done r ∧ r.ret = true ∧ r.obj.inliers = [5, 6] ∧ r.final.scored = [([5], ())] := by
  have hlt : (2 : ℝ) < dblMax := by
    have h1 : (2 : ℝ) ^ 2 ≤ 2 ^ 1023 := pow_le_pow_right₀ (by norm_num) (by norm_num)
    have h2 : (1 : ℝ) ≤ 2 - 1 / 2 ^ 52 := by norm_num
    unfold dblMax
    generalize (2 : ℝ) ^ 1023 = x at *
    nlinarith
  have hms : maxSkipOf 1 = some 10 := by rfl
  refine ⟨?_, ?_, ?_, ?_, ?_⟩
  rotate_left
  · unfold lmedsCompute
    rw [if_neg hlt.ne, hms]
    simp [lmedsLoop, lmedsInit, lmedsBody, constObj, single, constProblem, getSamples,
      getSamplesLoop, maxSampleChecks, drawIndexSample, drawLoop, drawStep, vecSwap, lmedsScore,
      lmedsPenalty, clipSquare]
    norm_num [List.insertionSort, List.orderedInsert, hlt]
    rfl
  · rfl
  · norm_num [lmedsInliers]
  · rfl

end OpenGV.Props
