import Verif.Proof.Ransac
import Verif.Proof.RansacK
import Verif.Proof.Sampling
import Verif.Proof.SamplingHistory
import Verif.Spec.Sampling

/-! Facts on RANSAC runs over a `SampleConsensusProblem`. -/

namespace OpenGV.Sac

variable {σ S M I : Type}

/-- Every scored sample has a property that all samples have. -/
theorem ransacLoop_samples (P : Problem σ S M I) (W : σ → Prop) (hP : SafeProblem P W)
    (Q : S → Prop) (hQ : ∀ w s w', W w → P.getSamples w = some (.sample s, w') → Q s)
    (thr prob : ℝ) (maxIt : ℤ) (maxSkip : ℕ) : ∀ fuel (st st' : LoopState σ S M), W st.world →
      (∀ x ∈ st.scored, Q x.1) →
      ransacLoop P thr prob maxIt maxSkip fuel st = .done st' → ∀ x ∈ st'.scored, Q x.1 := by
  intro fuel
  induction fuel with
  | zero => intro st st' _ _ h; simp [ransacLoop] at h
  | succ fuel ih =>
    intro st st' hW hs h
    simp only [ransacLoop] at h
    split at h
    · obtain ⟨res, w, hg, hw⟩ := hP.sample st.world hW
      unfold ransacBody at h
      rw [hg] at h
      cases res with
      | tooFew => simp only at h; cases h; exact hs
      | empty => simp only at h; cases h; exact hs
      | sample s =>
        have hqs := hQ _ _ _ hW hg
        simp only at h
        cases he : P.isEmpty s with
        | true => simp only [he, if_true] at h; cases h; exact hs
        | false =>
          simp only [he, Bool.false_eq_true, if_false, ransacScore] at h
          have hcw := hP.compute w s hw
          rcases hc : P.compute w s with ⟨m, w'⟩
          rw [hc] at hcw h
          cases m with
          | none =>
            simp only at h
            exact ih { st with world := w', skipped := st.skipped + 1 } _ hcw hs h
          | some m =>
            have hew := hP.effect w' m hcw
            have hs' : ∀ x ∈ st.scored ++ [(s, m)], Q x.1 := by
              intro x hx
              rcases List.mem_append.1 hx with hx | hx
              · exact hs x hx
              · simp only [List.mem_singleton] at hx; subst hx; exact hqs
            simp only at h
            by_cases hn : (P.count m thr : ℤ) > st.best
            · simp only [hn, if_true] at h
              by_cases hlt : st.iterations + 1 > maxIt
              · simp only [hlt, if_true] at h; cases h; exact hs'
              · simp only [hlt, if_false] at h; exact ih _ _ hew hs' h
            · simp only [hn, if_false] at h
              by_cases hlt : st.iterations + 1 > maxIt
              · simp only [hlt, if_true] at h; cases h; exact hs'
              · simp only [hlt, if_false] at h; exact ih _ _ hew hs' h
    · cases h; exact hs

theorem single_getSamples (U : UserProblem σ M) (rng : ℕ → ℕ) (indices : List ℤ)
    (w : σ × List ℤ × ℕ) (hw : w.2.1.Perm indices) :
    ∃ res w', (single U rng indices).getSamples w = some (res, w') ∧ w'.2.1.Perm indices ∧
      ∀ s, res = .sample s → Spec.IsSampleOf indices U.sampleSize s := by
  obtain ⟨w, pool, pos⟩ := w
  obtain ⟨res, pool', pos', h1, h2, h3⟩ :=
    Props.getSamples_spec rng (U.isSampleGood w) U.sampleSize ⟨indices, pool, pos⟩ hw
  simp only at h1 h2 h3
  refine ⟨res, (w, pool', pos'), by simp only [single, h1], h2, ?_⟩
  rintro s rfl
  rcases h3 with ⟨_, h3⟩ | ⟨_, h3 | ⟨s', hs', hg, hl, hsp⟩⟩
  · cases h3
  · cases h3
  · cases hs'; exact ⟨hl, Props.isSampleOf_of_subperm _ _ hsp⟩

theorem single_safe (U : UserProblem σ M) (rng : ℕ → ℕ) (indices : List ℤ) :
    SafeProblem (single U rng indices) (fun w => w.2.1.Perm indices) := by
  refine ⟨?_, ?_, ?_⟩
  · intro w hw
    obtain ⟨res, w', h, h', _⟩ := single_getSamples U rng indices w hw
    exact ⟨res, w', h, h'⟩
  · rintro ⟨w, pool, pos⟩ s hw; exact hw
  · rintro ⟨w, pool, pos⟩ m hw; exact hw

theorem support_eq (d : List ℝ) (thr : ℝ) : countWithinDistance d thr = Spec.support d thr := by
  rw [countWithinDistance_eq, Spec.support, List.countP_eq_length_filter]

theorem maxSkipOf_nonneg (maxIt : ℤ) (h0 : 0 ≤ maxIt) (maxSkip : ℕ)
    (h : maxSkipOf maxIt = some maxSkip) : (maxSkip : ℤ) = 10 * maxIt := by
  unfold maxSkipOf at h
  split at h
  · cases h
  · rename_i hh
    simp only [Option.some.injEq] at h
    subst h
    simp only [intMax] at hh
    rw [Int.toNat_of_nonneg (Int.emod_nonneg _ (by norm_num)), Int.emod_eq_of_lt] <;> omega

end OpenGV.Sac
