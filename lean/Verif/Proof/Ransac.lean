import Verif.Model.Ransac
import Mathlib.Tactic.Linarith
import Mathlib.Tactic.Positivity
import Mathlib.Tactic.NormNum

/-! Loop invariants of the RANSAC driver. -/

namespace OpenGV.Sac

variable {σ S M I : Type}

/-- Partial-correctness rule for the fuelled loop. -/
theorem ransacLoop_rule (P : Problem σ S M I) (thr prob : ℝ) (maxIt : ℤ) (maxSkip : ℕ)
    (Inv Q : LoopState σ S M → Prop)
    (hcont : ∀ st st', Inv st → st.k.gtInt st.iterations → st.skipped < maxSkip →
      ransacBody P thr prob maxIt st = .cont st' → Inv st')
    (hbrk : ∀ st st', Inv st → st.k.gtInt st.iterations → st.skipped < maxSkip →
      ransacBody P thr prob maxIt st = .brk st' → Q st')
    (hexit : ∀ st, Inv st → ¬ (st.k.gtInt st.iterations ∧ st.skipped < maxSkip) → Q st) :
    ∀ fuel st st', Inv st → ransacLoop P thr prob maxIt maxSkip fuel st = .done st' → Q st' := by
  intro fuel
  induction fuel with
  | zero => intro st st' _ h; simp [ransacLoop] at h
  | succ fuel ih =>
    intro st st' hinv h
    simp only [ransacLoop] at h
    split at h
    · rename_i hg
      cases hb : ransacBody P thr prob maxIt st with
      | ub => rw [hb] at h; cases h
      | brk s => rw [hb] at h; cases h; exact hbrk st _ hinv hg.1 hg.2 hb
      | cont s => rw [hb] at h; exact ih s st' (hcont st s hinv hg.1 hg.2 hb) h
    · rename_i hg
      cases h
      exact hexit st hinv hg

/-- The invariant relating the loop variables to the hypotheses scored so far. -/
structure RInv (P : Problem σ S M I) (thr prob : ℝ) (m0 : Option S) (c0 : Option M)
    (st : LoopState σ S M) : Prop where
  iter : st.failed = false → st.iterations = st.scored.length
  empty : st.scored = [] → st.model = m0 ∧ st.coeffs = c0 ∧ st.best = -intMax ∧ st.k = .fin 1
  nonempty : st.scored ≠ [] → ∃ pre s m post, st.scored = pre ++ (s, m) :: post ∧
    st.model = some s ∧ st.coeffs = some m ∧ st.best = P.count m thr ∧
    (∀ x ∈ pre, P.count x.2 thr < P.count m thr) ∧
    (∀ x ∈ post, P.count x.2 thr ≤ P.count m thr) ∧
    st.k = kOf prob (P.count m thr) P.numIndices (P.sampleCard s)
  comp : ∀ x ∈ st.scored, P.isEmpty x.1 = false ∧ ∃ w, (P.compute w x.1).1 = some x.2

theorem rinv_init (P : Problem σ S M I) (thr prob : ℝ) (obj : RansacObj σ S M I) :
    RInv P thr prob obj.model obj.coeffs (ransacInit obj) := by
  refine ⟨fun _ => by simp [ransacInit], fun _ => by simp [ransacInit], fun h => ?_, ?_⟩
  · simp [ransacInit] at h
  · simp [ransacInit]

/-- The three things one execution of the body can do (when it is defined). -/
inductive BodyStep (P : Problem σ S M I) (thr prob : ℝ) (maxIt : ℤ) (st : LoopState σ S M) :
    Flow (LoopState σ S M) → Prop where
  | failTooFew (w) : BodyStep P thr prob maxIt st
      (.brk { st with world := w, iterations := intMax, failed := true })
  | failEmpty (w) : BodyStep P thr prob maxIt st (.brk { st with world := w, failed := true })
  | skip (w) : BodyStep P thr prob maxIt st
      (.cont { st with world := w, skipped := st.skipped + 1 })
  | score (s : S) (m : M) (st' : LoopState σ S M) (w) (hs : P.isEmpty s = false)
      (hm : (P.compute w s).1 = some m)
      (hsc : st'.scored = st.scored ++ [(s, m)])
      (hit : st'.iterations = st.iterations + 1) (hsk : st'.skipped = st.skipped)
      (hf : st'.failed = st.failed)
      (hnew : (P.count m thr : ℤ) > st.best → st'.best = P.count m thr ∧ st'.model = some s ∧
        st'.coeffs = some m ∧ st'.k = kOf prob (P.count m thr) P.numIndices (P.sampleCard s))
      (hold : ¬ (P.count m thr : ℤ) > st.best → st'.best = st.best ∧ st'.model = st.model ∧
        st'.coeffs = st.coeffs ∧ st'.k = st.k) :
      BodyStep P thr prob maxIt st
        (if st'.iterations > maxIt then .brk st' else .cont st')

theorem ransacBody_step (P : Problem σ S M I) (thr prob : ℝ) (maxIt : ℤ) (st : LoopState σ S M)
    (h : ransacBody P thr prob maxIt st ≠ .ub) :
    BodyStep P thr prob maxIt st (ransacBody P thr prob maxIt st) := by
  unfold ransacBody at h ⊢
  rcases hg : P.getSamples st.world with _ | ⟨res, w⟩
  · rw [hg] at h; exact absurd rfl h
  · cases res with
    | tooFew => exact .failTooFew w
    | empty => exact .failEmpty w
    | sample s =>
      simp only
      cases he : P.isEmpty s with
      | true => simpa using BodyStep.failEmpty (st := st) w
      | false =>
        simp only [Bool.false_eq_true, if_false, ransacScore]
        rcases hc : P.compute w s with ⟨m, w'⟩
        cases m with
        | none => exact .skip w'
        | some m =>
          simp only
          by_cases hn : (P.count m thr : ℤ) > st.best
          · simp only [hn, if_true]
            exact .score s m
              { world := P.distEffect w' m, iterations := st.iterations + 1, skipped := st.skipped,
                best := P.count m thr, model := some s, coeffs := some m,
                k := kOf prob (P.count m thr) P.numIndices (P.sampleCard s),
                scored := st.scored ++ [(s, m)], failed := st.failed }
              w he (by rw [hc]) rfl rfl rfl rfl (fun _ => ⟨rfl, rfl, rfl, rfl⟩)
              (fun h => absurd hn h)
          · simp only [hn, if_false]
            exact .score s m
              { st with world := P.distEffect w' m, iterations := st.iterations + 1,
                        scored := st.scored ++ [(s, m)] }
              w he (by rw [hc]) rfl rfl rfl rfl (fun h => absurd h hn)
              (fun _ => ⟨rfl, rfl, rfl, rfl⟩)

theorem rinv_step (P : Problem σ S M I) (thr prob : ℝ) (maxIt : ℤ) (m0 : Option S) (c0 : Option M)
    (st st' : LoopState σ S M) (hI : RInv P thr prob m0 c0 st)
    (h : ransacBody P thr prob maxIt st = .cont st' ∨ ransacBody P thr prob maxIt st = .brk st') :
    RInv P thr prob m0 c0 st' := by
  have hne : ransacBody P thr prob maxIt st ≠ .ub := by
    rcases h with h | h <;> rw [h] <;> simp
  have hs := ransacBody_step P thr prob maxIt st hne
  generalize hb : ransacBody P thr prob maxIt st = b at *
  cases hs with
  | failTooFew w =>
    rcases h with h | h
    · cases h
    · cases h; exact ⟨by simp, hI.empty, hI.nonempty, hI.comp⟩
  | failEmpty w =>
    rcases h with h | h
    · cases h
    · cases h; exact ⟨by simp, hI.empty, hI.nonempty, hI.comp⟩
  | skip w =>
    rcases h with h | h
    · cases h; exact ⟨hI.iter, hI.empty, hI.nonempty, hI.comp⟩
    · cases h
  | score s m st1 w he hm hsc hit hsk hf hnew hold =>
    have e : st' = st1 := by
      rcases h with h | h <;> (split at h <;> cases h; try rfl)
    subst e
    refine ⟨?_, ?_, ?_, ?_⟩
    · intro hf'
      rw [hit, hI.iter (hf ▸ hf'), hsc]; simp
    · intro h0; rw [hsc] at h0; simp at h0
    · intro _
      by_cases hn : (P.count m thr : ℤ) > st.best
      · obtain ⟨h1, h2, h3, h4⟩ := hnew hn
        refine ⟨st.scored, s, m, [], by simp [hsc], h2, h3, h1, ?_, by simp, h4⟩
        intro x hx
        by_cases hsc0 : st.scored = []
        · rw [hsc0] at hx; simp at hx
        · obtain ⟨pre, s', m', post, e1, _, _, e4, e5, e6, _⟩ := hI.nonempty hsc0
          rw [e4] at hn
          rw [e1] at hx
          have hn' : P.count m' thr < P.count m thr := by exact_mod_cast hn
          rcases List.mem_append.1 hx with hx | hx
          · exact lt_trans (e5 x hx) hn'
          · rcases List.mem_cons.1 hx with rfl | hx
            · exact hn'
            · exact lt_of_le_of_lt (e6 x hx) hn'
      · obtain ⟨h1, h2, h3, h4⟩ := hold hn
        have hsc0 : st.scored ≠ [] := by
          intro h0
          have := (hI.empty h0).2.2.1
          rw [this] at hn
          have : (0 : ℤ) ≤ P.count m thr := by positivity
          simp only [intMax] at hn
          omega
        obtain ⟨pre, s', m', post, e1, e2, e3, e4, e5, e6, e7⟩ := hI.nonempty hsc0
        refine ⟨pre, s', m', post ++ [(s, m)], by simp [hsc, e1], h2.trans e2, h3.trans e3,
          h1.trans e4, e5, ?_, h4.trans e7⟩
        intro x hx
        rcases List.mem_append.1 hx with hx | hx
        · exact e6 x hx
        · simp only [List.mem_singleton] at hx
          subst hx
          rw [e4] at hn
          simp only
          by_contra hlt
          exact hn (by exact_mod_cast (not_le.1 hlt))
    · intro x hx
      rw [hsc] at hx
      rcases List.mem_append.1 hx with hx | hx
      · exact hI.comp x hx
      · simp only [List.mem_singleton] at hx
        subst hx
        exact ⟨he, w, hm⟩

/-- The invariant holds for the final state of every finished run. -/
theorem rinv_final (P : Problem σ S M I) (thr prob : ℝ) (maxIt : ℤ) (maxSkip fuel : ℕ)
    (obj : RansacObj σ S M I) (st : LoopState σ S M)
    (h : ransacLoop P thr prob maxIt maxSkip fuel (ransacInit obj) = .done st) :
    RInv P thr prob obj.model obj.coeffs st := by
  refine ransacLoop_rule P thr prob maxIt maxSkip (RInv P thr prob obj.model obj.coeffs)
    (RInv P thr prob obj.model obj.coeffs) ?_ ?_ ?_ fuel _ st (rinv_init P thr prob obj) h
  · intro st st' hI _ _ hb; exact rinv_step P thr prob maxIt _ _ st st' hI (Or.inl hb)
  · intro st st' hI _ _ hb; exact rinv_step P thr prob maxIt _ _ st st' hI (Or.inr hb)
  · intro st hI _; exact hI

/-- Budget invariant: number of scored hypotheses and of skips. -/
theorem budget_final (P : Problem σ S M I) (thr prob : ℝ) (maxIt : ℤ) (maxSkip fuel : ℕ)
    (obj : RansacObj σ S M I) (st : LoopState σ S M)
    (h : ransacLoop P thr prob maxIt maxSkip fuel (ransacInit obj) = .done st) :
    (st.scored.length : ℤ) ≤ max maxIt 0 + 1 ∧ st.skipped ≤ maxSkip ∧
    (st.failed = true ∨ (st.scored.length : ℤ) > maxIt ∨
      ¬ (st.k.gtInt st.iterations ∧ st.skipped < maxSkip)) := by
  refine ransacLoop_rule P thr prob maxIt maxSkip
    (fun st => st.failed = false ∧ st.iterations = st.scored.length ∧
      ((st.scored.length : ℤ) ≤ max maxIt 0) ∧ st.skipped ≤ maxSkip)
    (fun st => (st.scored.length : ℤ) ≤ max maxIt 0 + 1 ∧ st.skipped ≤ maxSkip ∧
    (st.failed = true ∨ (st.scored.length : ℤ) > maxIt ∨
      ¬ (st.k.gtInt st.iterations ∧ st.skipped < maxSkip))) ?_ ?_ ?_ fuel _ st ?_ h
  · rintro st st' ⟨h0, h1, h2, h3⟩ _ hsk hb
    have hs := ransacBody_step P thr prob maxIt st (by rw [hb]; simp)
    generalize hb' : ransacBody P thr prob maxIt st = b at *
    cases hs with
    | failTooFew w => cases hb
    | failEmpty w => cases hb
    | skip w => cases hb; exact ⟨h0, h1, h2, hsk⟩
    | score s m st1 w he hm hsc hit hsk' hf hnew hold =>
      split at hb
      · cases hb
      · rename_i hle
        cases hb
        refine ⟨hf.trans h0, by rw [hit, h1, hsc]; simp, ?_, by omega⟩
        have : (st'.scored.length : ℤ) = st'.iterations := by rw [hit, h1, hsc]; simp
        omega
  · rintro st st' ⟨h0, h1, h2, h3⟩ _ hsk hb
    have hs := ransacBody_step P thr prob maxIt st (by rw [hb]; simp)
    generalize hb' : ransacBody P thr prob maxIt st = b at *
    cases hs with
    | failTooFew w => cases hb; exact ⟨by simp only; omega, h3, Or.inl rfl⟩
    | failEmpty w => cases hb; exact ⟨by simp only; omega, h3, Or.inl rfl⟩
    | skip w => cases hb
    | score s m st1 w he hm hsc hit hsk' hf hnew hold =>
      split at hb
      · rename_i hlt
        cases hb
        have e : (st'.scored.length : ℤ) = st'.iterations := by rw [hit, h1, hsc]; simp
        exact ⟨by rw [hsc]; simp only [List.length_append, List.length_singleton]; omega,
          by omega, Or.inr (Or.inl (by omega))⟩
      · cases hb
  · rintro st ⟨h0, h1, h2, h3⟩ hg
    exact ⟨by omega, h3, Or.inr (Or.inr hg)⟩
  · simp [ransacInit]

/-- Termination: with enough fuel the loop does not time out. -/
theorem ransacLoop_terminates (P : Problem σ S M I) (thr prob : ℝ) (maxIt : ℤ) (maxSkip : ℕ) :
    ∀ fuel (st : LoopState σ S M), (maxSkip - st.skipped) + (maxIt + 1 - st.iterations).toNat < fuel →
      ransacLoop P thr prob maxIt maxSkip fuel st ≠ .timeout := by
  intro fuel
  induction fuel with
  | zero => intro st h; omega
  | succ fuel ih =>
    intro st h
    simp only [ransacLoop]
    split
    · rename_i hg
      by_cases hub : ransacBody P thr prob maxIt st = .ub
      · rw [hub]; simp
      · have hs := ransacBody_step P thr prob maxIt st hub
        generalize hb' : ransacBody P thr prob maxIt st = b at *
        cases hs with
        | failTooFew w => simp
        | failEmpty w => simp
        | skip w => simp only; apply ih; simp only; omega
        | score s m st1 w he hm hsc hit hsk' hf hnew hold =>
          by_cases hlt : st1.iterations > maxIt
          · simp [hlt]
          · simp only [hlt, if_false]
            apply ih
            omega
    · simp

/-- A problem whose sampling keeps some invariant of the world and never reaches undefined
behaviour under it. -/
structure SafeProblem (P : Problem σ S M I) (W : σ → Prop) : Prop where
  sample : ∀ w, W w → ∃ res w', P.getSamples w = some (res, w') ∧ W w'
  compute : ∀ w s, W w → W (P.compute w s).2
  effect : ∀ w m, W w → W (P.distEffect w m)

theorem ransacLoop_safe (P : Problem σ S M I) (W : σ → Prop) (hP : SafeProblem P W)
    (thr prob : ℝ) (maxIt : ℤ) (maxSkip : ℕ) : ∀ fuel (st : LoopState σ S M), W st.world →
      ransacLoop P thr prob maxIt maxSkip fuel st ≠ .ub ∧
      ∀ st', ransacLoop P thr prob maxIt maxSkip fuel st = .done st' → W st'.world := by
  intro fuel
  induction fuel with
  | zero => intro st _; simp [ransacLoop]
  | succ fuel ih =>
    intro st hW
    simp only [ransacLoop]
    split
    · obtain ⟨res, w, hs, hw⟩ := hP.sample st.world hW
      unfold ransacBody
      rw [hs]
      cases res with
      | tooFew => simp only; exact ⟨by simp, by rintro _ h; cases h; exact hw⟩
      | empty => simp only; exact ⟨by simp, by rintro _ h; cases h; exact hw⟩
      | sample s =>
        simp only
        cases he : P.isEmpty s with
        | true => simp only [if_true]; exact ⟨by simp, by rintro _ h; cases h; exact hw⟩
        | false =>
          simp only [Bool.false_eq_true, if_false, ransacScore]
          have hcw := hP.compute w s hw
          rcases hc : P.compute w s with ⟨m, w'⟩
          rw [hc] at hcw
          cases m with
          | none => exact ih _ hcw
          | some m =>
            have hew := hP.effect w' m hcw
            simp only
            by_cases hn : (P.count m thr : ℤ) > st.best
            · simp only [hn, if_true]
              by_cases hlt : st.iterations + 1 > maxIt
              · simp only [hlt, if_true]; exact ⟨by simp, by rintro _ h; cases h; exact hew⟩
              · simp only [hlt, if_false]; exact ih _ hew
            · simp only [hn, if_false]
              by_cases hlt : st.iterations + 1 > maxIt
              · simp only [hlt, if_true]; exact ⟨by simp, by rintro _ h; cases h; exact hew⟩
              · simp only [hlt, if_false]; exact ih _ hew
    · exact ⟨by simp, by rintro _ h; cases h; exact hW⟩

end OpenGV.Sac

namespace OpenGV.Sac

variable {σ S M I : Type}

theorem ransacLoop_mono (P : Problem σ S M I) (thr prob : ℝ) (maxIt : ℤ) (maxSkip : ℕ) :
    ∀ fuel fuel' (st st' : LoopState σ S M), fuel ≤ fuel' →
      ransacLoop P thr prob maxIt maxSkip fuel st = .done st' →
      ransacLoop P thr prob maxIt maxSkip fuel' st = .done st' := by
  intro fuel
  induction fuel with
  | zero => intro fuel' st st' _ h; simp [ransacLoop] at h
  | succ fuel ih =>
    intro fuel' st st' hle h
    obtain ⟨f, rfl⟩ : ∃ f, fuel' = f + 1 := ⟨fuel' - 1, by omega⟩
    simp only [ransacLoop] at h ⊢
    split at h
    · rename_i hg
      simp only [hg, and_self, if_true]
      cases hb : ransacBody P thr prob maxIt st with
      | ub => rw [hb] at h; cases h
      | brk s => rw [hb] at h; exact h
      | cont s => rw [hb] at h; exact ih f s st' (by omega) h
    · rename_i hg
      simp only [hg, if_false]; exact h

/-- Description of a finished call of `computeModel`. -/
theorem computeModel_done (P : Problem σ S M I) (thr prob : ℝ) (maxIt : ℤ)
    (obj : RansacObj σ S M I) (fuel : ℕ) (r : RansacReturn σ S M I)
    (h : computeModel P thr prob maxIt obj fuel = .done r) :
    ∃ maxSkip, maxSkipOf maxIt = some maxSkip ∧
      ransacLoop P thr prob maxIt maxSkip fuel (ransacInit obj) = .done r.final ∧
      r.obj.iterations = r.final.iterations ∧ r.obj.model = r.final.model ∧
      r.obj.coeffs = r.final.coeffs ∧
      ((r.final.model = none ∧ r.ret = false ∧ r.obj.inliers = P.noInliers) ∨
       (∃ s m ins, r.final.model = some s ∧ r.final.coeffs = some m ∧
          P.select m thr = some ins ∧ r.ret = true ∧ r.obj.inliers = ins)) := by
  unfold computeModel at h
  cases hs : maxSkipOf maxIt with
  | none => rw [hs] at h; cases h
  | some maxSkip =>
    rw [hs] at h
    simp only at h
    refine ⟨maxSkip, rfl, ?_⟩
    cases hl : ransacLoop P thr prob maxIt maxSkip fuel (ransacInit obj) with
    | ub => rw [hl] at h; cases h
    | timeout => rw [hl] at h; cases h
    | done st =>
      rw [hl] at h
      simp only at h
      cases hm : st.model with
      | none =>
        rw [hm] at h
        cases h
        exact ⟨rfl, rfl, hm.symm, rfl, Or.inl ⟨hm, rfl, rfl⟩⟩
      | some s =>
        rw [hm] at h
        simp only at h
        cases hc : st.coeffs with
        | none => rw [hc] at h; cases h
        | some m =>
          rw [hc] at h
          simp only at h
          cases hsel : P.select m thr with
          | none => rw [hsel] at h; cases h
          | some ins =>
            rw [hsel] at h
            cases h
            exact ⟨rfl, rfl, hm.symm, hc.symm, Or.inr ⟨s, m, ins, hm, hc, hsel, rfl, rfl⟩⟩

/-- A call of `computeModel` finishes for all sufficiently large fuel with the same result. -/
theorem computeModel_total (P : Problem σ S M I) (W : σ → Prop) (hP : SafeProblem P W)
    (hsel : ∀ m thr, ∃ ins, P.select m thr = some ins)
    (thr prob : ℝ) (maxIt : ℤ) (maxSkip : ℕ) (hms : maxSkipOf maxIt = some maxSkip)
    (obj : RansacObj σ S M I) (hW : W obj.world) (hobj : obj.model.isSome → obj.coeffs.isSome) :
    ∃ r, ∀ fuel, maxSkip + (maxIt + 1).toNat + 1 ≤ fuel →
      computeModel P thr prob maxIt obj fuel = .done r := by
  set N := maxSkip + (maxIt + 1).toNat + 1 with hN
  have h1 := ransacLoop_terminates P thr prob maxIt maxSkip N (ransacInit obj)
    (by simp [ransacInit, hN])
  have h2 := (ransacLoop_safe P W hP thr prob maxIt maxSkip N (ransacInit obj) hW).1
  cases hl : ransacLoop P thr prob maxIt maxSkip N (ransacInit obj) with
  | ub => exact absurd hl h2
  | timeout => exact absurd hl h1
  | done st =>
    have hI := rinv_final P thr prob maxIt maxSkip N obj st hl
    have hfuel : ∀ fuel, N ≤ fuel →
        ransacLoop P thr prob maxIt maxSkip fuel (ransacInit obj) = .done st :=
      fun fuel hf => ransacLoop_mono P thr prob maxIt maxSkip N fuel _ _ hf hl
    cases hm : st.model with
    | none =>
      refine ⟨⟨false, ⟨st.world, st.iterations, st.model, st.coeffs, P.noInliers⟩, st⟩,
        fun fuel hf => ?_⟩
      unfold computeModel
      rw [hms]
      simp only [hfuel fuel hf, hm]
    | some s =>
      have hc : st.coeffs.isSome := by
        by_cases hsc : st.scored = []
        · obtain ⟨e1, e2, _⟩ := hI.empty hsc
          rw [e2]; apply hobj; rw [← e1, hm]; rfl
        · obtain ⟨_, _, m, _, _, _, e, _⟩ := hI.nonempty hsc
          rw [e]; rfl
      obtain ⟨m, hm'⟩ := Option.isSome_iff_exists.1 hc
      obtain ⟨ins, hi⟩ := hsel m thr
      refine ⟨⟨true, ⟨P.distEffect st.world m, st.iterations, st.model, st.coeffs, ins⟩, st⟩,
        fun fuel hf => ?_⟩
      unfold computeModel
      rw [hms]
      simp only [hfuel fuel hf, hm, hm', hi]

end OpenGV.Sac
