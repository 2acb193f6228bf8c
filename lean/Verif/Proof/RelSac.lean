import Verif.Model.RelSac
import Verif.Model.Lmeds
import Verif.Proof.Ransac
import Verif.Proof.Lmeds

/-! Invariants of the state of a problem during a run of the drivers. -/

namespace OpenGV.Sac

variable {σ S M I : Type}

/-- If every call of the problem keeps `W`, the state meets `W` after the loop, and every hypothesis was
computed in a state that meets `W`. -/
theorem ransacLoop_world (P : Problem σ S M I) (W : σ → Prop) (Q : S → M → Prop)
    (hg : ∀ w res w', W w → P.getSamples w = some (res, w') → W w')
    (hc : ∀ w s, W w → W (P.compute w s).2)
    (hd : ∀ w s m, W w → P.isEmpty s = false → (P.compute w s).1 = some m →
      W (P.distEffect (P.compute w s).2 m) ∧ Q s m)
    (thr prob : ℝ) (maxIt : ℤ) (maxSkip fuel : ℕ) (st st' : LoopState σ S M)
    (h0 : W st.world ∧ ∀ x ∈ st.scored, Q x.1 x.2)
    (h : ransacLoop P thr prob maxIt maxSkip fuel st = .done st') :
    W st'.world ∧ ∀ x ∈ st'.scored, Q x.1 x.2 := by
  have key : ∀ st st' : LoopState σ S M, (W st.world ∧ ∀ x ∈ st.scored, Q x.1 x.2) →
      (ransacBody P thr prob maxIt st = .cont st' ∨ ransacBody P thr prob maxIt st = .brk st') →
      (W st'.world ∧ ∀ x ∈ st'.scored, Q x.1 x.2) := by
    intro st st' hI hb
    unfold ransacBody at hb
    rcases hgs : P.getSamples st.world with _ | ⟨res, w⟩
    · simp [hgs] at hb
    · have hw := hg _ _ _ hI.1 hgs
      rw [hgs] at hb
      cases res with
      | tooFew => simp only [reduceCtorEq, Flow.brk.injEq, false_or] at hb; subst hb; exact ⟨hw, hI.2⟩
      | empty => simp only [reduceCtorEq, Flow.brk.injEq, false_or] at hb; subst hb; exact ⟨hw, hI.2⟩
      | sample s =>
        simp only at hb
        split at hb
        · simp only [reduceCtorEq, Flow.brk.injEq, false_or] at hb; subst hb; exact ⟨hw, hI.2⟩
        · rename_i hne
          have h1 := hc w s hw
          have h2 := hd w s
          unfold ransacScore at hb
          rcases hcs : P.compute w s with ⟨m, w'⟩
          simp only [hcs] at hb h1 h2
          cases m with
          | none =>
            simp only [reduceCtorEq, Flow.cont.injEq, or_false] at hb; subst hb; exact ⟨h1, hI.2⟩
          | some m =>
            obtain ⟨h3, h4⟩ := h2 m hw (by simpa using hne) rfl
            have hres : ∀ st'' : LoopState σ S M, st''.world = P.distEffect w' m →
                st''.scored = st.scored ++ [(s, m)] →
                (W st''.world ∧ ∀ x ∈ st''.scored, Q x.1 x.2) := by
              intro st'' e1 e2
              rw [e1, e2]
              refine ⟨h3, fun x hx => ?_⟩
              rcases List.mem_append.1 hx with hx | hx
              · exact hI.2 x hx
              · simp only [List.mem_singleton] at hx
                subst hx
                exact h4
            simp only at hb
            by_cases hn : (P.count m thr : ℤ) > st.best
            · simp only [hn, if_true] at hb
              split at hb
              · simp only [reduceCtorEq, Flow.brk.injEq, false_or] at hb
                subst hb
                exact hres _ rfl rfl
              · simp only [reduceCtorEq, Flow.cont.injEq, or_false] at hb
                subst hb
                exact hres _ rfl rfl
            · simp only [hn, if_false] at hb
              split at hb
              · simp only [reduceCtorEq, Flow.brk.injEq, false_or] at hb
                subst hb
                exact hres _ rfl rfl
              · simp only [reduceCtorEq, Flow.cont.injEq, or_false] at hb
                subst hb
                exact hres _ rfl rfl
  exact ransacLoop_rule P thr prob maxIt maxSkip
    (fun st => W st.world ∧ ∀ x ∈ st.scored, Q x.1 x.2)
    (fun st => W st.world ∧ ∀ x ∈ st.scored, Q x.1 x.2)
    (fun st st' hI _ _ hb => key st st' hI (Or.inl hb))
    (fun st st' hI _ _ hb => key st st' hI (Or.inr hb)) (fun _ hI _ => hI) fuel st st' h0 h

/-- The state after `computeModel`. -/
theorem computeModel_world (P : Problem σ S M I) (thr prob : ℝ) (maxIt : ℤ)
    (obj : RansacObj σ S M I) (fuel : ℕ) (r : RansacReturn σ S M I)
    (h : computeModel P thr prob maxIt obj fuel = .done r) :
    (r.ret = false ∧ r.obj.world = r.final.world) ∨
      ∃ m, r.ret = true ∧ r.final.coeffs = some m ∧ r.obj.world = P.distEffect r.final.world m := by
  unfold computeModel at h
  cases hs : maxSkipOf maxIt with
  | none => rw [hs] at h; cases h
  | some maxSkip =>
    rw [hs] at h
    simp only at h
    cases hl : ransacLoop P thr prob maxIt maxSkip fuel (ransacInit obj) with
    | ub => rw [hl] at h; cases h
    | timeout => rw [hl] at h; cases h
    | done st =>
      rw [hl] at h
      simp only at h
      cases hm : st.model with
      | none =>
        rw [hm] at h
        cases h
        exact Or.inl ⟨rfl, rfl⟩
      | some s =>
        rw [hm] at h
        simp only at h
        cases hc : st.coeffs with
        | none => rw [hc] at h; cases h
        | some m =>
          rw [hc] at h
          simp only at h
          cases hsel : P.select m thr with
          | none => rw [hsel] at h; cases h
          | some ins =>
            rw [hsel] at h
            cases h
            exact Or.inr ⟨m, rfl, hc, rfl⟩

/-- The same for a problem derived by a user, from a fresh object: the state of the problem meets `W`
after the run, every scored hypothesis meets `Q`, and so does the result. -/
theorem single_world (U : UserProblem σ M) (rng : ℕ → ℕ) (indices : List ℤ) (W : σ → Prop)
    (Q : List ℤ → M → Prop) (hc : ∀ w s, W w → W (U.compute w s).2)
    (hd : ∀ w s m, W w → s ≠ [] → (U.compute w s).1 = some m →
      W (U.distEffect (U.compute w s).2 m) ∧ Q s m)
    (hd' : ∀ w s m, W w → Q s m → W (U.distEffect w m))
    (thr prob : ℝ) (maxIt : ℤ) (obj : RansacObj (σ × List ℤ × ℕ) (List ℤ) M (List ℤ))
    (hfresh : obj.model = none) (h0 : W obj.world.1) (fuel : ℕ)
    (r : RansacReturn (σ × List ℤ × ℕ) (List ℤ) M (List ℤ))
    (h : computeModel (single U rng indices) thr prob maxIt obj fuel = .done r) :
    W r.obj.world.1 ∧ (∀ x ∈ r.final.scored, Q x.1 x.2) ∧
      (r.ret = true → ∃ s m, r.obj.model = some s ∧ r.obj.coeffs = some m ∧
        (s, m) ∈ r.final.scored ∧ Q s m) := by
  obtain ⟨maxSkip, -, hl, -, hmod, hco, hcase⟩ := computeModel_done _ _ _ _ _ _ _ h
  have hI := rinv_final _ _ _ _ _ _ _ _ hl
  obtain ⟨hw, hQ⟩ := ransacLoop_world (single U rng indices) (fun w => W w.1) Q
    (by
      rintro ⟨w, pool, pos⟩ res w' hw hg
      simp only [single] at hg
      split at hg
      · cases hg
      · cases hg; exact hw)
    (by
      rintro ⟨w, pool, pos⟩ s hw
      exact hc w s hw)
    (by
      rintro ⟨w, pool, pos⟩ s m hw he hm
      exact hd w s m hw (by rintro rfl; simp [single] at he) hm)
    thr prob maxIt maxSkip fuel _ _ ⟨h0, by simp [ransacInit]⟩ hl
  have hres : ∀ m, r.final.coeffs = some m → r.ret = true → ∃ s, r.final.model = some s ∧
      (s, m) ∈ r.final.scored := by
    intro m hm hret
    have hne : r.final.scored ≠ [] := by
      intro hs
      have := (hI.empty hs).1
      rw [hfresh] at this
      rcases hcase with ⟨_, h2, _⟩ | ⟨s, m, ins, h2, _⟩
      · rw [hret] at h2; cases h2
      · rw [this] at h2; cases h2
    obtain ⟨pre, s, m', post, e1, e2, e3, -⟩ := hI.nonempty hne
    rw [e3] at hm
    cases hm
    exact ⟨s, e2, by rw [e1]; simp⟩
  refine ⟨?_, hQ, ?_⟩
  · rcases computeModel_world _ _ _ _ _ _ _ h with ⟨-, e⟩ | ⟨m, hret, hm, e⟩
    · rw [e]; exact hw
    · obtain ⟨s, -, hs⟩ := hres m hm hret
      rw [e]
      exact hd' _ s m hw (hQ _ hs)
  · intro hret
    rcases computeModel_world _ _ _ _ _ _ _ h with ⟨h2, -⟩ | ⟨m, -, hm, -⟩
    · rw [hret] at h2; cases h2
    · obtain ⟨s, e, hs⟩ := hres m hm hret
      exact ⟨s, m, hmod.trans e, hco.trans hm, hs, hQ _ hs⟩

/-- If the first sample is drawn and gives a hypothesis, the hypothesis is scored. -/
theorem computeModel_scores {σ S M I : Type} (P : Problem σ S M I) (thr prob : ℝ) (maxIt : ℤ)
    (hmax : 1 ≤ maxIt) (hbig : 10 * maxIt ≤ intMax) (obj : RansacObj σ S M I) (s : S) (w w' : σ) (m : M)
    (hs : P.getSamples obj.world = some (.sample s, w)) (he : P.isEmpty s = false)
    (hm : P.compute w s = (some m, w')) (fuel : ℕ) (r : RansacReturn σ S M I)
    (h : computeModel P thr prob maxIt obj fuel = .done r) : (s, m) ∈ r.final.scored := by
  obtain ⟨maxSkip, hms, hl, -⟩ := computeModel_done _ _ _ _ _ _ _ h
  have hskip : 0 < maxSkip := by
    unfold maxSkipOf at hms
    rw [if_neg (by simp only [intMax] at hbig ⊢; omega)] at hms
    cases hms
    have : maxIt * 10 % 4294967296 = maxIt * 10 :=
      Int.emod_eq_of_lt (by omega) (by simp only [intMax] at hbig; omega)
    rw [this]
    omega
  have hscore : ∀ fuel (st st' : LoopState _ _ _), (s, m) ∈ st.scored →
      ransacLoop P thr prob maxIt maxSkip fuel st = .done st' → (s, m) ∈ st'.scored := by
    have key : ∀ st st' : LoopState _ _ _, (s, m) ∈ st.scored →
        (ransacBody P thr prob maxIt st = .cont st' ∨ ransacBody P thr prob maxIt st = .brk st') →
        (s, m) ∈ st'.scored := by
      intro st st' hst hb
      have hne : ransacBody P thr prob maxIt st ≠ .ub := by rcases hb with hb | hb <;> rw [hb] <;> simp
      have hstep := ransacBody_step P thr prob maxIt st hne
      revert hstep
      generalize ransacBody P thr prob maxIt st = fl at hb
      intro hstep
      cases hstep with
      | failTooFew w => simp only [reduceCtorEq, Flow.brk.injEq, false_or] at hb; subst hb; exact hst
      | failEmpty w => simp only [reduceCtorEq, Flow.brk.injEq, false_or] at hb; subst hb; exact hst
      | skip w => simp only [reduceCtorEq, Flow.cont.injEq, or_false] at hb; subst hb; exact hst
      | score s m st'' w _ _ hsc =>
        have : st' = st'' := by
          split at hb
          · simpa [eq_comm] using hb
          · simpa [eq_comm] using hb
        rw [this, hsc]
        exact List.mem_append_left _ hst
    exact ransacLoop_rule P thr prob maxIt maxSkip (fun st => (s, m) ∈ st.scored)
      (fun st => (s, m) ∈ st.scored)
      (fun st st' hI _ _ hb => key st st' hI (Or.inl hb))
      (fun st st' hI _ _ hb => key st st' hI (Or.inr hb)) (fun _ hI _ => hI)
  cases fuel with
  | zero => simp [ransacLoop] at hl
  | succ fuel =>
    rw [ransacLoop, if_pos ⟨by simp [ransacInit, KVal.gtInt], by simpa [ransacInit] using hskip⟩] at hl
    have hbody : ∃ st' : LoopState σ S M, (s, m) ∈ st'.scored ∧
        (ransacBody P thr prob maxIt (ransacInit obj) = .brk st' ∨
        ransacBody P thr prob maxIt (ransacInit obj) = .cont st') := by
      unfold ransacBody
      rw [show (ransacInit obj).world = obj.world from rfl, hs]
      simp only [he, Bool.false_eq_true, if_false, ransacScore]
      rw [hm]
      simp only
      by_cases hn : (P.count m thr : ℤ) > (ransacInit obj).best
      · simp only [hn, if_true]
        split
        · exact ⟨_, by simp, Or.inl rfl⟩
        · exact ⟨_, by simp, Or.inr rfl⟩
      · simp only [hn, if_false]
        split
        · exact ⟨_, by simp, Or.inl rfl⟩
        · exact ⟨_, by simp, Or.inr rfl⟩
    obtain ⟨st', hst', hb | hb⟩ := hbody
    · rw [hb] at hl
      cases hl
      exact hst'
    · rw [hb] at hl
      exact hscore _ _ _ hst' hl

end OpenGV.Sac
