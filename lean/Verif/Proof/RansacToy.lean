import Verif.Proof.RansacSingle

/-! A family of concrete problems used as witnesses. -/

namespace OpenGV.Sac

/-- Every sample is accepted and gives the same model with distances `d`. -/
noncomputable def constProblem (s : ℕ) (d : List ℝ) : UserProblem Unit Unit where
  sampleSize := s
  isSampleGood := fun _ _ => true
  compute := fun w _ => (some (), w)
  dist := fun _ _ => d
  distEffect := fun w _ => w

/-- A fresh RANSAC object for it. -/
def constObj (indices : List ℤ) : RansacObj (Unit × List ℤ × ℕ) (List ℤ) Unit (List ℤ) :=
  ⟨((), indices, 0), 0, none, none, []⟩

theorem constProblem_sample (s : ℕ) (d : List ℝ) (rng : ℕ → ℕ) (indices : List ℤ)
    (hle : s ≤ indices.length) (w : Unit × List ℤ × ℕ) (hw : w.2.1.Perm indices) :
    ∃ t w', (single (constProblem s d) rng indices).getSamples w = some (.sample t, w') ∧
      t.length = s ∧ w'.2.1.Perm indices := by
  obtain ⟨w, pool, pos⟩ := w
  simp only at hw
  have hl := hw.length_eq
  have he := drawIndexSample_eq rng s pos pool (by omega)
  refine ⟨(pick rng s pos pool).1, ((), (pick rng s pos pool).1 ++ (pick rng s pos pool).2, pos + s),
    ?_, pick_length rng s pos pool (by omega), (pick_perm rng s pos pool).trans hw⟩
  simp [single, constProblem, getSamples, getSamplesLoop, maxSampleChecks, he, not_lt.2 hle]

/-- The run on a `constProblem`. -/
theorem constProblem_run (s : ℕ) (d : List ℝ) (rng : ℕ → ℕ) (indices : List ℤ)
    (hs : 0 < s) (hle : s ≤ indices.length) (thr prob : ℝ) (maxIt : ℤ) (maxSkip : ℕ)
    (fuel : ℕ) (st : LoopState (Unit × List ℤ × ℕ) (List ℤ) Unit)
    (hms : 0 < maxSkip)
    (h : ransacLoop (single (constProblem s d) rng indices) thr prob maxIt maxSkip fuel
      (ransacInit (constObj indices)) = .done st) :
    st.failed = false ∧ st.skipped = 0 ∧ 0 < st.scored.length ∧
    st.iterations = st.scored.length ∧
    st.k = kOf prob (countWithinDistance d thr) indices.length s ∧
    (st.scored.length = 1 ∨
      (kOf prob (countWithinDistance d thr) indices.length s).gtInt (st.scored.length - 1 : ℤ)) ∧
    (¬ (kOf prob (countWithinDistance d thr) indices.length s).gtInt (st.scored.length : ℤ) ∨
      (st.scored.length : ℤ) > maxIt) := by
  set K := kOf prob (countWithinDistance d thr) indices.length s with hK
  set P := single (constProblem s d) rng indices with hP
  have body : ∀ st : LoopState (Unit × List ℤ × ℕ) (List ℤ) Unit, st.world.2.1.Perm indices →
      (st.scored = [] → st.best = -intMax) →
      (st.scored ≠ [] → st.best = (countWithinDistance d thr : ℤ) ∧ st.k = K) →
      ∃ st', ransacBody P thr prob maxIt st
          = (if st'.iterations > maxIt then .brk st' else .cont st') ∧
        st'.world.2.1.Perm indices ∧ st'.failed = st.failed ∧ st'.skipped = st.skipped ∧
        st'.scored.length = st.scored.length + 1 ∧ st'.iterations = st.iterations + 1 ∧
        st'.best = (countWithinDistance d thr : ℤ) ∧ st'.k = K := by
    intro st hw h0 h1
    obtain ⟨t, w', hg, hl, hw'⟩ := constProblem_sample s d rng indices hle st.world hw
    obtain ⟨⟨⟩, pool', pos'⟩ := w'
    have hne : t.isEmpty = false := by
      cases t with
      | nil => simp at hl; omega
      | cons a t => rfl
    have hb : ransacBody P thr prob maxIt st = ransacScore P thr prob maxIt
        { st with world := ((), pool', pos') } t := by
      unfold ransacBody
      rw [hP, hg]
      simp [single, hne]
    rw [hb]
    by_cases hn : ((countWithinDistance d thr : ℕ) : ℤ) > st.best
    · refine ⟨LoopState.mk ((), pool', pos') (st.iterations + 1) st.skipped
        (countWithinDistance d thr : ℤ) K (some t) (some ()) (st.scored ++ [(t, ())]) st.failed,
        ?_, hw', rfl, rfl, by simp, rfl, rfl, rfl⟩
      simp [ransacScore, hP, single, constProblem, hn, hK, hl]
    · have hsc : st.scored ≠ [] := by
        intro e
        rw [h0 e] at hn
        simp only [intMax] at hn
        omega
      refine ⟨LoopState.mk ((), pool', pos') (st.iterations + 1) st.skipped
        st.best st.k st.model st.coeffs (st.scored ++ [(t, ())]) st.failed,
        ?_, hw', rfl, rfl, by simp, rfl, (h1 hsc).1, (h1 hsc).2⟩
      simp [ransacScore, hP, single, constProblem, hn]
  have key := ransacLoop_rule P thr prob maxIt maxSkip
    (fun st => st.world.2.1.Perm indices ∧ st.failed = false ∧ st.skipped = 0 ∧
      st.iterations = st.scored.length ∧
      ((st.scored = [] ∧ st.best = -intMax ∧ st.k = .fin 1) ∨
       (0 < st.scored.length ∧ st.best = (countWithinDistance d thr : ℤ) ∧ st.k = K ∧
        (st.scored.length = 1 ∨ K.gtInt (st.scored.length - 1 : ℤ)))))
    (fun st => st.failed = false ∧ st.skipped = 0 ∧ 0 < st.scored.length ∧
      st.iterations = st.scored.length ∧ st.k = K ∧
      (st.scored.length = 1 ∨ K.gtInt (st.scored.length - 1 : ℤ)) ∧
      (¬ K.gtInt (st.scored.length : ℤ) ∨ (st.scored.length : ℤ) > maxIt))
  have step : ∀ st st' : LoopState (Unit × List ℤ × ℕ) (List ℤ) Unit,
      (st.world.2.1.Perm indices ∧ st.failed = false ∧ st.skipped = 0 ∧
      st.iterations = st.scored.length ∧
      ((st.scored = [] ∧ st.best = -intMax ∧ st.k = .fin 1) ∨
       (0 < st.scored.length ∧ st.best = (countWithinDistance d thr : ℤ) ∧ st.k = K ∧
        (st.scored.length = 1 ∨ K.gtInt (st.scored.length - 1 : ℤ))))) →
      st.k.gtInt st.iterations →
      (ransacBody P thr prob maxIt st = .cont st' ∨ ransacBody P thr prob maxIt st = .brk st') →
      (st'.world.2.1.Perm indices ∧ st'.failed = false ∧ st'.skipped = 0 ∧
      st'.iterations = st'.scored.length ∧
      (0 < st'.scored.length ∧ st'.best = (countWithinDistance d thr : ℤ) ∧ st'.k = K ∧
        (st'.scored.length = 1 ∨ K.gtInt (st'.scored.length - 1 : ℤ))) ∧
      (ransacBody P thr prob maxIt st = .brk st' → (st'.scored.length : ℤ) > maxIt)) := by
    rintro st st' ⟨i1, i2, i3, i4, i5⟩ hg hb
    obtain ⟨st1, e, b1, b2, b3, b4, b5, b6, b7⟩ := body st i1
      (by
        intro hs0
        rcases i5 with ⟨_, h, _⟩ | ⟨h, _⟩
        · exact h
        · rw [hs0] at h; simp at h)
      (by
        intro hs0
        rcases i5 with ⟨h, _⟩ | ⟨_, h1, h2, _⟩
        · exact absurd h hs0
        · exact ⟨h1, h2⟩)
    have e1 : st' = st1 := by
      rw [e] at hb
      rcases hb with hb | hb <;> (split at hb <;> cases hb; try rfl)
    have e2 : ransacBody P thr prob maxIt st = .brk st' → (st1.scored.length : ℤ) > maxIt := by
      intro hb'
      rw [e] at hb'
      split at hb'
      · rename_i hgt
        have : (st1.scored.length : ℤ) = st1.iterations := by rw [b4, b5, i4]; simp
        rw [this]; exact hgt
      · cases hb'
    subst e1
    refine ⟨b1, b2.trans i2, b3.trans i3, by rw [b4, b5, i4]; simp, ⟨by omega, b6, b7, ?_⟩, e2⟩
    rcases i5 with ⟨h, _⟩ | ⟨_, _, h2, _⟩
    · left; rw [b4, h]; rfl
    · right
      rw [h2, i4] at hg
      have : ((st'.scored.length : ℕ) : ℤ) - 1 = st.scored.length := by rw [b4]; simp
      rw [this]; exact hg
  refine key ?_ ?_ ?_ fuel _ st ?_ h
  · intro st st' hi hg _ hb
    obtain ⟨j1, j2, j3, j4, j5, _⟩ := step st st' hi hg (Or.inl hb)
    exact ⟨j1, j2, j3, j4, Or.inr j5⟩
  · intro st st' hi hg _ hb
    obtain ⟨j1, j2, j3, j4, ⟨j5, j6, j7, j8⟩, j9⟩ := step st st' hi hg (Or.inr hb)
    exact ⟨j2, j3, j5, j4, j7, j8, Or.inr (j9 hb)⟩
  · rintro st ⟨i1, i2, i3, i4, i5⟩ hx
    rcases i5 with ⟨h, _, hk⟩ | ⟨h1, h2, h3, h4⟩
    · exfalso
      apply hx
      rw [hk, i4, h, i3]
      exact ⟨by simp [KVal.gtInt], hms⟩
    · refine ⟨i2, i3, h1, i4, h3, h4, Or.inl ?_⟩
      intro hk
      apply hx
      rw [h3, i4, i3]
      exact ⟨hk, hms⟩
  · exact ⟨List.Perm.refl _, rfl, rfl, rfl, Or.inl ⟨rfl, rfl, rfl⟩⟩

end OpenGV.Sac
