import Verif.Proof.Median
import Verif.Proof.RansacSingle

/-! Invariants of the LMedS driver. -/

namespace OpenGV.Sac
open OpenGV.Spec

variable {σ M : Type}

/-- What one execution of the body can do on a problem with exactly one distance per index. -/
inductive LmStep (U : UserProblem σ M) (indices : List ℤ) (st : LmState σ M) :
    Flow (LmState σ M) → Prop where
  | failTooFew (w) : LmStep U indices st
      (.brk { st with world := w, iterations := intMax, failed := true })
  | failEmpty (w) : LmStep U indices st (.brk { st with world := w, failed := true })
  | skip (w) (hw : w.2.1.Perm indices) : LmStep U indices st
      (.cont { st with world := w, skipped := st.skipped + 1 })
  | score (s : List ℤ) (m : M) (v : ℝ) (w) (w0) (hw : w.2.1.Perm indices)
      (hs : IsSampleOf indices U.sampleSize s) (hm : (U.compute w0 s).1 = some m)
      (hv : IsMedianSq (U.dist m indices) v) (st' : LmState σ M)
      (hst : st' = if v < st.best then
          ⟨w, st.iterations + 1, st.skipped, v, some s, some m, st.scored ++ [(s, m)], st.failed⟩
        else ⟨w, st.iterations + 1, st.skipped, st.best, st.model, st.coeffs,
          st.scored ++ [(s, m)], st.failed⟩) :
      LmStep U indices st (.cont st')

theorem lmedsBody_step (U : UserProblem σ M) (rng : ℕ → ℕ) (indices : List ℤ)
    (hdist : ∀ m, (U.dist m indices).length = indices.length) (st : LmState σ M)
    (hw : st.world.2.1.Perm indices) :
    LmStep U indices st (lmedsBody (single U rng indices) (fun m => U.dist m indices) st) := by
  obtain ⟨res, w', hg, hw', hs⟩ := single_getSamples U rng indices st.world hw
  unfold lmedsBody
  rw [hg]
  cases res with
  | tooFew => exact .failTooFew w'
  | empty => exact .failEmpty w'
  | sample s =>
    have hsam := hs s rfl
    simp only
    cases he : (single U rng indices).isEmpty s with
    | true => simp only [if_true]; exact .failEmpty w'
    | false =>
      simp only [Bool.false_eq_true, if_false]
      obtain ⟨w, pool, pos⟩ := w'
      unfold lmedsScore
      rcases hc : U.compute w s with ⟨m, w2⟩
      have hc' : (single U rng indices).compute (w, pool, pos) s = (m, w2, pool, pos) := by
        simp only [single, hc]
      rw [hc']
      cases m with
      | none => exact .skip (w2, pool, pos) hw'
      | some m =>
        simp only
        have hnum : (single U rng indices).numIndices = indices.length := rfl
        have heff : (single U rng indices).distEffect (w2, pool, pos) m
          = (U.distEffect w2 m, pool, pos) := rfl
        rw [hnum, heff]
        by_cases h0 : indices.length = 0
        · have : U.dist m indices = [] := List.length_eq_zero_iff.1 ((hdist m).trans h0)
          rw [this, lmedsPenalty_empty]
          exact .skip (U.distEffect w2 m, pool, pos) hw'
        · obtain ⟨v, hv, hmed⟩ := lmedsPenalty_spec indices.length (U.dist m indices) (hdist m)
            (by omega)
          rw [hv]
          refine .score s m v (U.distEffect w2 m, pool, pos) w hw' hsam (by rw [hc]) hmed _ ?_
          by_cases hlt : v < st.best
          · simp [hlt]
          · simp [hlt]

/-- Partial-correctness rule. -/
theorem lmedsLoop_rule (P : Problem (σ × List ℤ × ℕ) (List ℤ) M (List ℤ)) (dist : M → List ℝ)
    (maxIt : ℤ) (maxSkip : ℕ) (Inv Q : LmState σ M → Prop)
    (hcont : ∀ st st', Inv st → st.iterations < maxIt → st.skipped < maxSkip →
      lmedsBody P dist st = .cont st' → Inv st')
    (hbrk : ∀ st st', Inv st → st.iterations < maxIt → st.skipped < maxSkip →
      lmedsBody P dist st = .brk st' → Q st')
    (hexit : ∀ st, Inv st → ¬ (st.iterations < maxIt ∧ st.skipped < maxSkip) → Q st) :
    ∀ fuel st st', Inv st → lmedsLoop P dist maxIt maxSkip fuel st = .done st' → Q st' := by
  intro fuel
  induction fuel with
  | zero => intro st st' _ h; simp [lmedsLoop] at h
  | succ fuel ih =>
    intro st st' hinv h
    simp only [lmedsLoop] at h
    split at h
    · rename_i hg
      cases hb : lmedsBody P dist st with
      | ub => rw [hb] at h; cases h
      | brk s => rw [hb] at h; cases h; exact hbrk st _ hinv hg.1 hg.2 hb
      | cont s => rw [hb] at h; exact ih s st' (hcont st s hinv hg.1 hg.2 hb) h
    · rename_i hg
      cases h
      exact hexit st hinv hg

/-- The loop always finishes, without undefined behaviour. -/
theorem lmedsLoop_total (U : UserProblem σ M) (rng : ℕ → ℕ) (indices : List ℤ)
    (hdist : ∀ m, (U.dist m indices).length = indices.length) (maxIt : ℤ) (maxSkip : ℕ) :
    ∀ n fuel (st : LmState σ M), st.world.2.1.Perm indices →
      (maxSkip - st.skipped) + (maxIt - st.iterations).toNat < n → n ≤ fuel →
      ∃ st', lmedsLoop (single U rng indices) (fun m => U.dist m indices) maxIt maxSkip fuel st
        = .done st' ∧
        ∀ fuel', n ≤ fuel' →
          lmedsLoop (single U rng indices) (fun m => U.dist m indices) maxIt maxSkip fuel' st
            = .done st' := by
  intro n
  induction n with
  | zero => intro fuel st _ h; omega
  | succ n ih =>
    intro fuel st hw h hf
    have key : ∃ st', ∀ fuel', n + 1 ≤ fuel' →
        lmedsLoop (single U rng indices) (fun m => U.dist m indices) maxIt maxSkip fuel' st
          = .done st' := by
      by_cases hg : st.iterations < maxIt ∧ st.skipped < maxSkip
      · have hstep := lmedsBody_step U rng indices hdist st hw
        generalize hb : lmedsBody (single U rng indices) (fun m => U.dist m indices) st = b at hstep
        have viaCont : ∀ st1 : LmState σ M, b = .cont st1 → st1.world.2.1.Perm indices →
            (maxSkip - st1.skipped) + (maxIt - st1.iterations).toNat < n →
            ∃ st', ∀ fuel', n + 1 ≤ fuel' →
              lmedsLoop (single U rng indices) (fun m => U.dist m indices) maxIt maxSkip fuel' st
                = .done st' := by
          intro st1 e hw1 hn
          obtain ⟨st', _, h'⟩ := ih n st1 hw1 hn (le_refl _)
          refine ⟨st', fun fuel' hf' => ?_⟩
          obtain ⟨f, rfl⟩ : ∃ f, fuel' = f + 1 := ⟨fuel' - 1, by omega⟩
          simp only [lmedsLoop, hg, and_self, if_true, hb, e]
          exact h' f (by omega)
        have viaBrk : ∀ st1 : LmState σ M, b = .brk st1 →
            ∃ st', ∀ fuel', n + 1 ≤ fuel' →
              lmedsLoop (single U rng indices) (fun m => U.dist m indices) maxIt maxSkip fuel' st
                = .done st' := by
          intro st1 e
          refine ⟨st1, fun fuel' hf' => ?_⟩
          obtain ⟨f, rfl⟩ : ∃ f, fuel' = f + 1 := ⟨fuel' - 1, by omega⟩
          simp only [lmedsLoop, hg, and_self, if_true, hb, e]
        cases hstep with
        | failTooFew w => exact viaBrk _ rfl
        | failEmpty w => exact viaBrk _ rfl
        | skip w hw' => exact viaCont _ rfl hw' (by simp only; omega)
        | score s m v w w0 hw' hs hm hv st1 hst =>
          refine viaCont _ rfl ?_ ?_
          · rw [hst]; split <;> exact hw'
          · have : st1.skipped = st.skipped ∧ st1.iterations = st.iterations + 1 := by
              rw [hst]; split <;> exact ⟨rfl, rfl⟩
            omega
      · refine ⟨st, fun fuel' hf' => ?_⟩
        obtain ⟨f, rfl⟩ : ∃ f, fuel' = f + 1 := ⟨fuel' - 1, by omega⟩
        simp only [lmedsLoop, hg, if_false]
    obtain ⟨st', h'⟩ := key
    exact ⟨st', h' fuel hf, h'⟩

/-- The invariant of the loop. -/
structure LInv (U : UserProblem σ M) (indices : List ℤ) (m0 : Option (List ℤ)) (c0 : Option M)
    (st : LmState σ M) : Prop where
  iter : st.failed = false → st.iterations = st.scored.length
  comp : ∀ x ∈ st.scored, IsSampleOf indices U.sampleSize x.1 ∧ (∃ w, (U.compute w x.1).1 = some x.2)
    ∧ ∃ v, IsMedianSq (U.dist x.2 indices) v
  best : (st.model = m0 ∧ st.coeffs = c0 ∧ st.best = dblMax ∧
      ∀ x ∈ st.scored, ∀ v, IsMedianSq (U.dist x.2 indices) v → dblMax ≤ v) ∨
    (∃ pre s m post, st.scored = pre ++ (s, m) :: post ∧ st.model = some s ∧ st.coeffs = some m ∧
      st.best < dblMax ∧ IsMedianSq (U.dist m indices) st.best ∧
      (∀ x ∈ pre, ∀ v, IsMedianSq (U.dist x.2 indices) v → st.best < v) ∧
      (∀ x ∈ post, ∀ v, IsMedianSq (U.dist x.2 indices) v → st.best ≤ v))

theorem linv_score (U : UserProblem σ M) (indices : List ℤ) (m0 : Option (List ℤ)) (c0 : Option M)
    (st st' : LmState σ M) (hI : LInv U indices m0 c0 st) (s : List ℤ) (m : M) (v : ℝ)
    (w : σ × List ℤ × ℕ) (w0 : σ)
    (hs : IsSampleOf indices U.sampleSize s) (hm : (U.compute w0 s).1 = some m)
    (hv : IsMedianSq (U.dist m indices) v)
    (hst : st' = if v < st.best then
          ⟨w, st.iterations + 1, st.skipped, v, some s, some m, st.scored ++ [(s, m)], st.failed⟩
        else ⟨w, st.iterations + 1, st.skipped, st.best, st.model, st.coeffs,
          st.scored ++ [(s, m)], st.failed⟩) : LInv U indices m0 c0 st' := by
  have huniq : ∀ v', IsMedianSq (U.dist m indices) v' → v' = v :=
    fun v' h' => isMedian_unique _ _ _ h' hv
  have hsc : st'.scored = st.scored ++ [(s, m)] := by rw [hst]; split <;> rfl
  have hit : st'.iterations = st.iterations + 1 := by rw [hst]; split <;> rfl
  have hf : st'.failed = st.failed := by rw [hst]; split <;> rfl
  refine ⟨?_, ?_, ?_⟩
  · intro h; rw [hit, hsc, hI.iter (hf ▸ h)]; simp
  · intro x hx
    rw [hsc] at hx
    rcases List.mem_append.1 hx with hx | hx
    · exact hI.comp x hx
    · simp only [List.mem_singleton] at hx
      subst hx
      exact ⟨hs, ⟨w0, hm⟩, ⟨v, hv⟩⟩
  · by_cases hlt : v < st.best
    · rw [if_pos hlt] at hst
      subst hst
      right
      refine ⟨st.scored, s, m, [], rfl, rfl, rfl, ?_, hv, ?_, by simp⟩
      · rcases hI.best with ⟨_, _, hb, _⟩ | ⟨_, _, _, _, _, _, _, hb, _⟩
        · rw [hb] at hlt; exact hlt
        · exact lt_trans hlt hb
      · intro x hx v' hv'
        simp only
        rcases hI.best with ⟨_, _, hb, hall⟩ | ⟨pre, s', m', post, e, _, _, hb, hmed, hpre, hpost⟩
        · have := hall x hx v' hv'
          rw [hb] at hlt
          exact lt_of_lt_of_le hlt this
        · rw [e] at hx
          rcases List.mem_append.1 hx with hx | hx
          · exact lt_trans hlt (hpre x hx v' hv')
          · rcases List.mem_cons.1 hx with rfl | hx
            · rw [isMedian_unique _ _ _ hv' hmed]; exact hlt
            · exact lt_of_lt_of_le hlt (hpost x hx v' hv')
    · rw [if_neg hlt] at hst
      subst hst
      rcases hI.best with ⟨h1, h2, hb, hall⟩ | ⟨pre, s', m', post, e, h1, h2, hb, hmed, hpre, hpost⟩
      · left
        refine ⟨h1, h2, hb, ?_⟩
        intro x hx v' hv'
        rcases List.mem_append.1 hx with hx | hx
        · exact hall x hx v' hv'
        · simp only [List.mem_singleton] at hx
          subst hx
          rw [huniq v' hv', ← hb]; exact not_lt.1 hlt
      · right
        refine ⟨pre, s', m', post ++ [(s, m)], by simp [e], h1, h2, hb, hmed, hpre, ?_⟩
        intro x hx v' hv'
        rcases List.mem_append.1 hx with hx | hx
        · exact hpost x hx v' hv'
        · simp only [List.mem_singleton] at hx
          subst hx
          rw [huniq v' hv']; exact not_lt.1 hlt

/-- The invariant at the end, with the budgets. -/
theorem lmeds_final (U : UserProblem σ M) (rng : ℕ → ℕ) (indices : List ℤ)
    (hdist : ∀ m, (U.dist m indices).length = indices.length) (maxIt : ℤ) (maxSkip : ℕ)
    (obj : RansacObj (σ × List ℤ × ℕ) (List ℤ) M (List ℤ)) (hpool : obj.world.2.1.Perm indices)
    (fuel : ℕ) (st : LmState σ M)
    (h : lmedsLoop (single U rng indices) (fun m => U.dist m indices) maxIt maxSkip fuel
      (lmedsInit obj) = .done st) :
    LInv U indices obj.model obj.coeffs st ∧ (st.scored.length : ℤ) ≤ max maxIt 0 ∧
      st.skipped ≤ maxSkip := by
  refine lmedsLoop_rule _ _ maxIt maxSkip
    (fun st => st.world.2.1.Perm indices ∧ st.failed = false ∧
      LInv U indices obj.model obj.coeffs st ∧ (st.scored.length : ℤ) ≤ max maxIt 0 ∧
      st.skipped ≤ maxSkip)
    (fun st => LInv U indices obj.model obj.coeffs st ∧ (st.scored.length : ℤ) ≤ max maxIt 0 ∧
      st.skipped ≤ maxSkip) ?_ ?_ ?_ fuel _ st ?_ h
  · rintro st st' ⟨i1, i2, i3, i4, i5⟩ hit hsk hb
    have hstep := lmedsBody_step U rng indices hdist st i1
    rw [hb] at hstep
    have hiter := i3.iter i2
    cases hstep with
    | skip w hw => exact ⟨hw, i2, ⟨i3.iter, i3.comp, i3.best⟩, i4, by simp only; omega⟩
    | score s m v w w0 hw' hs hm hv _ hst =>
      have hsc : st'.scored = st.scored ++ [(s, m)] := by rw [hst]; split <;> rfl
      refine ⟨by rw [hst]; split <;> exact hw', by rw [hst]; split <;> exact i2,
        linv_score U indices _ _ st st' i3 s m v w w0 hs hm hv hst, ?_, ?_⟩
      · rw [hsc]; simp only [List.length_append, List.length_singleton]; omega
      · have : st'.skipped = st.skipped := by rw [hst]; split <;> rfl
        omega
  · rintro st st' ⟨i1, i2, i3, i4, i5⟩ hit hsk hb
    have hstep := lmedsBody_step U rng indices hdist st i1
    rw [hb] at hstep
    cases hstep with
    | failTooFew w => exact ⟨⟨by simp, i3.comp, i3.best⟩, i4, i5⟩
    | failEmpty w => exact ⟨⟨by simp, i3.comp, i3.best⟩, i4, i5⟩
  · rintro st ⟨i1, i2, i3, i4, i5⟩ _
    exact ⟨i3, i4, i5⟩
  · refine ⟨hpool, rfl, ⟨fun _ => rfl, ?_, Or.inl ⟨rfl, rfl, rfl, ?_⟩⟩, ?_, ?_⟩ <;>
      simp [lmedsInit]

theorem lmedsInliers_spec : ∀ (ix : List ℤ) (d : List ℝ) (thr : ℝ), d.length = ix.length →
    Selected (· ≤ thr) ix d (lmedsInliers ix d thr) := by
  intro ix
  induction ix with
  | nil =>
    intro d thr h
    have : d = [] := by simpa using h
    subst this
    exact .nil
  | cons a ix ih =>
    intro d thr h
    cases d with
    | nil => simp at h
    | cons x d =>
      have := ih d thr (by simpa using h)
      simp only [lmedsInliers]
      by_cases hx : x ≤ thr
      · simpa [hx] using Selected.keep (P := (· ≤ thr)) hx this
      · simpa [hx] using Selected.skip (P := (· ≤ thr)) hx this

/-- Description of a finished call. -/
theorem lmedsCompute_done (U : UserProblem σ M) (rng : ℕ → ℕ) (indices : List ℤ) (thr : ℝ)
    (hdist : ∀ m, (U.dist m indices).length = indices.length) (maxIt : ℤ)
    (obj : RansacObj (σ × List ℤ × ℕ) (List ℤ) M (List ℤ)) (fuel : ℕ) (r : LmReturn σ M)
    (hthr : thr ≠ dblMax)
    (h : lmedsCompute U rng indices thr maxIt obj fuel = .done r) :
    ∃ maxSkip, maxSkipOf maxIt = some maxSkip ∧
      lmedsLoop (single U rng indices) (fun m => U.dist m indices) maxIt maxSkip fuel
        (lmedsInit obj) = .done r.final ∧
      r.obj.iterations = r.final.iterations ∧ r.obj.model = r.final.model ∧
      r.obj.coeffs = r.final.coeffs ∧
      ((r.final.model = none ∧ r.ret = false ∧ r.obj.inliers = obj.inliers) ∨
       (∃ s m, r.final.model = some s ∧ r.final.coeffs = some m ∧
         ((indices = [] ∧ r.ret = false ∧ r.obj.inliers = obj.inliers) ∨
          (indices ≠ [] ∧ r.ret = true ∧
            r.obj.inliers = lmedsInliers indices (U.dist m indices) thr)))) := by
  unfold lmedsCompute at h
  rw [if_neg hthr] at h
  cases hs : maxSkipOf maxIt with
  | none => simp only [hs] at h; cases h
  | some maxSkip =>
    simp only [hs] at h
    refine ⟨maxSkip, rfl, ?_⟩
    cases hl : lmedsLoop (single U rng indices) (fun m => U.dist m indices) maxIt maxSkip fuel
        (lmedsInit obj) with
    | ub => rw [hl] at h; cases h
    | timeout => rw [hl] at h; cases h
    | done st =>
      rw [hl] at h
      simp only at h
      cases hm : st.model with
      | none =>
        rw [hm] at h
        cases h
        exact ⟨rfl, rfl, hm.symm, rfl, Or.inl ⟨hm, rfl, rfl⟩⟩
      | some s =>
        rw [hm] at h
        simp only at h
        cases hc : st.coeffs with
        | none => rw [hc] at h; cases h
        | some m =>
          rw [hc] at h
          simp only at h
          by_cases hie : indices = []
          · have : (U.dist m indices).isEmpty = true := by
              rw [List.isEmpty_iff, ← List.length_eq_zero_iff, hdist m, hie]; rfl
            rw [if_pos this] at h
            cases h
            exact ⟨rfl, rfl, hm.symm, hc.symm, Or.inr ⟨s, m, hm, hc, Or.inl ⟨hie, rfl, rfl⟩⟩⟩
          · have : ¬ (U.dist m indices).isEmpty = true := by
              rw [List.isEmpty_iff, ← List.length_eq_zero_iff, hdist m, List.length_eq_zero_iff]
              exact hie
            rw [if_neg this, if_neg (by rw [hdist m]; simp)] at h
            cases h
            exact ⟨rfl, rfl, hm.symm, hc.symm, Or.inr ⟨s, m, hm, hc, Or.inr ⟨hie, rfl, rfl⟩⟩⟩

end OpenGV.Sac
