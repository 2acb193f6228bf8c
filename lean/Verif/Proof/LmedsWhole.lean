import Verif.Proof.WholeSac
import Verif.Props.Lmeds

/-!
# Counting with the median, and scored hypotheses of LMedS
-/

namespace OpenGV.Sac

open Spec Props

variable {σ M : Type}

theorem orderStat_le {q : List ℝ} {k : ℕ} {b E : ℝ} (h : IsOrderStat q k b)
    (hE : k < q.countP fun y => y ≤ E) : b ≤ E := by
  by_contra hlt
  have : (q.countP fun y => decide (y ≤ E)) ≤ q.countP fun y => decide (y < b) :=
    List.countP_mono_left fun y _ hy => by
      simp only [decide_eq_true_eq] at hy ⊢
      linarith
  have := h.2.1
  omega

theorem countP_le_mono (q : List ℝ) {a b : ℝ} (h : a ≤ b) :
    (q.countP fun y => decide (y ≤ a)) ≤ q.countP fun y => decide (y ≤ b) :=
  List.countP_mono_left fun y _ hy => by
    simp only [decide_eq_true_eq] at hy ⊢
    linarith

/-- A bound for more than half of the entries bounds the median. -/
theorem median_le {q : List ℝ} {v E : ℝ} (h : IsMedian q v)
    (hE : q.length / 2 < q.countP fun y => y ≤ E) : v ≤ E := by
  rcases h with ⟨-, h⟩ | ⟨-, a, b, ha, hb, rfl⟩
  · exact orderStat_le h hE
  · have := orderStat_le ha (lt_of_le_of_lt (Nat.sub_le _ _) hE)
    have := orderStat_le hb hE
    linarith

/-- Conversely a bound of the median bounds half of the entries, and twice the bound more than half. -/
theorem le_of_median {q : List ℝ} {v E : ℝ} (h : IsMedian q v) (hv : v ≤ E) (h0 : ∀ y ∈ q, 0 ≤ y)
    (hne : q ≠ []) :
    (q.length + 1) / 2 ≤ (q.countP fun y => y ≤ E) ∧ q.length / 2 < q.countP fun y => y ≤ 2 * E := by
  have hpos := List.length_pos_iff.2 hne
  rcases h with ⟨hodd, h⟩ | ⟨heven, a, b, ha, hb, rfl⟩
  · have h1 := h.2.2
    have h2 := countP_le_mono q hv
    have h3 := h0 v h.1
    have h4 := countP_le_mono q (show E ≤ 2 * E by linarith)
    omega
  · have hab : a ≤ b := orderStat_le ha (lt_of_le_of_lt (Nat.sub_le _ _) hb.2.2)
    have h1 := ha.2.2
    have h2 := countP_le_mono q (show a ≤ E by linarith)
    have h3 := h0 a ha.1
    have h4 := countP_le_mono q (show b ≤ 2 * E by linarith)
    have h5 := hb.2.2
    omega

theorem countP_sq (d : List ℝ) {e E : ℝ} (he : 0 ≤ e) (hE : E = e ^ 2) :
    ((d.map fun x => (max x 0) ^ 2).countP fun y => decide (y ≤ E)) = d.countP fun x => decide (x ≤ e) := by
  rw [List.countP_map]
  refine List.countP_congr fun x _ => ?_
  simp only [Function.comp, decide_eq_true_eq, hE]
  rw [pow_le_pow_iff_left₀ (le_max_right _ _) he two_ne_zero, max_le_iff]
  exact ⟨fun h => h.1, fun h => ⟨h, he⟩⟩

theorem countP_and (p q : ℤ → Bool) (l : List ℤ) :
    l.countP p + l.countP q ≤ (l.countP fun i => p i && q i) + l.length := by
  induction l with
  | nil => simp
  | cons i is ih =>
    simp only [List.countP_cons, List.length_cons]
    cases p i <;> cases q i <;> simp <;> omega

/-- Three different entries from a count. -/
theorem three_of_countP (p : ℤ → Bool) (l : List ℤ) (hl : l.Nodup) (h : 3 ≤ l.countP p) :
    ∃ a b c, (a ∈ l ∧ p a = true) ∧ (b ∈ l ∧ p b = true) ∧ (c ∈ l ∧ p c = true) ∧
      a ≠ b ∧ a ≠ c ∧ b ≠ c := by
  rw [List.countP_eq_length_filter] at h
  have hm : ∀ i ∈ l.filter p, i ∈ l ∧ p i = true := fun i hi => List.mem_filter.1 hi
  have hn := hl.filter p
  match e : l.filter p with
  | [] | [_] | [_, _] => rw [e] at h; simp at h
  | a :: b :: c :: t =>
    rw [e] at hm hn
    simp only [List.nodup_cons, List.mem_cons, not_or] at hn
    exact ⟨a, b, c, hm a (by simp), hm b (by simp), hm c (by simp), hn.1.1, hn.1.2.1, hn.2.1.1⟩

theorem two_of_countP (p : ℤ → Bool) (l : List ℤ) (hl : l.Nodup) (h : 2 ≤ l.countP p) :
    ∃ a b, (a ∈ l ∧ p a = true) ∧ (b ∈ l ∧ p b = true) ∧ a ≠ b := by
  rw [List.countP_eq_length_filter] at h
  have hm : ∀ i ∈ l.filter p, i ∈ l ∧ p i = true := fun i hi => List.mem_filter.1 hi
  have hn := hl.filter p
  match e : l.filter p with
  | [] | [_] => rw [e] at h; simp at h
  | a :: b :: t =>
    rw [e] at hm hn
    simp only [List.nodup_cons, List.mem_cons, not_or] at hn
    exact ⟨a, b, hm a (by simp), hm b (by simp), hn.1.1⟩

/-- The scored hypotheses of LMedS. -/
theorem lmeds_scored (U : UserProblem σ M) (rng : ℕ → ℕ) (indices : List ℤ) (thr : ℝ)
    (hthr : thr ≠ dblMax) (maxIt : ℤ) (hdist : ∀ m, (U.dist m indices).length = indices.length)
    (obj : RansacObj (σ × List ℤ × ℕ) (List ℤ) M (List ℤ)) (hpool : obj.world.2.1.Perm indices)
    (fuel : ℕ) (r : LmReturn σ M) (h : lmedsCompute U rng indices thr maxIt obj fuel = .done r)
    (x : List ℤ × M) (hx : x ∈ r.final.scored) :
    x.1.length = U.sampleSize ∧ x.1.Subperm indices ∧ ∃ w, (U.compute w x.1).1 = some x.2 := by
  obtain ⟨maxSkip, _, hl, -⟩ := lmedsCompute_done U rng indices thr hdist maxIt obj fuel r hthr h
  obtain ⟨hI, -⟩ := lmeds_final U rng indices hdist maxIt maxSkip obj hpool fuel _ hl
  obtain ⟨h1, h2, -⟩ := hI.comp x hx
  exact ⟨h1.1, isSampleOf_subperm h1, h2⟩

/-- A first sample that gives a hypothesis is scored. -/
theorem lmeds_scores_first (U : UserProblem σ M) (rng : ℕ → ℕ) (indices : List ℤ) (hne : indices ≠ [])
    (thr : ℝ) (hthr : thr ≠ dblMax) (maxIt : ℤ) (hmax : 1 ≤ maxIt) (hbig : 10 * maxIt ≤ intMax)
    (hdist : ∀ m, (U.dist m indices).length = indices.length)
    (obj : RansacObj (σ × List ℤ × ℕ) (List ℤ) M (List ℤ)) (s : List ℤ) (hs : s ≠ [])
    (w : σ × List ℤ × ℕ) (hw : w.2.1.Perm indices)
    (hget : (single U rng indices).getSamples obj.world = some (.sample s, w)) (m : M)
    (hm : (U.compute w.1 s).1 = some m) (fuel : ℕ) (r : LmReturn σ M)
    (h : lmedsCompute U rng indices thr maxIt obj fuel = .done r) : (s, m) ∈ r.final.scored := by
  obtain ⟨maxSkip, hms, hl, -⟩ := lmedsCompute_done U rng indices thr hdist maxIt obj fuel r hthr h
  have hsk : 0 < maxSkip := by
    have := maxSkipOf_nonneg maxIt (by omega) maxSkip hms
    omega
  cases fuel with
  | zero => simp [lmedsLoop] at hl
  | succ fuel =>
    rw [lmedsLoop, if_pos ⟨by simp only [lmedsInit]; omega, by simpa [lmedsInit] using hsk⟩] at hl
    obtain ⟨st1, hb, hmem, hp⟩ : ∃ st1, lmedsBody (single U rng indices) (fun m => U.dist m indices)
        (lmedsInit obj) = .cont st1 ∧ (s, m) ∈ st1.scored ∧ st1.world.2.1.Perm indices := by
      obtain ⟨v, hv, -⟩ := lmedsPenalty_spec indices.length (U.dist m indices) (hdist m)
        (List.length_pos_iff.2 hne)
      obtain ⟨w0, pool, pos⟩ := w
      have hg : (single U rng indices).getSamples (lmedsInit obj).world = some (.sample s, w0, pool, pos) :=
        hget
      have he : (single U rng indices).isEmpty s = false := by simpa [single] using hs
      have hc : (single U rng indices).compute (w0, pool, pos) s = (some m, (U.compute w0 s).2, pool, pos) := by
        simp only [single]
        rw [← hm]
      have hnum : (single U rng indices).numIndices = indices.length := rfl
      unfold lmedsBody
      rw [hg]
      simp only [he, Bool.false_eq_true, if_false, lmedsScore, hc, hnum, hv]
      refine ⟨_, rfl, ?_, ?_⟩
      · dsimp only
        split <;> simp
      · dsimp only
        split <;> exact hw
    rw [hb] at hl
    refine lmedsLoop_rule _ _ maxIt maxSkip (fun st => st.world.2.1.Perm indices ∧ (s, m) ∈ st.scored)
      (fun st => (s, m) ∈ st.scored) ?_ ?_ (fun st h _ => h.2) fuel st1 _ ⟨hp, hmem⟩ hl
    · rintro st st' ⟨i1, i2⟩ - - hb
      have hstep := lmedsBody_step U rng indices hdist st i1
      rw [hb] at hstep
      cases hstep with
      | skip w hw => exact ⟨hw, i2⟩
      | score s m v w w0 hw' hs hm hv _ hst =>
        refine ⟨by rw [hst]; split <;> exact hw', ?_⟩
        have hsc : st'.scored = st.scored ++ [(s, m)] := by rw [hst]; split <;> rfl
        rw [hsc]
        exact List.mem_append_left _ i2
    · rintro st st' ⟨i1, i2⟩ - - hb
      have hstep := lmedsBody_step U rng indices hdist st i1
      rw [hb] at hstep
      cases hstep with
      | failTooFew w => exact i2
      | failEmpty w => exact i2

theorem selected_length (Q : ℝ → Prop) [DecidablePred Q] :
    ∀ (indices : List ℤ) (d : List ℝ) (ins : List ℤ), Selected Q indices d ins →
      ins.length = d.countP fun x => decide (Q x) := by
  intro indices d ins h
  induction h with
  | nil => rfl
  | keep hq _ ih => simp [List.countP_cons, hq, ih]
  | skip hq _ ih => simp [List.countP_cons, hq, ih]

end OpenGV.Sac
