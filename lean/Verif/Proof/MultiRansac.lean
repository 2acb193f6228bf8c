import Verif.Model.MultiRansac
import Verif.Proof.RansacSingle

namespace OpenGV.Sac
open OpenGV.Spec

variable {σ M : Type}

theorem isSampleOf_perm {pool ix : List ℤ} (h : pool.Perm ix) {s : List ℤ} (hs : s.Subperm pool) :
    IsSampleOf ix s.length s :=
  ⟨rfl, Props.isSampleOf_of_subperm _ _ (hs.trans h.subperm)⟩

theorem multiDraw_spec (rng : ℕ → ℕ) : ∀ (sizes : List ℕ) (indices pools : List (List ℤ)) (pos : ℕ),
    List.Forall₂ List.Perm pools indices → multiCheck sizes indices = some true →
    ∃ s pools' pos', multiDraw rng sizes pos pools = some (s, pools', pos') ∧
      List.Forall₂ List.Perm pools' indices ∧ IsMultiSampleOf indices sizes s := by
  intro sizes
  induction sizes with
  | nil =>
    intro indices pools pos hp _
    exact ⟨[], pools, pos, rfl, hp, rfl, by simp⟩
  | cons k ks ih =>
    intro indices pools pos hp hc
    cases hp with
    | nil => simp [multiCheck] at hc
    | @cons pool ix pools ixs hp1 hps =>
      simp only [multiCheck] at hc
      split at hc
      · cases hc
      · rename_i hk
        have hl := hp1.length_eq
        have hd := drawIndexSample_eq rng k pos pool (by omega)
        obtain ⟨ss, pools', pos', h1, h2, h3, h4⟩ := ih ixs pools (pos + k) hps hc
        simp only [multiDraw, hd, h1]
        refine ⟨_, _, _, rfl, .cons ((pick_perm rng k pos pool).trans hp1) h2, by simp [h3], ?_⟩
        intro j ix' k' t hix hk' ht
        cases j with
        | zero =>
          simp only [List.getElem?_cons_zero, Option.some.injEq] at hix hk' ht
          subst hix hk' ht
          have hlen := pick_length rng k pos pool (by omega)
          have hsp : (pick rng k pos pool).1.Subperm pool :=
            (List.sublist_append_left _ _).subperm.trans (pick_perm rng k pos pool).subperm
          have := isSampleOf_perm hp1 hsp
          rwa [hlen] at this
        | succ j =>
          simp only [List.getElem?_cons_succ] at hix hk' ht
          exact h4 j ix' k' t hix hk' ht

theorem multiGetSamplesLoop_spec (rng : ℕ → ℕ) (good : List (List ℤ) → Bool) (sizes : List ℕ)
    (indices : List (List ℤ)) (hc : multiCheck sizes indices = some true) :
    ∀ (n pos : ℕ) (pools : List (List ℤ)), List.Forall₂ List.Perm pools indices →
    ∃ res pools' pos', multiGetSamplesLoop rng good sizes n pos pools = some (res, pools', pos') ∧
      List.Forall₂ List.Perm pools' indices ∧
      ∀ s, res = .sample s → IsMultiSampleOf indices sizes s ∧ good s = true := by
  intro n
  induction n with
  | zero => intro pos pools hp; exact ⟨_, _, _, rfl, hp, by simp⟩
  | succ n ih =>
    intro pos pools hp
    obtain ⟨s, pools', pos', h1, h2, h3⟩ := multiDraw_spec rng sizes indices pools pos hp hc
    simp only [multiGetSamplesLoop, h1]
    by_cases hg : good s
    · simp only [hg, if_true]
      refine ⟨_, _, _, rfl, h2, ?_⟩
      intro s' hs'
      cases hs'
      exact ⟨h3, hg⟩
    · simp only [hg, if_false, Bool.false_eq_true]
      exact ih pos' pools' h2

theorem multiCheck_total : ∀ (sizes : List ℕ) (indices : List (List ℤ)),
    sizes.length ≤ indices.length → ∃ b, multiCheck sizes indices = some b := by
  intro sizes
  induction sizes with
  | nil => intro ixs _; exact ⟨true, rfl⟩
  | cons k ks ih =>
    intro ixs h
    cases ixs with
    | nil => simp at h
    | cons ix ixs =>
      simp only [multiCheck]
      split
      · exact ⟨_, rfl⟩
      · exact ih ixs (by simpa using h)

/-- When the size check reports too few, some group is really too small. -/
theorem multiCheck_false : ∀ (sizes : List ℕ) (indices : List (List ℤ)),
    multiCheck sizes indices = some false →
    ∃ (j k : ℕ) (ix : List ℤ), indices[j]? = some ix ∧ sizes[j]? = some k ∧ ix.length < k := by
  intro sizes
  induction sizes with
  | nil => intro ixs h; simp [multiCheck] at h
  | cons k ks ih =>
    intro ixs h
    cases ixs with
    | nil => simp [multiCheck] at h
    | cons ix ixs =>
      simp only [multiCheck] at h
      split at h
      · rename_i hk; exact ⟨0, k, ix, rfl, rfl, hk⟩
      · obtain ⟨j, k', ix', h1, h2, h3⟩ := ih ixs h
        exact ⟨j + 1, k', ix', h1, h2, h3⟩

theorem multi_getSamples (U : MultiUserProblem σ M) (rng : ℕ → ℕ) (indices : List (List ℤ))
    (hsz : ∀ w, (U.sampleSizes w).1.length ≤ indices.length)
    (w : σ × List (List ℤ) × ℕ) (hw : List.Forall₂ List.Perm w.2.1 indices) :
    ∃ res w', (multi U rng indices).getSamples w = some (res, w') ∧
      List.Forall₂ List.Perm w'.2.1 indices ∧
      ∀ s, res = .sample s → ∃ w0, IsMultiSampleOf indices (U.sampleSizes w0).1 s := by
  obtain ⟨w, pools, pos⟩ := w
  simp only at hw
  rcases hs : U.sampleSizes w with ⟨sizes, w1⟩
  have hsz' := hsz w
  rw [hs] at hsz'
  obtain ⟨b, hb⟩ := multiCheck_total sizes indices hsz'
  cases b with
  | false =>
    refine ⟨.tooFew, (w1, pools, pos), ?_, hw, by simp⟩
    simp only [multi, hs, multiGetSamples, hb]
  | true =>
    obtain ⟨res, pools', pos', h1, h2, h3⟩ := multiGetSamplesLoop_spec rng (U.isSampleGood w1) sizes
      indices hb maxSampleChecks pos pools hw
    refine ⟨res, (w1, pools', pos'), ?_, h2, ?_⟩
    · simp only [multi, hs, multiGetSamples, hb, h1]
    · intro s hs'
      refine ⟨w, ?_⟩
      rw [hs]
      exact (h3 s hs').1

theorem multi_safe (U : MultiUserProblem σ M) (rng : ℕ → ℕ) (indices : List (List ℤ))
    (hsz : ∀ w, (U.sampleSizes w).1.length ≤ indices.length) :
    SafeProblem (multi U rng indices) (fun w => List.Forall₂ List.Perm w.2.1 indices) := by
  refine ⟨?_, ?_, ?_⟩
  · intro w hw
    obtain ⟨res, w', h, h', _⟩ := multi_getSamples U rng indices hsz w hw
    exact ⟨res, w', h, h'⟩
  · rintro ⟨w, pool, pos⟩ s hw; exact hw
  · rintro ⟨w, pool, pos⟩ m hw; exact hw

theorem selected_filter (thr : ℝ) : ∀ (ix : List ℤ) (d : List ℝ), d.length = ix.length →
    Selected (· < thr) ix d (((ix.zip d).filter (fun p => decide (p.2 < thr))).map Prod.fst) := by
  intro ix
  induction ix with
  | nil =>
    intro d h1
    have : d = [] := by simpa using h1
    subst this; exact .nil
  | cons a ix ih =>
    intro d h1
    cases d with
    | nil => simp at h1
    | cons x d =>
      have := ih d (by simpa using h1)
      by_cases hx : x < thr
      · simpa [hx] using Selected.keep (P := (· < thr)) hx this
      · simpa [hx] using Selected.skip (P := (· < thr)) hx this

/-- Per-group exactness of `selectWithinDistance`. -/
theorem multiSelect_spec (thr : ℝ) : ∀ (indices : List (List ℤ)) (dist : List (List ℝ)),
    List.Forall₂ (fun ix d => d.length = ix.length) indices dist →
    ∃ ins, multiSelect indices dist thr = some ins ∧ ins.length = indices.length ∧
      (∀ (j : ℕ) (ix : List ℤ) (d : List ℝ) (t : List ℤ), indices[j]? = some ix → dist[j]? = some d → ins[j]? = some t →
        Selected (· < thr) ix d t) ∧
      (ins.map List.length).sum = multiCount indices dist thr := by
  intro indices dist h
  induction h with
  | nil => exact ⟨[], rfl, rfl, by simp, rfl⟩
  | @cons ix d ixs ds h1 _ ih =>
    obtain ⟨ins, e, hl, hsel, hsum⟩ := ih
    have hs := selectWithinDistance_eq ix d thr (by omega)
    have hcount := filter_zip_length ix d thr (by omega)
    refine ⟨((ix.zip d).filter (fun p => decide (p.2 < thr))).map Prod.fst :: ins,
      by simp only [multiSelect, hs, e], by simp [hl], ?_, ?_⟩
    · intro j ix' d' t hix hd ht
      cases j with
      | zero =>
        simp only [List.getElem?_cons_zero, Option.some.injEq] at hix hd ht
        subst hix hd ht
        exact selected_filter thr ix d h1
      | succ j =>
        simp only [List.getElem?_cons_succ] at hix hd ht
        exact hsel j ix' d' t hix hd ht
    · simp only [List.map_cons, List.sum_cons, hsum, multiCount, countWithinDistance_eq, hcount]

theorem multiCount_eq (thr : ℝ) : ∀ (indices : List (List ℤ)) (dist : List (List ℝ)),
    dist.length = indices.length →
    multiCount indices dist thr = (dist.map (fun d => support d thr)).sum := by
  intro indices
  induction indices with
  | nil => intro d h; have : d = [] := by simpa using h
           subst this; rfl
  | cons ix ixs ih =>
    intro d h
    cases d with
    | nil => simp at h
    | cons d ds =>
      simp only [multiCount, List.map_cons, List.sum_cons, support_eq]
      rw [ih ds (by simpa using h)]

end OpenGV.Sac
