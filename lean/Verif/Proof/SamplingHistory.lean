import Verif.Model.SamplingHistory
import Verif.Spec.Sampling
import Verif.Proof.Sampling

/-! Invariants of histories of calls. -/

namespace OpenGV.Props

open OpenGV.Sac OpenGV.Spec

theorem isSampleOf_of_subperm (ix s : List ℤ) (h : s.Subperm ix) :
    ∃ f : Fin s.length → Fin ix.length, Function.Injective f ∧ ∀ i, s.get i = ix.get (f i) := by
  induction s generalizing ix with
  | nil => exact ⟨fun i => i.elim0, fun i => i.elim0, fun i => i.elim0⟩
  | cons a s ih =>
    have ha : a ∈ ix := h.subset (by simp)
    obtain ⟨r, hr, hra⟩ := List.getElem_of_mem ha
    have hp : (a :: ix.eraseIdx r).Perm ix := by
      rw [← hra]; exact List.getElem_cons_eraseIdx_perm hr
    have hsub : s.Subperm (ix.eraseIdx r) :=
      List.subperm_cons a |>.1 (h.trans hp.symm.subperm)
    obtain ⟨f, hf, hfe⟩ := ih _ hsub
    have hle : (ix.eraseIdx r).length + 1 = ix.length := by
      rw [List.length_eraseIdx_of_lt hr]; omega
    let g : Fin s.length → Fin ix.length := fun i =>
      ⟨if (f i).1 < r then (f i).1 else (f i).1 + 1, by have := (f i).2; split <;> omega⟩
    have hg : ∀ i, (g i).1 ≠ r := by
      intro i; simp only [g]; split <;> omega
    have hginj : Function.Injective g := by
      intro i j hij
      apply hf
      have := congrArg Fin.val hij
      simp only [g] at this
      apply Fin.ext
      split at this <;> split at this <;> omega
    refine ⟨fun i => Fin.cases ⟨r, hr⟩ g i, ?_, ?_⟩
    · intro i j
      refine Fin.cases ?_ (fun i => ?_) i <;> refine Fin.cases ?_ (fun j => ?_) j
      · intro _; rfl
      · intro h; exact absurd (congrArg Fin.val h).symm (hg j)
      · intro h; exact absurd (congrArg Fin.val h) (hg i)
      · intro h; exact congrArg Fin.succ (hginj h)
    · intro i
      refine Fin.cases ?_ (fun i => ?_) i
      · simp [hra]
      · have := hfe i
        simp only [List.get_eq_getElem, Fin.val_succ, List.getElem_cons_succ, Fin.cases_succ] at this ⊢
        rw [this, List.getElem_eraseIdx]
        simp only [g]
        split <;> simp_all

theorem getSamples_spec (rng : ℕ → ℕ) (good : List ℤ → Bool) (k : ℕ) (st : IndexState)
    (hp : st.pool.Perm st.indices) :
    ∃ res pool' pos', Sac.getSamples rng good k st.indices st.pos st.pool = some (res, pool', pos') ∧
      pool'.Perm st.indices ∧
      ((st.indices.length < k ∧ res = .tooFew) ∨
        (k ≤ st.indices.length ∧ (res = .empty ∨
          ∃ s, res = .sample s ∧ good s = true ∧ s.length = k ∧ s.Subperm st.indices))) := by
  unfold Sac.getSamples
  by_cases h : st.indices.length < k
  · simp only [h, if_true]
    exact ⟨_, _, _, rfl, hp, Or.inl ⟨trivial, rfl⟩⟩
  · simp only [h, if_false]
    obtain ⟨res, pool', pos', h1, h2, _, _, h5⟩ :=
      getSamplesLoop_spec rng good k maxSampleChecks st.pos st.pool (by rw [hp.length_eq]; omega)
    refine ⟨res, pool', pos', h1, h2.trans hp, Or.inr ⟨by omega, ?_⟩⟩
    rcases h5 with h5 | ⟨s, e, g, l, sp⟩
    · exact Or.inl h5
    · exact Or.inr ⟨s, e, g, l, sp.trans hp.subperm⟩

theorem call_inv (rng : ℕ → ℕ) (st : IndexState) (c : Call) (h : st.pool.Perm st.indices) :
    ∃ st', call rng st c = some st' ∧ st'.pool.Perm st'.indices := by
  cases c with
  | setIndices ix => exact ⟨_, rfl, List.Perm.refl _⟩
  | setUniformIndices N => exact ⟨_, rfl, List.Perm.refl _⟩
  | getSamples good k =>
    obtain ⟨res, pool', pos', h1, h2, _⟩ := getSamples_spec rng good k st h
    simp only [call, h1]
    exact ⟨_, rfl, h2⟩

theorem calls_inv (rng : ℕ → ℕ) : ∀ (cs : List Call) (st : IndexState),
    st.pool.Perm st.indices →
    ∃ st', calls rng st cs = some st' ∧ st'.pool.Perm st'.indices := by
  intro cs
  induction cs with
  | nil => intro st h; exact ⟨st, rfl, h⟩
  | cons c cs ih =>
    intro st h
    obtain ⟨st1, e1, h1⟩ := call_inv rng st c h
    simp only [calls, e1]
    exact ih st1 h1

theorem calls_indices (rng : ℕ → ℕ) (cs : List Call) : ∀ st st',
    calls rng st cs = some st' → st'.indices = cs.foldl (fun acc c => match c with
      | .setIndices ix => ix
      | .setUniformIndices N => (List.range N).map Int.ofNat
      | .getSamples _ _ => acc) st.indices := by
  induction cs with
  | nil => intro st st' h; simp only [calls, Option.some.injEq] at h; simp [h]
  | cons c cs ih =>
    intro st st' h
    simp only [calls] at h
    cases hc : call rng st c with
    | none => simp [hc] at h
    | some st1 =>
      rw [hc] at h
      rw [ih _ _ h, List.foldl_cons]
      congr 1
      cases c with
      | setIndices ix => simp only [call, Option.some.injEq] at hc; simp [← hc, Sac.setIndices]
      | setUniformIndices N =>
        simp only [call, Option.some.injEq] at hc; simp [← hc, Sac.setUniformIndices]
      | getSamples g k =>
        simp only [call] at hc
        split at hc
        · cases hc
        · cases hc; rfl

theorem lastIndices_eq (rng : ℕ → ℕ) (cs : List Call) (st' : IndexState)
    (h : calls rng fresh cs = some st') : st'.indices = lastIndices cs := by
  rw [calls_indices rng cs _ _ h]
  cases cs <;> rfl

end OpenGV.Props
