import Verif.Proof.MultiAdapter

namespace OpenGV.MultiAdapter

/-- The serial indices not yet used, given the per-camera counters. -/
def remaining (off : ℕ → ℕ) : ℕ → List ℕ → List (List ℕ) → List ℕ
  | f, t :: ts, ix :: ixs => (ix.drop t).map (fun c => off f + c) ++ remaining off (f + 1) ts ixs
  | _, _, _ => []

theorem remaining_zero (off : ℕ → ℕ) : ∀ (indices : List (List ℕ)) (f : ℕ),
    remaining off f (List.replicate indices.length 0) indices =
      (indices.zipIdx f).flatMap (fun p => p.1.map (fun c => off p.2 + c)) := by
  intro indices
  induction indices with
  | nil => intro f; simp [remaining]
  | cons ix ixs ih =>
    intro f
    simp only [List.length_cons, List.replicate_succ, remaining, List.zipIdx_cons,
      List.flatMap_cons, List.drop_zero]
    rw [ih]

theorem remaining_done (off : ℕ → ℕ) : ∀ (temp : List ℕ) (indices : List (List ℕ)) (f : ℕ),
    allDone temp indices = some true → remaining off f temp indices = [] := by
  intro temp
  induction temp with
  | nil => intro indices f _; rfl
  | cons t ts ih =>
    intro indices f h
    cases indices with
    | nil => rfl
    | cons ix ixs =>
      rw [allDone] at h
      split at h
      · simp at h
      · rw [remaining, ih ixs (f + 1) h, List.drop_eq_nil_of_le (by omega)]
        rfl

theorem allDone_total : ∀ (temp : List ℕ) (indices : List (List ℕ)),
    temp.length = indices.length → allDone temp indices = some true ∨
      (allDone temp indices = some false ∧
        ∃ (j t : ℕ) (ix : List ℕ), temp[j]? = some t ∧ indices[j]? = some ix ∧ t < ix.length) := by
  intro temp
  induction temp with
  | nil => intro indices _; exact .inl rfl
  | cons t ts ih =>
    intro indices h
    cases indices with
    | nil => simp at h
    | cons ix ixs =>
      rw [allDone]
      split
      · rename_i hlt
        exact .inr ⟨rfl, 0, t, ix, rfl, rfl, hlt⟩
      · rcases ih ixs (by simpa using h) with h1 | ⟨h1, j, t', ix', a, b, c⟩
        · exact .inl h1
        · exact .inr ⟨h1, j + 1, t', ix', by simpa using a, by simpa using b, c⟩

theorem remaining_bump (off : ℕ → ℕ) : ∀ (temp : List ℕ) (indices : List (List ℕ)) (f b t : ℕ)
    (ix : List ℕ) (ht : temp[b]? = some t) (hix : indices[b]? = some ix) (hlt : t < ix.length),
    (remaining off f temp indices).Perm
      ((off (f + b) + ix[t]) :: remaining off f (temp.set b (t + 1)) indices) := by
  intro temp
  induction temp with
  | nil => intro _ _ b _ _ h; simp at h
  | cons t0 ts ih =>
    intro indices f b t ix ht hix hlt
    cases indices with
    | nil => simp at hix
    | cons ix0 ixs =>
      cases b with
      | zero =>
        simp only [List.getElem?_cons_zero, Option.some.injEq] at ht hix
        subst ht hix
        simp only [List.set_cons_zero, remaining]
        rw [List.drop_eq_getElem_cons hlt]
        simp only [List.map_cons, List.cons_append, Nat.add_zero]
        exact List.Perm.refl _
      | succ b =>
        simp only [List.getElem?_cons_succ] at ht hix
        have := ih ixs (f + 1) b t ix ht hix hlt
        simp only [List.set_cons_succ, remaining]
        refine (List.Perm.append_left _ this).trans ?_
        rw [show f + 1 + b = f + (b + 1) by omega]
        exact List.perm_middle

theorem seekBin_spec (temp : List ℕ) (indices : List (List ℕ)) (hl : temp.length = indices.length)
    (j t : ℕ) (ix : List ℕ) (ht : temp[j]? = some t) (hix : indices[j]? = some ix)
    (hlt : t < ix.length) : ∀ (d fuel bin : ℕ), bin < indices.length → d < fuel →
    (bin + d) % indices.length = j →
    ∃ (b t' : ℕ) (ix' : List ℕ), seekBin temp indices fuel bin = .ok b ∧ temp[b]? = some t' ∧
      indices[b]? = some ix' ∧ t' < ix'.length := by
  intro d
  induction d with
  | zero =>
    intro fuel bin hb hf hj
    obtain ⟨fuel, rfl⟩ := Nat.exists_eq_succ_of_ne_zero (by omega : fuel ≠ 0)
    rw [Nat.add_zero, Nat.mod_eq_of_lt hb] at hj
    subst hj
    exact ⟨bin, t, ix, by simp [seekBin, ht, hix, hlt], ht, hix, hlt⟩
  | succ d ih =>
    intro fuel bin hb hf hj
    obtain ⟨fuel, rfl⟩ := Nat.exists_eq_succ_of_ne_zero (by omega : fuel ≠ 0)
    have h1 : temp[bin]? = some temp[bin] := List.getElem?_eq_getElem (by omega)
    have h2 : indices[bin]? = some indices[bin] := List.getElem?_eq_getElem hb
    by_cases hc : temp[bin] < indices[bin].length
    · exact ⟨bin, _, _, by simp [seekBin, h1, h2, hc], h1, h2, hc⟩
    · have hb' : (if bin + 1 ≥ indices.length then 0 else bin + 1) < indices.length := by
        split <;> omega
      obtain ⟨b, t', ix', a, r⟩ := ih fuel _ hb' (by omega) (by
        rw [← hj]
        split
        · have : bin + (d + 1) = d + indices.length := by omega
          rw [this, Nat.add_mod_right, Nat.zero_add]
        · congr 1; omega)
      refine ⟨b, t', ix', ?_, r⟩
      simp only [seekBin, h1, h2]
      rw [if_pos (by omega), a]

theorem sixptLoop_spec (tb : Tables) (off : ℕ → ℕ) (indices : List (List ℕ))
    (hoff : ∀ j, j < indices.length → tb.offsets[j]? = some (off j)) :
    ∀ (m fuel bin : ℕ) (temp acc : List ℕ), temp.length = indices.length →
      (indices = [] ∨ bin < indices.length) → (remaining off 0 temp indices).length = m →
      m + indices.length < fuel →
      ∃ out, sixptLoop tb indices fuel bin temp acc = .ok (acc ++ out) ∧
        out.Perm (remaining off 0 temp indices) := by
  intro m
  induction m with
  | zero =>
    intro fuel bin temp acc hl hb hm hf
    obtain ⟨fuel, rfl⟩ := Nat.exists_eq_succ_of_ne_zero (by omega : fuel ≠ 0)
    rcases allDone_total temp indices hl with h | ⟨h, j, t, ix, a, b, c⟩
    · exact ⟨[], by simp [sixptLoop, h], by rw [List.length_eq_zero_iff.1 hm]⟩
    · have := (remaining_bump off temp indices 0 j t ix a b c).length_eq
      simp [hm] at this
  | succ m ih =>
    intro fuel bin temp acc hl hb hm hf
    obtain ⟨fuel, rfl⟩ := Nat.exists_eq_succ_of_ne_zero (by omega : fuel ≠ 0)
    rcases allDone_total temp indices hl with h | ⟨h, j, t, ix, ht, hix, hlt⟩
    · rw [remaining_done off temp indices 0 h] at hm
      simp at hm
    · have hjl : j < indices.length := (List.getElem?_eq_some_iff.1 hix).1
      have hbl : bin < indices.length := by
        rcases hb with rfl | hb
        · simp at hjl
        · exact hb
      obtain ⟨b, t', ix', e, ht', hix', hlt'⟩ := seekBin_spec temp indices hl j t ix ht hix hlt
        ((j + indices.length - bin) % indices.length) (fuel + 1) bin hbl
        (lt_of_lt_of_le (Nat.mod_lt _ (by omega)) (by omega)) (by
          rw [Nat.add_mod_mod, show bin + (j + indices.length - bin) = j + indices.length by omega,
            Nat.add_mod_right, Nat.mod_eq_of_lt hjl])
      have hbl' : b < indices.length := (List.getElem?_eq_some_iff.1 hix').1
      have hbt : b < temp.length := by omega
      have htb : temp[b] = t' := by
        have := List.getElem?_eq_getElem hbt
        rw [ht'] at this
        exact (Option.some.inj this).symm
      have hbump : bump temp b = some (temp.set b (t' + 1)) := by rw [bump_eq _ _ hbt, htb]
      have hperm := remaining_bump off temp indices 0 b t' ix' ht' hix' hlt'
      have hlen := hperm.length_eq
      simp only [List.length_cons, hm] at hlen
      obtain ⟨out, o1, o2⟩ := ih fuel (if b + 1 ≥ indices.length then 0 else b + 1)
        (temp.set b (t' + 1)) (acc ++ [off b + ix'[t']]) (by simpa using hl)
        (.inr (by split <;> omega)) (by omega) (by omega)
      have hgm : getMulti indices b (temp.getD b 0) = some ix'[t'] := by
        simp [getMulti, hix', ht', hlt', List.getD]
      refine ⟨(off b + ix'[t']) :: out, ?_, ?_⟩
      · rw [sixptLoop]
        simp only [h, e, ht', hgm, hbump, convertMultiIndex, hoff b hbl']
        rw [o1, List.append_assoc]
        rfl
      · rw [Nat.zero_add] at hperm
        exact (List.Perm.cons _ o2).trans hperm.symm

end OpenGV.MultiAdapter
