import Verif.Model.Sampling
import Mathlib.Data.List.Perm.Basic
import Mathlib.Data.List.Perm.Subperm
import Mathlib.Data.Multiset.Basic
import Mathlib.Data.Multiset.AddSub

/-! Helper lemmas on the in-place partial shuffle. -/

namespace OpenGV.Sac

/-- What one round does to the part of the pool that is still being shuffled:
the element at position `r` comes to the front, the former front takes its place. -/
def bringFront (l : List ℤ) (r : ℕ) : List ℤ :=
  match l with
  | [] => []
  | a :: t => match r with
    | 0 => t
    | r + 1 => t.set r a

theorem bringFront_length {l : List ℤ} {r : ℕ} (h : l ≠ []) :
    (bringFront l r).length + 1 = l.length := by
  cases l with
  | nil => exact absurd rfl h
  | cons a t => cases r <;> simp [bringFront]

theorem set_perm_cons (a : ℤ) : ∀ (t : List ℤ) (r : ℕ) (h : r < t.length),
    (t[r] :: t.set r a).Perm (a :: t) := by
  intro t
  induction t with
  | nil => intro r h; simp at h
  | cons b t ih =>
    intro r h
    cases r with
    | zero => exact List.Perm.swap _ _ _
    | succ r =>
      have h' : r < t.length := by simpa using h
      simp only [List.getElem_cons_succ, List.set_cons_succ]
      calc (t[r] :: b :: t.set r a).Perm (b :: t[r] :: t.set r a) := List.Perm.swap _ _ _
        _ |>.Perm (b :: a :: t) := (ih r h').cons b
        _ |>.Perm (a :: b :: t) := List.Perm.swap _ _ _

theorem bringFront_perm {l : List ℤ} {r : ℕ} (h : r < l.length) :
    (l[r] :: bringFront l r).Perm l := by
  cases l with
  | nil => simp at h
  | cons a t =>
    cases r with
    | zero => simp [bringFront]
    | succ r =>
      have h' : r < t.length := by simpa using h
      simpa [bringFront] using set_perm_cons a t r h'

theorem vecSwap_append (pre rest : List ℤ) (r : ℕ) (h : r < rest.length) :
    vecSwap (pre ++ rest) pre.length (pre.length + r)
      = some (pre ++ rest[r] :: bringFront rest r) := by
  cases rest with
  | nil => simp at h
  | cons a t =>
    cases r with
    | zero => simp [vecSwap, bringFront]
    | succ r =>
      have h' : r < t.length := by simpa using h
      have e1 : (pre ++ a :: t)[pre.length]? = some a := by simp
      have e2 : (pre ++ a :: t)[pre.length + (r + 1)]? = some t[r] := by
        rw [List.getElem?_append_right (by omega)]
        simp [h']
      simp only [vecSwap, e1, e2, bringFront, List.getElem_cons_succ]
      rw [List.set_append_right _ _ (by omega), List.set_append_right _ _ (by omega)]
      simp

theorem drawStep_append (r : ℕ) (pre rest : List ℤ) (h : rest ≠ []) :
    drawStep r (pre ++ rest) pre.length =
      some (pre ++ rest[r % rest.length]'(Nat.mod_lt _ (List.length_pos_iff.2 h)) ::
        bringFront rest (r % rest.length)) := by
  have hp : 0 < rest.length := List.length_pos_iff.2 h
  have : ¬ (pre ++ rest).length ≤ pre.length := by simp; omega
  simp only [drawStep, this, if_false]
  have e : (pre ++ rest).length - pre.length = rest.length := by simp
  rw [e]
  exact vecSwap_append pre rest _ (Nat.mod_lt _ hp)

theorem drawStep_none (r : ℕ) (pool : List ℤ) (i : ℕ) (h : pool.length ≤ i) :
    drawStep r pool i = none := by simp [drawStep, h]

/-- The drawn prefix as a recursion on the part of the pool that is still untouched. -/
def pick (rng : ℕ → ℕ) : (n pos : ℕ) → List ℤ → List ℤ × List ℤ
  | 0, _, rest => ([], rest)
  | n + 1, pos, rest =>
    match rest[rng pos % rest.length]? with
    | none => ([], rest)
    | some a =>
      let p := pick rng n (pos + 1) (bringFront rest (rng pos % rest.length))
      (a :: p.1, p.2)

theorem drawLoop_eq (rng : ℕ → ℕ) : ∀ (n pos : ℕ) (pre rest : List ℤ), n ≤ rest.length →
    drawLoop rng n pre.length pos (pre ++ rest)
      = some (pre ++ (pick rng n pos rest).1 ++ (pick rng n pos rest).2) := by
  intro n
  induction n with
  | zero => intro pos pre rest _; simp [drawLoop, pick]
  | succ n ih =>
    intro pos pre rest hn
    have hne : rest ≠ [] := by rintro rfl; simp at hn
    have hp : 0 < rest.length := List.length_pos_iff.2 hne
    have hlt := Nat.mod_lt (rng pos) hp
    simp only [drawLoop, drawStep_append _ _ _ hne]
    have hl := bringFront_length (r := rng pos % rest.length) hne
    have := ih (pos + 1) (pre ++ [rest[rng pos % rest.length]])
      (bringFront rest (rng pos % rest.length)) (by omega)
    simp only [List.length_append, List.length_singleton, List.append_assoc,
      List.singleton_append] at this
    rw [this]
    simp [pick, hlt]

theorem pick_perm (rng : ℕ → ℕ) : ∀ (n pos : ℕ) (rest : List ℤ),
    ((pick rng n pos rest).1 ++ (pick rng n pos rest).2).Perm rest := by
  intro n
  induction n with
  | zero => intro pos rest; simp [pick]
  | succ n ih =>
    intro pos rest
    simp only [pick]
    cases h : rest[rng pos % rest.length]? with
    | none => simp
    | some a =>
      obtain ⟨hlt, rfl⟩ := List.getElem?_eq_some_iff.1 h
      simp only [List.cons_append]
      exact ((ih _ _).cons _).trans (bringFront_perm hlt)

theorem pick_length (rng : ℕ → ℕ) : ∀ (n pos : ℕ) (rest : List ℤ), n ≤ rest.length →
    (pick rng n pos rest).1.length = n := by
  intro n
  induction n with
  | zero => intro pos rest _; simp [pick]
  | succ n ih =>
    intro pos rest hn
    have hne : rest ≠ [] := by rintro rfl; simp at hn
    have hp : 0 < rest.length := List.length_pos_iff.2 hne
    have hlt := Nat.mod_lt (rng pos) hp
    have hl := bringFront_length (r := rng pos % rest.length) hne
    simp only [pick, List.getElem?_eq_getElem hlt, List.length_cons]
    rw [ih _ _ (by omega)]

theorem drawIndexSample_eq (rng : ℕ → ℕ) (n pos : ℕ) (pool : List ℤ) (h : n ≤ pool.length) :
    drawIndexSample rng n pos pool = some ((pick rng n pos pool).1,
      (pick rng n pos pool).1 ++ (pick rng n pos pool).2, pos + n) := by
  have := drawLoop_eq rng n pos [] pool h
  simp only [List.length_nil, List.nil_append] at this
  simp only [drawIndexSample, this]
  have hl := pick_length rng n pos pool h
  rw [List.take_append_of_le_length (by omega), List.take_of_length_le (by omega)]

theorem drawLoop_none (rng : ℕ → ℕ) : ∀ (n i pos : ℕ) (pool : List ℤ),
    pool.length < i + n → i ≤ pool.length → drawLoop rng n i pos pool = none := by
  intro n
  induction n with
  | zero => intro i pos pool h1 h2; omega
  | succ n ih =>
    intro i pos pool h1 h2
    simp only [drawLoop]
    cases h : drawStep (rng pos) pool i with
    | none => rfl
    | some pool' =>
      have hlen : pool'.length = pool.length ∧ i < pool.length := by
        unfold drawStep at h
        split at h
        · cases h
        · refine ⟨?_, by omega⟩
          unfold vecSwap at h
          split at h
          · cases h; simp
          · cases h
      exact ih _ _ _ (by omega) (by omega)

theorem drawIndexSample_none (rng : ℕ → ℕ) (n pos : ℕ) (pool : List ℤ) (h : pool.length < n) :
    drawIndexSample rng n pos pool = none := by
  simp only [drawIndexSample, drawLoop_none rng n 0 pos pool (by omega) (by omega)]

/-- Everything `getSamplesLoop` can return. -/
theorem getSamplesLoop_spec (rng : ℕ → ℕ) (good : List ℤ → Bool) (k : ℕ) :
    ∀ (n pos : ℕ) (pool : List ℤ), k ≤ pool.length →
    ∃ res pool' pos', getSamplesLoop rng good k n pos pool = some (res, pool', pos') ∧
      pool'.Perm pool ∧ pos ≤ pos' ∧ pos' ≤ pos + n * k ∧
      (res = .empty ∨ ∃ s, res = .sample s ∧ good s = true ∧ s.length = k ∧ s.Subperm pool) := by
  intro n
  induction n with
  | zero =>
    intro pos pool _
    exact ⟨_, _, _, rfl, List.Perm.refl _, le_refl _, by simp, Or.inl rfl⟩
  | succ n ih =>
    intro pos pool hk
    simp only [getSamplesLoop, drawIndexSample_eq rng k pos pool hk]
    have hperm := pick_perm rng k pos pool
    have hlen := pick_length rng k pos pool hk
    by_cases hg : good (pick rng k pos pool).1 = true
    · simp only [hg, if_true]
      refine ⟨_, _, _, rfl, hperm, by omega, by rw [Nat.add_mul, Nat.one_mul]; omega,
        Or.inr ⟨_, rfl, hg, hlen, ?_⟩⟩
      exact (List.sublist_append_left _ _).subperm.trans hperm.subperm
    · simp only [hg]
      have hl' : k ≤ ((pick rng k pos pool).1 ++ (pick rng k pos pool).2).length := by
        rw [hperm.length_eq]; exact hk
      obtain ⟨res, pool', pos', h1, h2, h3, h4, h5⟩ := ih (pos + k) _ hl'
      refine ⟨res, pool', pos', by simpa using h1, h2.trans hperm, by omega,
        by rw [Nat.add_mul, Nat.one_mul]; omega, ?_⟩
      rcases h5 with h5 | ⟨s, e, g, l, sp⟩
      · exact Or.inl h5
      · exact Or.inr ⟨s, e, g, l, sp.trans hperm.subperm⟩

end OpenGV.Sac

namespace OpenGV.Sac

theorem pick_congr (rng rng' : ℕ → ℕ) : ∀ (n pos : ℕ) (rest : List ℤ),
    (∀ p, pos ≤ p → rng p = rng' p) → pick rng n pos rest = pick rng' n pos rest := by
  intro n
  induction n with
  | zero => intro pos rest _; rfl
  | succ n ih =>
    intro pos rest h
    simp only [pick, h pos (le_refl _)]
    cases rest[rng' pos % rest.length]? with
    | none => rfl
    | some a =>
      simp only
      rw [ih (pos + 1) _ (fun p hp => h p (by omega))]

theorem pick_surj : ∀ (t : List ℤ) (pos : ℕ) (pool : List ℤ), t.Subperm pool →
    ∃ rng : ℕ → ℕ, (pick rng t.length pos pool).1 = t := by
  intro t
  induction t with
  | nil => intro pos pool _; exact ⟨fun _ => 0, rfl⟩
  | cons a t ih =>
    intro pos pool h
    have ha : a ∈ pool := h.subset (by simp)
    obtain ⟨r, hr, hra⟩ := List.getElem_of_mem ha
    have hp := bringFront_perm hr
    rw [hra] at hp
    have hsub : t.Subperm (bringFront pool r) :=
      List.subperm_cons a |>.1 (h.trans hp.symm.subperm)
    obtain ⟨rng, hrng⟩ := ih (pos + 1) _ hsub
    refine ⟨fun p => if p = pos then r else rng p, ?_⟩
    have hmod : r % pool.length = r := Nat.mod_eq_of_lt hr
    simp only [List.length_cons, pick, if_true, hmod, List.getElem?_eq_getElem hr, hra]
    rw [pick_congr _ rng t.length (pos + 1) _ (fun p hp => by
      have : p ≠ pos := by omega
      simp [this]), hrng]

theorem pick_inj (rng rng' : ℕ → ℕ) : ∀ (n pos : ℕ) (pool : List ℤ), n ≤ pool.length →
    pool.Nodup → (pick rng n pos pool).1 = (pick rng' n pos pool).1 →
    ∀ i, i < n → rng (pos + i) % (pool.length - i) = rng' (pos + i) % (pool.length - i) := by
  intro n
  induction n with
  | zero => intro pos pool _ _ _ i hi; omega
  | succ n ih =>
    intro pos pool hn hnd h i hi
    have hne : pool ≠ [] := by rintro rfl; simp at hn
    have hp : 0 < pool.length := List.length_pos_iff.2 hne
    have hlt := Nat.mod_lt (rng pos) hp
    have hlt' := Nat.mod_lt (rng' pos) hp
    simp only [pick, List.getElem?_eq_getElem hlt, List.getElem?_eq_getElem hlt'] at h
    rw [List.cons.injEq] at h
    obtain ⟨h1, h2⟩ := h
    have e : rng pos % pool.length = rng' pos % pool.length :=
      (List.Nodup.getElem_inj_iff hnd).1 h1
    have hl := bringFront_length (r := rng pos % pool.length) hne
    cases i with
    | zero => simpa using e
    | succ i =>
      rw [← e] at h2
      have hnd' : (bringFront pool (rng pos % pool.length)).Nodup :=
        (List.nodup_cons.1 ((bringFront_perm hlt).nodup_iff.2 hnd)).2
      have := ih (pos + 1) _ (by omega) hnd' h2 i (by omega)
      have e2 : (bringFront pool (rng pos % pool.length)).length - i = pool.length - (i + 1) := by
        omega
      rw [e2] at this
      have e3 : pos + (i + 1) = pos + 1 + i := by omega
      rw [e3]; exact this

theorem countWithinDistance_eq (d : List ℝ) (thr : ℝ) :
    countWithinDistance d thr = (d.filter (fun x => decide (x < thr))).length := by
  unfold countWithinDistance
  have : ∀ (d : List ℝ) (c : ℕ),
      d.foldl (fun count d => if d < thr then count + 1 else count) c
        = c + (d.filter (fun x => decide (x < thr))).length := by
    intro d
    induction d with
    | nil => intro c; simp
    | cons x d ih =>
      intro c
      simp only [List.foldl_cons]
      rw [ih]
      by_cases h : x < thr <;> simp [h] ; omega
  simpa using this d 0

theorem selectWithinDistance_eq : ∀ (ix : List ℤ) (d : List ℝ) (thr : ℝ), d.length ≤ ix.length →
    selectWithinDistance ix d thr
      = some (((ix.zip d).filter (fun p => decide (p.2 < thr))).map Prod.fst) := by
  intro ix
  induction ix with
  | nil =>
    intro d thr h
    have : d = [] := by simpa using h
    subst this
    simp [selectWithinDistance]
  | cons a ix ih =>
    intro d thr h
    cases d with
    | nil => simp [selectWithinDistance]
    | cons x d =>
      simp only [selectWithinDistance, ih d thr (by simpa using h), List.zip_cons_cons]
      by_cases hx : x < thr <;> simp [hx]

theorem filter_zip_length : ∀ (ix : List ℤ) (d : List ℝ) (thr : ℝ), d.length ≤ ix.length →
    (((ix.zip d).filter (fun p => decide (p.2 < thr))).map Prod.fst).length
      = (d.filter (fun x => decide (x < thr))).length := by
  intro ix
  induction ix with
  | nil =>
    intro d thr h
    have : d = [] := by simpa using h
    subst this
    simp
  | cons a ix ih =>
    intro d thr h
    cases d with
    | nil => simp
    | cons x d =>
      have := ih d thr (by simpa using h)
      simp only [List.length_map] at this
      by_cases hx : x < thr <;> simp [hx, this]

theorem nodup_of_subperm {α : Type} {s l : List α} (h : s.Subperm l) (hn : l.Nodup) : s.Nodup := by
  obtain ⟨t, ht, hs⟩ := h
  exact ht.nodup_iff.1 (hs.nodup hn)

theorem subperm_map {α β : Type} (f : α → β) {s l : List α} (h : s.Subperm l) :
    (s.map f).Subperm (l.map f) := by
  obtain ⟨t, ht, hs⟩ := h
  exact ⟨t.map f, ht.map f, hs.map f⟩

end OpenGV.Sac
