import Verif.Model.MultiAdapter
import Mathlib.Tactic.Linarith
import Mathlib.Tactic.Positivity
import Mathlib.Tactic.FieldSimp
import Mathlib.Algebra.BigOperators.Group.List.Lemmas

namespace OpenGV.MultiAdapter

theorem innerLoop_eq (frame n : ℕ) (t : Tables) :
    innerLoop frame n t = ⟨t.offsets, t.frames ++ List.replicate n frame, t.keys ++ List.range n⟩ := by
  unfold innerLoop
  induction n with
  | zero => simp
  | succ n ih =>
    rw [List.range_succ, List.foldl_append, ih]
    simp [List.replicate_succ', List.append_assoc]

/-- Where the entries of the tables are. -/
theorem tablesLoop_spec : ∀ (counts : List ℕ) (frame offset : ℕ) (t : Tables),
    t.offsets.length = frame → t.frames.length = offset → t.keys.length = offset →
    ∃ o f k, tablesLoop counts frame offset t = ⟨t.offsets ++ o, t.frames ++ f, t.keys ++ k⟩ ∧
      o.length = counts.length ∧ f.length = counts.sum ∧ k.length = counts.sum ∧
      (∀ j, j < counts.length → o[j]? = some (offset + (counts.take j).sum)) ∧
      (∀ j n c, counts[j]? = some n → c < n →
        f[(counts.take j).sum + c]? = some (frame + j) ∧ k[(counts.take j).sum + c]? = some c) := by
  intro counts
  induction counts with
  | nil =>
    intro frame offset t _ _ _
    exact ⟨[], [], [], by simp [tablesLoop], rfl, rfl, rfl, by simp, by simp⟩
  | cons n ns ih =>
    intro frame offset t h1 h2 h3
    obtain ⟨o, f, k, e, l1, l2, l3, p1, p2⟩ := ih (frame + 1) (offset + n)
      (innerLoop frame n { t with offsets := t.offsets ++ [offset] })
      (by rw [innerLoop_eq]; simp [h1]) (by rw [innerLoop_eq]; simp [h2])
      (by rw [innerLoop_eq]; simp [h3])
    refine ⟨offset :: o, List.replicate n frame ++ f, List.range n ++ k, ?_, by simp [l1],
      by simp [l2], by simp [l3], ?_, ?_⟩
    · rw [tablesLoop, e, innerLoop_eq]; simp
    · intro j hj
      cases j with
      | zero => simp
      | succ j =>
        simp only [List.getElem?_cons_succ, List.take_succ_cons, List.sum_cons]
        rw [p1 j (by simpa using hj), Nat.add_assoc]
    · intro j m c hj hc
      cases j with
      | zero =>
        simp only [List.getElem?_cons_zero, Option.some.injEq] at hj
        subst hj
        simp only [List.take_zero, List.sum_nil, Nat.zero_add, Nat.add_zero]
        rw [List.getElem?_append_left (by simpa using hc),
          List.getElem?_append_left (by simpa using hc)]
        simp [hc]
      | succ j =>
        simp only [List.getElem?_cons_succ] at hj
        obtain ⟨q1, q2⟩ := p2 j m c hj hc
        simp only [List.take_succ_cons, List.sum_cons]
        rw [List.getElem?_append_right (by simp; omega),
          List.getElem?_append_right (by simp; omega)]
        simp only [List.length_replicate, List.length_range]
        have : n + (ns.take j).sum + c - n = (ns.take j).sum + c := by omega
        rw [this, q1, q2]
        simp; omega

theorem tables_spec (counts : List ℕ) :
    (tables counts).offsets.length = counts.length ∧
    (tables counts).frames.length = counts.sum ∧ (tables counts).keys.length = counts.sum ∧
    (∀ j, j < counts.length → (tables counts).offsets[j]? = some (counts.take j).sum) ∧
    (∀ j n c, counts[j]? = some n → c < n →
      (tables counts).frames[(counts.take j).sum + c]? = some j ∧
      (tables counts).keys[(counts.take j).sum + c]? = some c) := by
  obtain ⟨o, f, k, e, l1, l2, l3, p1, p2⟩ := tablesLoop_spec counts 0 0 ⟨[], [], []⟩ rfl rfl rfl
  simp only [List.nil_append] at e
  unfold tables
  rw [e]
  refine ⟨l1, l2, l3, ?_, ?_⟩
  · intro j hj; simpa using p1 j hj
  · intro j n c hj hc; simpa using p2 j n c hj hc

/-- Every number below the total is in exactly one block. -/
theorem exists_block : ∀ (counts : List ℕ) (i : ℕ), i < counts.sum →
    ∃ j n c, counts[j]? = some n ∧ c < n ∧ i = (counts.take j).sum + c := by
  intro counts
  induction counts with
  | nil => intro i h; simp at h
  | cons n ns ih =>
    intro i h
    by_cases hi : i < n
    · exact ⟨0, n, i, rfl, hi, by simp⟩
    · obtain ⟨j, m, c, h1, h2, h3⟩ := ih (i - n) (by simp only [List.sum_cons] at h; omega)
      exact ⟨j + 1, m, c, h1, h2, by simp only [List.take_succ_cons, List.sum_cons]; omega⟩

theorem block_lt (counts : List ℕ) : ∀ (j n c : ℕ), counts[j]? = some n → c < n →
    (counts.take j).sum + c < counts.sum := by
  induction counts with
  | nil => intro j n c h; simp at h
  | cons m ms ih =>
    intro j n c h hc
    cases j with
    | zero =>
      simp only [List.getElem?_cons_zero, Option.some.injEq] at h
      subst h
      simp; omega
    | succ j =>
      simp only [List.getElem?_cons_succ] at h
      have := ih j n c h hc
      simp only [List.take_succ_cons, List.sum_cons]; omega

theorem flatten_get {α : Type} : ∀ (data : List (List α)) (j : ℕ) (l : List α) (c : ℕ),
    data[j]? = some l → c < l.length →
    data.flatten[((data.map List.length).take j).sum + c]? = l[c]? := by
  intro data
  induction data with
  | nil => intro j l c h; simp at h
  | cons d ds ih =>
    intro j l c h hc
    cases j with
    | zero =>
      simp only [List.getElem?_cons_zero, Option.some.injEq] at h
      subst h
      simp only [List.take_zero, List.sum_nil, Nat.zero_add, List.flatten_cons]
      rw [List.getElem?_append_left hc]
    | succ j =>
      simp only [List.getElem?_cons_succ] at h
      have := ih j l c h hc
      simp only [List.map_cons, List.take_succ_cons, List.sum_cons, List.flatten_cons]
      rw [List.getElem?_append_right (by omega), ← this]
      congr 1
      omega

theorem convertInner_eq (t : Tables) (frame o : ℕ) (ho : t.offsets[frame]? = some o) :
    ∀ (ks acc : List ℕ), convertInner t frame ks acc = some (acc ++ ks.map (fun k => o + k)) := by
  intro ks
  induction ks with
  | nil => intro acc; simp [convertInner]
  | cons k ks ih => intro acc; simp [convertInner, convertMultiIndex, ho, ih]

/-! ### Sample sizes -/

theorem bump_eq (v : List ℕ) (i : ℕ) (h : i < v.length) : bump v i = some (v.set i (v[i] + 1)) := by
  unfold bump
  rw [List.getElem?_eq_getElem h]

theorem sum_set_succ : ∀ (v : List ℕ) (b : ℕ) (hb : b < v.length),
    (v.set b (v[b] + 1)).sum = v.sum + 1 := by
  intro v
  induction v with
  | nil => intro b hb; simp at hb
  | cons x xs ih =>
    intro b hb
    cases b with
    | zero => simp; omega
    | succ b =>
      have := ih b (by simpa using hb)
      simp only [List.set_cons_succ, List.sum_cons, List.getElem_cons_succ]
      omega

theorem bin_iff (n start j i : ℕ) (hs : start < n) (hj : j < n) :
    n ∣ i + 1 + (n - 1) - (j + n - start) % n ↔ (start + i) % n = j := by
  have hn : 0 < n := by omega
  have hd : (j + n - start) % n = if start ≤ j then j - start else j + n - start := by
    split
    · have : j + n - start = (j - start) + n := by omega
      rw [this, Nat.add_mod_right, Nat.mod_eq_of_lt (by omega)]
    · exact Nat.mod_eq_of_lt (by omega)
  rw [hd]
  constructor
  · rintro ⟨k, hk⟩
    by_cases h : start ≤ j
    · rw [if_pos h] at hk
      have hk0 : k ≠ 0 := by rintro rfl; omega
      obtain ⟨k', rfl⟩ := Nat.exists_eq_succ_of_ne_zero hk0
      rw [Nat.mul_succ] at hk
      have : start + i = n * k' + j := by omega
      rw [this, Nat.mul_add_mod, Nat.mod_eq_of_lt hj]
    · rw [if_neg h] at hk
      have : start + i = n * k + j := by omega
      rw [this, Nat.mul_add_mod, Nat.mod_eq_of_lt hj]
  · intro h
    have e := Nat.div_add_mod (start + i) n
    rw [h] at e
    split
    · refine ⟨(start + i) / n + 1, ?_⟩
      rw [Nat.mul_succ]; omega
    · refine ⟨(start + i) / n, ?_⟩
      omega

/-- Closed form of the round robin. -/
theorem roundRobin_spec (n start : ℕ) (hn : 0 < n) (hs : start < n) :
    ∀ (steps i : ℕ) (v : List ℕ), v.length = n → v.sum = i →
      (∀ j (hj : j < v.length), v[j] = (i + (n - 1) - (j + n - start) % n) / n) →
      ∃ v', roundRobin steps ((start + i) % n) v = some v' ∧ v'.length = n ∧ v'.sum = i + steps ∧
        (∀ j (hj : j < v'.length), v'[j] = (i + steps + (n - 1) - (j + n - start) % n) / n) := by
  intro steps
  induction steps with
  | zero => intro i v h1 h2 h3; exact ⟨v, rfl, h1, h2, h3⟩
  | succ steps ih =>
    intro i v h1 h2 h3
    set b := (start + i) % n with hb
    have hbn : b < n := Nat.mod_lt _ hn
    have hbump := bump_eq v b (by omega)
    have hbin : (if b + 1 ≥ (v.set b (v[b] + 1)).length then 0 else b + 1) = (start + (i + 1)) % n := by
      simp only [List.length_set, h1]
      have e : (start + (i + 1)) % n = (b + 1) % n := by
        rw [← Nat.add_assoc, Nat.add_mod, ← hb]; simp [Nat.add_mod]
      rw [e]
      split
      · have : b + 1 = n := by omega
        rw [this, Nat.mod_self]
      · rw [Nat.mod_eq_of_lt (by omega)]
    obtain ⟨v', e, l, hsum, hall⟩ := ih (i + 1) (v.set b (v[b] + 1)) (by simp [h1])
      (by rw [sum_set_succ v b (by omega)]; omega)
      (by
        intro j hj
        have hj' : j < v.length := by simpa using hj
        rw [List.getElem_set]
        have hd : (j + n - start) % n < n := Nat.mod_lt _ hn
        have e2 : i + 1 + (n - 1) - (j + n - start) % n
            = (i + (n - 1) - (j + n - start) % n) + 1 := by omega
        rw [e2, Nat.succ_div]
        have hdv := bin_iff n start j i hs (by omega)
        rw [e2] at hdv
        by_cases hbj : b = j
        · subst hbj
          rw [if_pos rfl, if_pos (hdv.2 rfl), h3 b (by omega)]
        · rw [if_neg hbj, if_neg (fun h => hbj (hdv.1 h)), h3 j hj']
          rfl)
    refine ⟨v', ?_, l, by omega, ?_⟩
    · simp only [roundRobin, hbump, hbin]; exact e
    · intro j hj; rw [hall j hj]; congr 1; omega

end OpenGV.MultiAdapter
