import Verif.Model.Adapters
import Verif.Spec.Layout

/-!
# Lemmas about the adapters
-/

namespace OpenGV

open Adapters Spec

theorem read3_flat3 (vs : List Vec3) (i : ℕ) : read3 (flat3 vs) (i * 3) = vs[i]? := by
  induction vs generalizing i with
  | nil => simp [flat3, read3]
  | cons v vs ih =>
    cases i with
    | zero =>
      simp only [flat3, read3, List.flatMap_cons, Nat.zero_mul, List.cons_append,
        List.getElem?_cons_zero, List.getElem?_cons_succ, Nat.zero_add, Option.some.injEq]
      funext j
      fin_cases j <;> rfl
    | succ i =>
      have h : read3 (flat3 (v :: vs)) ((i + 1) * 3) = read3 (flat3 vs) (i * 3) := by
        simp only [flat3, read3, List.flatMap_cons, List.cons_append, List.nil_append]
        have e : (i + 1) * 3 = i * 3 + 1 + 1 + 1 := by ring
        simp only [e, List.getElem?_cons_succ]
      rw [h, ih]
      simp

theorem read3_flat6 (vs : List (Vec3 × Vec3)) (i : ℕ) :
    read3 (flat6 vs) (i * 6) = vs[i]?.map Prod.fst ∧
    read3 (flat6 vs) (i * 6 + 3) = vs[i]?.map Prod.snd := by
  induction vs generalizing i with
  | nil => simp [flat6, read3]
  | cons v vs ih =>
    cases i with
    | zero =>
      simp only [flat6, read3, List.flatMap_cons, Nat.zero_mul, List.cons_append,
        List.getElem?_cons_zero, List.getElem?_cons_succ, Nat.zero_add, Option.some.injEq,
        Option.map_some]
      constructor <;> funext j <;> fin_cases j <;> rfl
    | succ i =>
      have h : read3 (flat6 (v :: vs)) ((i + 1) * 6) = read3 (flat6 vs) (i * 6) ∧
          read3 (flat6 (v :: vs)) ((i + 1) * 6 + 3) = read3 (flat6 vs) (i * 6 + 3) := by
        simp only [flat6, read3, List.flatMap_cons, List.cons_append, List.nil_append]
        have e : (i + 1) * 6 = i * 6 + 1 + 1 + 1 + 1 + 1 + 1 := by ring
        have e2 : (i + 1) * 6 + 3 = i * 6 + 3 + 1 + 1 + 1 + 1 + 1 + 1 := by ring
        constructor
        · simp only [e, List.getElem?_cons_succ]
        · simp only [e2, List.getElem?_cons_succ, Nat.add_assoc, Nat.reduceAdd]
      rw [h.1, h.2, (ih i).1, (ih i).2]
      simp

theorem readLoop_eq {α : Type} (get : ℕ → Option α) (idx : Indices) (ix : List ℕ)
    (h : ∀ k, k < ix.length → idx.get k = ix[k]?) (todo i : ℕ) (ht : i + todo = ix.length)
    (acc : List α) :
    readLoop get idx todo i acc = ((ix.drop i).mapM get).map (acc ++ ·) := by
  induction todo generalizing i acc with
  | zero => simp [readLoop, List.drop_eq_nil_of_le (by omega : ix.length ≤ i)]
  | succ n ih =>
    have hi : i < ix.length := by omega
    rw [readLoop, h i hi, List.getElem?_eq_getElem hi, List.drop_eq_getElem_cons hi, List.mapM_cons]
    cases hg : get ix[i] with
    | none => simp [hg]
    | some a =>
      simp only [hg]
      rw [ih (i + 1) (by omega)]
      cases (ix.drop (i + 1)).mapM get <;> simp

theorem mapM_range_getElem {α β γ : Type} (l : List α) (m : List β) (f : α → β → γ)
    (get : ℕ → Option γ)
    (h : ∀ i, get i = match l[i]?, m[i]? with | some a, some b => some (f a b) | _, _ => none)
    (n : ℕ) :
    (List.range n).mapM get =
      if n ≤ l.length ∧ n ≤ m.length then some ((l.take n).zipWith f (m.take n)) else none := by
  induction n with
  | zero => simp
  | succ n ih =>
    rw [List.range_succ, List.mapM_append, ih, List.mapM_cons, List.mapM_nil, h n]
    by_cases hl : n < l.length
    · by_cases hm : n < m.length
      · rw [if_pos ⟨by omega, by omega⟩, if_pos ⟨by omega, by omega⟩, List.getElem?_eq_getElem hl,
          List.getElem?_eq_getElem hm, ← List.take_concat_get' l n hl,
          ← List.take_concat_get' m n hm, List.zipWith_append (by simp; omega)]
        rfl
      · rw [List.getElem?_eq_none (by omega : m.length ≤ n), if_neg (by omega : ¬(_ ∧ n + 1 ≤ _))]
        cases l[n]? <;> (split <;> rfl)
    · rw [List.getElem?_eq_none (by omega : l.length ≤ n), if_neg (by omega : ¬(n + 1 ≤ _ ∧ _))]
      split <;> rfl

end OpenGV
