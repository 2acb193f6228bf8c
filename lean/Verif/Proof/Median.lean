import Verif.Model.Lmeds
import Verif.Spec.Median
import Mathlib.Tactic.Linarith
import Mathlib.Data.List.Sort

namespace OpenGV.Sac
open OpenGV.Spec

open Classical in
theorem isOrderStat_unique (l : List ℝ) (k : ℕ) (x y : ℝ) (hx : IsOrderStat l k x)
    (hy : IsOrderStat l k y) : x = y := by
  obtain ⟨_, hx1, hx2⟩ := hx
  obtain ⟨_, hy1, hy2⟩ := hy
  rcases lt_trichotomy x y with h | h | h
  · exfalso
    have : l.countP (fun z => z ≤ x) ≤ l.countP (fun z => z < y) := by
      apply List.countP_mono_left
      intro z _ hz
      simp only [decide_eq_true_eq] at hz ⊢
      linarith
    omega
  · exact h
  · exfalso
    have : l.countP (fun z => z ≤ y) ≤ l.countP (fun z => z < x) := by
      apply List.countP_mono_left
      intro z _ hz
      simp only [decide_eq_true_eq] at hz ⊢
      linarith
    omega

theorem isMedian_unique (l : List ℝ) (v v' : ℝ) (h : IsMedian l v) (h' : IsMedian l v') :
    v = v' := by
  rcases h with ⟨h1, h2⟩ | ⟨h1, a, b, ha, hb, rfl⟩ <;>
  rcases h' with ⟨h1', h2'⟩ | ⟨h1', a', b', ha', hb', rfl⟩
  · exact isOrderStat_unique _ _ _ _ h2 h2'
  · omega
  · omega
  · rw [isOrderStat_unique _ _ _ _ ha ha', isOrderStat_unique _ _ _ _ hb hb']

theorem sorted_orderStat (l : List ℝ) (k : ℕ) (x : ℝ)
    (h : (l.insertionSort (· ≤ ·))[k]? = some x) : IsOrderStat l k x := by
  classical
  set s := l.insertionSort (· ≤ ·) with hs
  have hp : s.Perm l := List.perm_insertionSort _ _
  have hsort : s.Pairwise (· ≤ ·) := List.pairwise_insertionSort _ _
  obtain ⟨hk, hx⟩ := List.getElem?_eq_some_iff.1 h
  have hsplit : s = s.take k ++ x :: s.drop (k + 1) := by
    rw [← hx]
    conv_lhs => rw [← List.take_append_drop k s]
    rw [List.drop_eq_getElem_cons hk]
  have hpw := hsort
  rw [hsplit, List.pairwise_append] at hpw
  obtain ⟨_, hright, hcross⟩ := hpw
  have hr := (List.pairwise_cons.1 hright).1
  refine ⟨hp.mem_iff.1 (by rw [← hx]; exact List.getElem_mem hk), ?_, ?_⟩
  · rw [← hp.countP_eq, hsplit, List.countP_append, List.countP_cons]
    have h0 : (s.drop (k + 1)).countP (fun y => decide (y < x)) = 0 := by
      rw [List.countP_eq_zero]
      intro y hy
      simpa using hr y hy
    have h1 := List.countP_le_length (p := fun y => decide (y < x)) (l := s.take k)
    simp only [List.length_take] at h1
    simp only [h0, lt_irrefl, decide_false, Bool.false_eq_true, if_false]
    omega
  · rw [← hp.countP_eq, hsplit, List.countP_append, List.countP_cons]
    have h0 : (s.take k).countP (fun y => decide (y ≤ x)) = (s.take k).length := by
      rw [List.countP_eq_length]
      intro y hy
      simpa using hcross y hy x (by simp)
    rw [h0]
    simp only [List.length_take, le_refl, decide_true, if_true]
    omega

theorem clipSquare_eq : clipSquare = fun x : ℝ => (max x 0) ^ 2 := by
  funext x
  unfold clipSquare
  by_cases h : x < 0
  · simp [h, max_eq_right h.le]
  · simp [h, max_eq_left (not_lt.1 h), sq]

/-- With as many distances as indices the penalty is the median of the squares. -/
theorem lmedsPenalty_spec (n : ℕ) (d : List ℝ) (h : d.length = n) (hn : 0 < n) :
    ∃ v, lmedsPenalty n d = .value v ∧ IsMedianSq d v := by
  unfold lmedsPenalty IsMedianSq
  have hne : d.isEmpty = false := by
    cases d with
    | nil => simp at h; omega
    | cons => rfl
  rw [clipSquare_eq]
  set q := d.map (fun x => (max x 0) ^ 2) with hq
  have hql : q.length = n := by simp [hq, h]
  have hsl : (q.insertionSort (· ≤ ·)).length = n := by rw [List.length_insertionSort, hql]
  simp only [hne, Bool.false_eq_true, if_false, hsl]
  rw [if_neg (by omega)]
  have hget : ∀ k, k < n → ∃ x, (q.insertionSort (· ≤ ·))[k]? = some x ∧ IsOrderStat q k x := by
    intro k hk
    refine ⟨_, List.getElem?_eq_getElem (by omega), sorted_orderStat _ _ _ ?_⟩
    exact List.getElem?_eq_getElem (by omega)
  by_cases hpar : n % 2 = 0
  · rw [if_pos hpar, if_neg (by omega)]
    obtain ⟨a, ha, hoa⟩ := hget (n / 2 - 1) (by omega)
    obtain ⟨b, hb, hob⟩ := hget (n / 2) (by omega)
    simp only [ha, hb]
    exact ⟨_, rfl, Or.inr ⟨by omega, a, b, by rw [hql]; exact hoa, by rw [hql]; exact hob, rfl⟩⟩
  · rw [if_neg hpar]
    obtain ⟨a, ha, hoa⟩ := hget (n / 2) (by omega)
    simp only [ha]
    exact ⟨_, rfl, Or.inl ⟨by omega, by rw [hql]; exact hoa⟩⟩

theorem lmedsPenalty_empty (n : ℕ) : lmedsPenalty n [] = .skip := by simp [lmedsPenalty]

end OpenGV.Sac
