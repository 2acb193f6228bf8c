import Verif.Model.UpnpAction
import Mathlib.Algebra.BigOperators.Group.List.Basic
import Mathlib.Tactic.Ring

/-!
# Elimination templates

A table describes the rows of a matrix as multiples of a few equations by monomials. Monomials in four
unknowns are coded as numbers with four digits to the base 16, and lists of monomials are packed into
one number.
-/

namespace OpenGV

/-- The monomial with code `a`. -/
def mono4 (x : Fin 4 → ℝ) (a : ℕ) : ℝ :=
  x 0 ^ (a % 16) * x 1 ^ (a / 16 % 16) * x 2 ^ (a / 256 % 16) * x 3 ^ (a / 4096 % 16)

/-- The code at position `c` of a packed list. -/
def codeAt (big c : ℕ) : ℕ := Nat.land (Nat.shiftRight big (16 * c)) 65535

/-- The monomial `a` is the product of `s` and `b`. -/
def addOk (a s b : ℕ) : Bool :=
  Nat.beq (a % 16) (s % 16 + b % 16) && Nat.beq (a / 16 % 16) (s / 16 % 16 + b / 16 % 16) &&
    Nat.beq (a / 256 % 16) (s / 256 % 16 + b / 256 % 16) &&
    Nat.beq (a / 4096 % 16) (s / 4096 % 16 + b / 4096 % 16)

theorem mono4_mul {x : Fin 4 → ℝ} {a s b : ℕ} (h : addOk a s b = true) :
    mono4 x a = mono4 x s * mono4 x b := by
  simp only [addOk, Bool.and_eq_true, Nat.beq_eq] at h
  obtain ⟨⟨⟨h0, h1⟩, h2⟩, h3⟩ := h
  unfold mono4
  rw [h0, h1, h2, h3]
  ring

/-- The entries are in ascending columns, from `lo` on. -/
def ascending : ℕ → List (ℕ × ℕ) → Bool
  | _, [] => true
  | lo, e :: es => Nat.ble lo e.1 && ascending (e.1 + 1) es

/-- Equality of two lists of numbers. -/
def sameList : List ℕ → List ℕ → Bool
  | [], [] => true
  | a :: l, b :: m => Nat.beq a b && sameList l m
  | _, _ => false

theorem sameList_eq {l m : List ℕ} (h : sameList l m = true) : l = m := by
  induction l generalizing m with
  | nil => cases m <;> simp_all [sameList]
  | cons a l ih =>
    cases m with
    | nil => simp [sameList] at h
    | cons b m =>
      simp only [sameList, Bool.and_eq_true, Nat.beq_eq] at h
      rw [h.1, ih h.2]

/-- One row of a table is the equation `row.1`, multiplied by the monomial `s`; `pats` lists the
columns in which an equation may be different from zero. -/
def rowOk (cols m1 ncols : ℕ) (pats : List (ℕ × List ℕ)) (s : ℕ) (row : ℕ × List (ℕ × ℕ)) : Bool :=
  ascending 0 row.2 &&
  row.2.all (fun e => Nat.blt e.1 ncols && addOk (codeAt cols e.1) s (codeAt m1 e.2)) &&
  pats.any (fun p => Nat.beq p.1 row.1 && sameList (row.2.map Prod.snd) p.2)

/-- Every row of a table is a multiple of an equation. -/
def tableOk (cols m1 ncols : ℕ) (pats : List (ℕ × List ℕ)) :
    List ℕ → List (ℕ × List (ℕ × ℕ)) → Bool
  | [], [] => true
  | s :: ss, row :: t => rowOk cols m1 ncols pats s row && tableOk cols m1 ncols pats ss t
  | _, _ => false

theorem tableOk_row {cols m1 ncols : ℕ} {pats : List (ℕ × List ℕ)} {ss : List ℕ}
    {t : List (ℕ × List (ℕ × ℕ))} (h : tableOk cols m1 ncols pats ss t = true) {row}
    (hr : row ∈ t) : ∃ s, rowOk cols m1 ncols pats s row = true := by
  induction t generalizing ss with
  | nil => simp at hr
  | cons row' t ih =>
    cases ss with
    | nil => simp [tableOk] at h
    | cons s ss =>
      simp only [tableOk, Bool.and_eq_true] at h
      rcases List.mem_cons.1 hr with rfl | hr
      · exact ⟨s, h.1⟩
      · exact ih h.2 hr

/-- No assignment of a table is outside the matrices. -/
theorem tableOk_bounds {cols m1 ncols m k : ℕ} {pats : List (ℕ × List ℕ)} {ss : List ℕ}
    {t : List (ℕ × List (ℕ × ℕ))} (h : tableOk cols m1 ncols pats ss t = true)
    (hp : ∀ p ∈ pats, p.1 < m ∧ ∀ j ∈ p.2, j < k) {row} (hr : row ∈ t) :
    ascending 0 row.2 = true ∧ row.1 < m ∧ ∀ e ∈ row.2, e.1 < ncols ∧ e.2 < k := by
  obtain ⟨s, hs⟩ := tableOk_row h hr
  simp only [rowOk, Bool.and_eq_true, List.all_eq_true, List.any_eq_true, Nat.beq_eq] at hs
  obtain ⟨⟨h1, h2⟩, p, hp', h3, h4⟩ := hs
  refine ⟨h1, h3 ▸ (hp p hp').1, fun e he => ⟨?_, ?_⟩⟩
  · have := (h2 e he).1
    simpa [Nat.blt_eq] using this
  · apply (hp p hp').2
    rw [← sameList_eq h4]
    exact List.mem_map_of_mem he

theorem foldl_update_eq (v : ℕ → ℝ) (es : List (ℕ × ℕ)) (f : ℕ → ℝ) (lo c : ℕ)
    (h : ascending lo es = true) (hc : c < lo) :
    es.foldl (fun f e => Function.update f e.1 (v e.2)) f c = f c := by
  induction es generalizing f lo with
  | nil => rfl
  | cons e es ih =>
    simp only [ascending, Bool.and_eq_true, Nat.ble_eq] at h
    rw [List.foldl_cons, ih _ _ h.2 (by omega), Function.update_of_ne (by omega)]

/-- The sum over a row filled by assignments is the sum over the assignments. -/
theorem foldl_update_sum (v x : ℕ → ℝ) (n : ℕ) (es : List (ℕ × ℕ)) (f : ℕ → ℝ) (lo : ℕ)
    (h : ascending lo es = true) (hn : ∀ e ∈ es, e.1 < n) (hf : ∀ c, lo ≤ c → f c = 0) :
    ∑ c ∈ Finset.range n, es.foldl (fun f e => Function.update f e.1 (v e.2)) f c * x c =
      ∑ c ∈ Finset.range n, f c * x c + (es.map fun e => v e.2 * x e.1).sum := by
  induction es generalizing f lo with
  | nil => simp
  | cons e es ih =>
    simp only [ascending, Bool.and_eq_true, Nat.ble_eq] at h
    rw [List.foldl_cons, ih _ _ h.2 (fun e he => hn e (List.mem_cons_of_mem _ he))
      (fun c hc => by rw [Function.update_of_ne (by omega)]; exact hf c (by omega))]
    rw [List.map_cons, List.sum_cons, ← add_assoc]
    congr 1
    have he : e.1 ∈ Finset.range n := Finset.mem_range.2 (hn e List.mem_cons_self)
    rw [← Finset.add_sum_erase _ _ he, ← Finset.add_sum_erase _ (fun c => f c * x c) he,
      hf e.1 h.1, Function.update_self, zero_mul, zero_add, add_comm]
    congr 1
    apply Finset.sum_congr rfl
    intro c hc
    rw [Function.update_of_ne (Finset.ne_of_mem_erase hc)]

/-- A row of the matrix, applied to the monomials of its columns, is a multiple of the equation it is
filled from. -/
theorem templateM2_sum {cols m1 ncols : ℕ} {pats : List (ℕ × List ℕ)} {ss : List ℕ}
    {t : List (ℕ × List (ℕ × ℕ))} (h : tableOk cols m1 ncols pats ss t = true)
    (M1 : ℕ → ℕ → ℝ) (x : Fin 4 → ℝ) (r : ℕ)
    (hM : ∀ p ∈ pats, (p.2.map fun j => M1 p.1 j * mono4 x (codeAt m1 j)).sum = 0) :
    ∑ c ∈ Finset.range ncols, templateM2 t M1 r c * mono4 x (codeAt cols c) = 0 := by
  unfold templateM2
  cases hr : t[r]? with
  | none => simp
  | some row =>
    obtain ⟨s, hs⟩ := tableOk_row h (List.mem_of_getElem? hr)
    simp only [rowOk, Bool.and_eq_true, List.all_eq_true, List.any_eq_true, Nat.beq_eq] at hs
    obtain ⟨⟨h1, h2⟩, p, hp, h3, h4⟩ := hs
    have hlt : ∀ e ∈ row.2, e.1 < ncols := fun e he => by
      have := (h2 e he).1
      simpa [Nat.blt_eq] using this
    show ∑ c ∈ Finset.range ncols,
      row.2.foldl (fun f e => Function.update f e.1 (M1 row.1 e.2)) (0 : ℕ → ℝ) c * _ = 0
    rw [foldl_update_sum (fun j => M1 row.1 j) (fun c => mono4 x (codeAt cols c)) ncols row.2 0 0 h1
      hlt (fun _ _ => rfl)]
    have : (row.2.map fun e => M1 row.1 e.2 * mono4 x (codeAt cols e.1)) =
        (row.2.map Prod.snd).map fun j => mono4 x s * (M1 p.1 j * mono4 x (codeAt m1 j)) := by
      rw [List.map_map]
      apply List.map_congr_left
      intro e he
      rw [mono4_mul (h2 e he).2, h3]
      simp only [Function.comp]
      ring
    rw [this, sameList_eq h4, List.sum_map_mul_left, hM p hp]
    simp

end OpenGV
