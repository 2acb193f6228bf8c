import Verif.Model.Groebner
import Mathlib.Data.Nat.Bitwise
import Mathlib.Algebra.BigOperators.Field
import Mathlib.Tactic.Ring
import Mathlib.Tactic.FieldSimp
import Mathlib.Tactic.LinearCombination
import Mathlib.Tactic.Linarith

/-!
# Soundness of the elimination programs

A row of the matrix is the polynomial with its entries as coefficients. It is evaluated in a ring
that contains the coefficients. If the rows vanish at a point before a statement, they vanish after it, provided that the columns of the statement fit
together as monomials (`monoOk`) and that no term of a pivot row is left out (`Exact`). The second
condition follows from an analysis of the supports of the rows (`suppStep`).
-/

namespace OpenGV

open Finset

/-! ### Monomials -/

section Mono

variable {A : Type} [CommRing A]

/-- The value of a monomial; the exponents are the hexadecimal digits of the code. -/
def monoEv : List A → ℕ → A
  | [], _ => 1
  | z :: zs, m => z ^ (m % 16) * monoEv zs (m / 16)

/-- All exponents are below eight. -/
def monoSmall : ℕ → ℕ → Bool
  | 0, _ => true
  | k + 1, m => m % 16 < 8 && monoSmall k (m / 16)

theorem monoEv_add : ∀ (zs : List A) (a b : ℕ), monoSmall zs.length a = true →
    monoSmall zs.length b = true → monoEv zs (a + b) = monoEv zs a * monoEv zs b
  | [], _, _, _, _ => by simp [monoEv]
  | z :: zs, a, b, ha, hb => by
    simp only [List.length_cons, monoSmall, Bool.and_eq_true, decide_eq_true_eq] at ha hb
    have h1 : (a + b) % 16 = a % 16 + b % 16 := by omega
    have h2 : (a + b) / 16 = a / 16 + b / 16 := by omega
    rw [monoEv, monoEv, monoEv, h1, h2, monoEv_add zs _ _ ha.2 hb.2, pow_add]
    ring

/-- The code of a column: 36 bits of a packed table. -/
def gcode (codes c : ℕ) : ℕ := Nat.mod (Nat.shiftRight codes (Nat.mul 36 c)) 0x1000000000

/-- The value of the monomial of a column. -/
def colEv (codes : ℕ) (zs : List A) (c : ℕ) : A := monoEv zs (gcode codes c)

end Mono

/-! ### Values of rows -/

section Val

variable {K : Type}

theorem put_self (G : GMat K) (t c : ℕ) (x : K) : G.put t c x t c = x := by simp [GMat.put]

theorem put_row (G : GMat K) {t r : ℕ} (c : ℕ) (x : K) (h : r ≠ t) : G.put t c x r = G r := by
  funext j
  simp [GMat.put, h]

theorem put_col (G : GMat K) (t : ℕ) {c j : ℕ} (x : K) (h : j ≠ c) : G.put t c x t j = G t j := by
  simp [GMat.put, h]

end Val

variable {K : Type} [Field K] {A : Type} [CommRing A] (φ : K →+* A)

/-- The value of a row as a polynomial. -/
def rowValA (n : ℕ) (ev : ℕ → A) (G : GMat K) (r : ℕ) : A := ∑ x ∈ range n, φ (G r x) * ev x

/-- The value of a row as a polynomial, at a point with coordinates in the field. -/
def rowVal (n : ℕ) (ev : ℕ → K) (G : GMat K) (r : ℕ) : K := ∑ x ∈ range n, G r x * ev x

theorem rowValA_id (n : ℕ) (ev : ℕ → K) (G : GMat K) (r : ℕ) :
    rowValA (RingHom.id K) n ev G r = rowVal n ev G r := rfl

theorem rowVal_put {n : ℕ} (ev : ℕ → A) (G : GMat K) (t : ℕ) {c : ℕ} (x : K) (hc : c < n) :
    rowValA φ n ev (G.put t c x) t = rowValA φ n ev G t + φ (x - G t c) * ev c := by
  unfold rowValA
  rw [← sum_erase_add _ _ (mem_range.2 hc), ← sum_erase_add _ _ (mem_range.2 hc), put_self]
  have : ∑ j ∈ (range n).erase c, φ (G.put t c x t j) * ev j = ∑ j ∈ (range n).erase c, φ (G t j) * ev j :=
    sum_congr rfl fun j hj => by rw [put_col G t x (ne_of_mem_erase hj)]
  rw [this, map_sub]
  ring

theorem rowVal_congr {n : ℕ} (ev : ℕ → A) {G G' : GMat K} {r : ℕ} (h : G r = G' r) :
    rowValA φ n ev G r = rowValA φ n ev G' r := by
  unfold rowValA
  rw [h]

theorem rowVal_list {n : ℕ} (ev : ℕ → A) (G : GMat K) (r : ℕ) (L : List ℕ) (hd : L.Nodup)
    (hn : ∀ x ∈ L, x < n) (h0 : ∀ x, x < n → x ∉ L → G r x = 0) :
    rowValA φ n ev G r = (L.map fun x => φ (G r x) * ev x).sum := by
  unfold rowValA
  rw [← List.sum_toFinset _ hd]
  symm
  apply sum_subset
  · intro x hx
    exact mem_range.2 (hn x (List.mem_toFinset.1 hx))
  · intro x hx hnx
    rw [h0 x (mem_range.1 hx) (fun h => hnx (List.mem_toFinset.2 h)), map_zero, zero_mul]

theorem sub_row (G : GMat K) {t r' : ℕ} (r : ℕ) (f : K) (ps : List ℕ) (h : r' ≠ t) :
    (G.sub t r f ps) r' = G r' := by
  unfold GMat.sub
  induction ps generalizing G with
  | nil => rfl
  | cons p ps ih =>
    rw [List.foldl_cons, ih]
    exact put_row G _ _ h

theorem sub_col (G : GMat K) {t j : ℕ} (r : ℕ) (f : K) (ps : List ℕ)
    (h : ∀ p ∈ ps, j ≠ p / 1000) : (G.sub t r f ps) t j = G t j := by
  unfold GMat.sub
  induction ps generalizing G with
  | nil => rfl
  | cons p ps ih =>
    rw [List.foldl_cons, ih _ fun q hq => h q (List.mem_cons_of_mem _ hq)]
    exact put_col G _ _ (h p List.mem_cons_self)

theorem rowVal_sub {n : ℕ} (ev : ℕ → A) (G : GMat K) {t r : ℕ} (hrt : r ≠ t) (f : K) (ps : List ℕ)
    (hn : ∀ p ∈ ps, p / 1000 < n) :
    rowValA φ n ev (G.sub t r f ps) t =
      rowValA φ n ev G t - φ f * (ps.map fun p => φ (G r (p % 1000)) * ev (p / 1000)).sum := by
  unfold GMat.sub
  induction ps generalizing G with
  | nil => simp
  | cons p ps ih =>
    rw [List.foldl_cons, ih _ fun q hq => hn q (List.mem_cons_of_mem _ hq),
      rowVal_put φ ev G t _ (hn p List.mem_cons_self), put_row G _ _ hrt, List.map_cons,
      List.sum_cons, map_sub, map_sub, map_mul]
    ring

/-! ### The monomials of a statement -/

/-- The pairs have columns in range and codes that differ by a shift. -/
def pairsMono (codes n sh : ℕ) : List ℕ → Bool
  | [] => true
  | p :: ps => and (and (Nat.blt (Nat.div p 1000) n) (Nat.blt (Nat.mod p 1000) n))
      (and (Nat.beq (gcode codes (Nat.div p 1000)) (Nat.add (gcode codes (Nat.mod p 1000)) sh))
        (pairsMono codes n sh ps))

theorem pairsMono_spec {codes n sh : ℕ} : ∀ {ps : List ℕ}, pairsMono codes n sh ps = true →
    ∀ p ∈ ps, (p / 1000 < n ∧ p % 1000 < n) ∧ gcode codes (p / 1000) = gcode codes (p % 1000) + sh
  | [], _ => by simp
  | q :: ps, h => by
    unfold pairsMono at h
    rw [Bool.and_eq_true, Bool.and_eq_true, Bool.and_eq_true, Nat.blt_eq, Nat.blt_eq, Nat.beq_eq] at h
    intro p hp
    rcases List.mem_cons.1 hp with rfl | hp
    · exact ⟨h.1, h.2.1⟩
    · exact pairsMono_spec h.2.2 p hp

/-- The pairs of an elimination have columns in range and differ by the shift of the leading
term. -/
def elimMono (codes : ℕ) (k n c l : ℕ) (ps : List ℕ) : Bool :=
  monoSmall k (gcode codes c - gcode codes l) && gcode codes l ≤ gcode codes c && c < n && l < n &&
    pairsMono codes n (gcode codes c - gcode codes l) ps

/-- The shift of the first row in a statement `spoly`. -/
def spolyShift (codes : ℕ) (es : List ℕ) : ℕ :=
  match es.find? fun e => e / 1000 % 1000 != 999 with
  | some e => gcode codes (e / 1000000) - gcode codes (e / 1000 % 1000)
  | none => 0

/-- The triples of a statement `spoly` differ by the shifts of the two rows. -/
def spolyMono (codes : ℕ) (k n l₁ l₂ : ℕ) (es : List ℕ) : Bool :=
  let s₁ := spolyShift codes es
  let s₂ := gcode codes l₁ + s₁ - gcode codes l₂
  monoSmall k s₁ && monoSmall k s₂ && gcode codes l₂ ≤ gcode codes l₁ + s₁ && l₁ < n && l₂ < n &&
    es.all fun e => e / 1000000 < n &&
      (e / 1000 % 1000 == 999 || (e / 1000 % 1000 < n &&
        gcode codes (e / 1000000) == gcode codes (e / 1000 % 1000) + s₁)) &&
      (e % 1000 == 999 || (e % 1000 < n &&
        gcode codes (e / 1000000) == gcode codes (e % 1000) + s₂))

/-- The rows of a statement are different and its columns fit together as monomials. -/
def GStmt.monoOk (codes : ℕ) (k n : ℕ) : GStmt → Bool
  | .spoly t r₁ l₁ r₂ l₂ es => r₁ != t && r₂ != t && spolyMono codes k n l₁ l₂ es
  | .elim t c r l ps => r != t && elimMono codes k n c l ps
  | .elimC _ t c r l ps => r != t && elimMono codes k n c l ps
  | .norm _ _ => true
  | .rowSub t c r => r != t && c < n

/-! ### Nothing left out -/

/-- The columns of the first or second row of a statement `spoly`. -/
def spolyL (es : List ℕ) : List ℕ := (es.map fun e => e / 1000 % 1000).filter (· ≠ 999)

def spolyR (es : List ℕ) : List ℕ := (es.map fun e => e % 1000).filter (· ≠ 999)

/-- No term of the rows used by a statement is left out. -/
def GStmt.Exact (n : ℕ) (G : GMat K) : GStmt → Prop
  | .spoly t r₁ l₁ r₂ l₂ es =>
    (l₁ :: spolyL es).Nodup ∧ (l₂ :: spolyR es).Nodup ∧ (es.map fun e => e / 1000000).Nodup ∧
    (∀ x, x < n → x ∉ es.map (fun e => e / 1000000) → G t x = 0) ∧
    ((∀ x, x < n → x ∉ l₁ :: spolyL es → G r₁ x = 0) ∧
      (∀ x, x < n → x ∉ l₂ :: spolyR es → G r₂ x = 0) ∨
    l₁ = l₂ ∧ ∀ x, x < n →
      (if x ∈ l₁ :: spolyL es then 0 else G r₁ x / G r₁ l₁) =
        if x ∈ l₂ :: spolyR es then 0 else G r₂ x / G r₂ l₂)
  | .elim t c r l ps => G t c = 0 ∨ (l :: ps.map (· % 1000)).Nodup ∧
    ∀ x, x < n → x ∉ l :: ps.map (· % 1000) → G r x = 0
  | .elimC neg t c r l ps => G t c = 0 ∨ (l :: ps.map (· % 1000)).Nodup ∧
    (∀ x, x < n → x ∉ l :: ps.map (· % 1000) → G r x = 0) ∧ G r l = if neg then -1 else 1
  | .norm _ _ => True
  | .rowSub _ _ _ => True

/-- An elimination with factor zero changes nothing. -/
theorem elim_zero {G : GMat K} {t c r : ℕ} (ps : List ℕ) (h : G t c = 0) :
    (G.put t c 0).sub t r 0 ps = G := by
  have e : G.put t c 0 = G := by
    funext i j
    unfold GMat.put
    split_ifs with hij
    · rw [hij.1, hij.2, h]
    · rfl
  rw [e]
  unfold GMat.sub
  induction ps with
  | nil => rfl
  | cons p ps ih =>
    rw [List.foldl_cons]
    have : G.put t (p / 1000) (G t (p / 1000) - 0 * G r (p % 1000)) = G := by
      funext i j
      unfold GMat.put
      split_ifs with hij
      · rw [hij.1, hij.2, zero_mul, sub_zero]
      · rfl
    rw [this, ih]

/-- The leading terms cancel and the rest is a multiple of the pivot row. -/
theorem elim_sound {n : ℕ} {codes : ℕ} {zs : List A}
    (hs : ∀ c, monoSmall zs.length (gcode codes c) = true)
    {G : GMat K} {t c r l : ℕ} {ps : List ℕ} (hm : elimMono codes zs.length n c l ps = true)
    (hrt : r ≠ t) (hd : (l :: ps.map (· % 1000)).Nodup)
    (h0 : ∀ x, x < n → x ∉ l :: ps.map (· % 1000) → G r x = 0) (f : K) (hf : f * G r l = G t c)
    (ht : rowValA φ n (colEv codes zs) G t = 0) (hr : rowValA φ n (colEv codes zs) G r = 0) :
    rowValA φ n (colEv codes zs) ((G.put t c 0).sub t r f ps) t = 0 := by
  obtain ⟨ev, hev⟩ : ∃ ev, ev = colEv codes zs := ⟨_, rfl⟩
  unfold elimMono at hm
  simp only [Bool.and_eq_true, decide_eq_true_eq] at hm
  obtain ⟨⟨⟨⟨hsm, hle⟩, hc⟩, hl⟩, hps⟩ := hm
  replace hps := pairsMono_spec hps
  obtain ⟨s, hS⟩ : ∃ s, s = monoEv zs (gcode codes c - gcode codes l) := ⟨_, rfl⟩
  have hshift : ∀ a b : ℕ, gcode codes a = gcode codes b + (gcode codes c - gcode codes l) →
      ev a = ev b * s := by
    intro a b hab
    rw [hev, hS]
    show monoEv zs (gcode codes a) = monoEv zs (gcode codes b) * _
    rw [hab, monoEv_add zs _ _ (hs b) hsm]
  rw [← hev] at ht hr ⊢
  rw [rowVal_sub φ ev _ hrt f ps fun p hp => (hps p hp).1.1, rowVal_put φ ev G t 0 hc, ht, zero_sub, map_neg,
    put_row G _ _ hrt]
  rw [rowVal_list φ ev G r _ hd (by
    intro x hx
    rcases List.mem_cons.1 hx with rfl | hx
    · exact hl
    · obtain ⟨p, hp, rfl⟩ := List.mem_map.1 hx
      exact (hps p hp).1.2) h0, List.map_cons, List.sum_cons, List.map_map] at hr
  have e : (ps.map fun p => φ (G r (p % 1000)) * ev (p / 1000)).sum =
      (ps.map ((fun x => φ (G r x) * ev x) ∘ fun p => p % 1000)).sum * s := by
    rw [← List.sum_map_mul_right]
    congr 1
    apply List.map_congr_left
    intro p hp
    rw [hshift _ _ (hps p hp).2, Function.comp]
    ring
  rw [e, hshift c l (by omega)]
  have hf' := congrArg φ hf
  rw [map_mul] at hf'
  linear_combination (-s * φ f) * hr + (ev l * s) * hf'

/-! ### Statements `spoly` -/

section Spoly

theorem spoly_fold_row (G : GMat K) {t r r₁ l₁ r₂ l₂ : ℕ} (es : List ℕ) (h : r ≠ t) :
    (es.foldl (fun G e => G.put t (e / 1000000)
      (G.quot r₁ l₁ (e / 1000 % 1000) - G.quot r₂ l₂ (e % 1000))) G) r = G r := by
  induction es generalizing G with
  | nil => rfl
  | cons e es ih =>
    rw [List.foldl_cons, ih]
    exact put_row G _ _ h

theorem spoly_fold_col (G : GMat K) {t x r₁ l₁ r₂ l₂ : ℕ} (es : List ℕ)
    (h : ∀ e ∈ es, x ≠ e / 1000000) :
    (es.foldl (fun G e => G.put t (e / 1000000)
      (G.quot r₁ l₁ (e / 1000 % 1000) - G.quot r₂ l₂ (e % 1000))) G) t x = G t x := by
  induction es generalizing G with
  | nil => rfl
  | cons e es ih =>
    rw [List.foldl_cons, ih _ fun q hq => h q (List.mem_cons_of_mem _ hq)]
    exact put_col G _ _ (h e List.mem_cons_self)

theorem quot_congr {G G' : GMat K} {r : ℕ} (h : G r = G' r) (l a : ℕ) :
    G.quot r l a = G'.quot r l a := by
  simp [GMat.quot, h]

/-- The value of the new row. -/
theorem spoly_fold_val {n : ℕ} (ev : ℕ → A) (G : GMat K) {t r₁ l₁ r₂ l₂ : ℕ} (h1 : r₁ ≠ t)
    (h2 : r₂ ≠ t) (es : List ℕ) (hn : ∀ e ∈ es, e / 1000000 < n)
    (hd : (es.map fun e => e / 1000000).Nodup) :
    rowValA φ n ev (es.foldl (fun G e => G.put t (e / 1000000)
      (G.quot r₁ l₁ (e / 1000 % 1000) - G.quot r₂ l₂ (e % 1000))) G) t =
      rowValA φ n ev G t - (es.map fun e => φ (G t (e / 1000000)) * ev (e / 1000000)).sum +
        (es.map fun e => φ (G.quot r₁ l₁ (e / 1000 % 1000) - G.quot r₂ l₂ (e % 1000)) *
          ev (e / 1000000)).sum := by
  induction es generalizing G with
  | nil => simp
  | cons e es ih =>
    rw [List.map_cons, List.nodup_cons] at hd
    rw [List.foldl_cons, ih _ (fun q hq => hn q (List.mem_cons_of_mem _ hq)) hd.2,
      rowVal_put φ ev G t _ (hn e List.mem_cons_self)]
    have e1 : ((es.map fun q => φ ((G.put t (e / 1000000) (G.quot r₁ l₁ (e / 1000 % 1000) -
        G.quot r₂ l₂ (e % 1000))) t (q / 1000000)) * ev (q / 1000000))) =
        es.map fun q => φ (G t (q / 1000000)) * ev (q / 1000000) :=
      List.map_congr_left fun q hq => by
        rw [put_col]
        intro h
        exact hd.1 (h ▸ List.mem_map.2 ⟨q, hq, rfl⟩)
    have e2 : ∀ a, (G.put t (e / 1000000) (G.quot r₁ l₁ (e / 1000 % 1000) -
        G.quot r₂ l₂ (e % 1000))).quot r₁ l₁ a = G.quot r₁ l₁ a :=
      fun a => quot_congr (put_row G _ _ h1) _ _
    have e3 : ∀ a, (G.put t (e / 1000000) (G.quot r₁ l₁ (e / 1000 % 1000) -
        G.quot r₂ l₂ (e % 1000))).quot r₂ l₂ a = G.quot r₂ l₂ a :=
      fun a => quot_congr (put_row G _ _ h2) _ _
    rw [e1]
    simp only [e2, e3, List.map_cons, List.sum_cons, map_sub]
    ring

/-- The sum of the quotients of one row, by its columns. -/
theorem spoly_side {n : ℕ} (ev : ℕ → A) (G : GMat K) (r l : ℕ) (s : A) (es : List ℕ) (col : ℕ → ℕ)
    (hev : ∀ e ∈ es, col e ≠ 999 → ev (e / 1000000) = ev (col e) * s) (hl : l < n)
    (hn : ∀ e ∈ es, col e ≠ 999 → col e < n) (hp : G r l ≠ 0)
    (hd : (l :: (es.map col).filter (· ≠ 999)).Nodup) :
    (es.map fun e => φ (G.quot r l (col e)) * ev (e / 1000000)).sum =
      s * (φ (G r l)⁻¹ * rowValA φ n ev G r - ev l - ∑ x ∈ range n,
        φ (if x ∈ l :: (es.map col).filter (· ≠ 999) then 0 else G r x / G r l) * ev x) := by
  obtain ⟨L, hL⟩ : ∃ L, L = (es.map col).filter (· ≠ 999) := ⟨_, rfl⟩
  have hLn : ∀ x ∈ L, x < n := by
    intro x hx
    rw [hL, List.mem_filter] at hx
    obtain ⟨e, he, rfl⟩ := List.mem_map.1 hx.1
    exact hn e he (by simpa using hx.2)
  have e1 : (es.map fun e => φ (G.quot r l (col e)) * ev (e / 1000000)).sum =
      s * (L.map fun x => φ (G r x / G r l) * ev x).sum := by
    rw [hL]
    clear hL hd hLn
    induction es with
    | nil => simp
    | cons e es ih =>
      rw [List.map_cons, List.sum_cons, ih (fun q hq => hev q (List.mem_cons_of_mem _ hq))
        (fun q hq => hn q (List.mem_cons_of_mem _ hq)), List.map_cons]
      by_cases h : col e = 999
      · rw [List.filter_cons_of_neg (by simp [h])]
        simp [GMat.quot, h]
      · rw [List.filter_cons_of_pos (by simp [h]), List.map_cons, List.sum_cons,
          hev e List.mem_cons_self h]
        simp only [GMat.quot, if_neg h]
        ring
  have e2 : φ (G r l)⁻¹ * rowValA φ n ev G r = ((l :: L).map fun x => φ (G r x / G r l) * ev x).sum +
      ∑ x ∈ range n, φ (if x ∈ l :: L then 0 else G r x / G r l) * ev x := by
    rw [← hL] at hd
    rw [← List.sum_toFinset _ hd]
    have hsub : (l :: L).toFinset ⊆ range n := by
      intro x hx
      rw [List.mem_toFinset] at hx
      rcases List.mem_cons.1 hx with rfl | hx
      · exact mem_range.2 hl
      · exact mem_range.2 (hLn x hx)
    rw [← sum_sdiff hsub]
    have z : ∑ x ∈ (l :: L).toFinset, φ (if x ∈ l :: L then 0 else G r x / G r l) * ev x = 0 :=
      sum_eq_zero fun x hx => by rw [if_pos (List.mem_toFinset.1 hx), map_zero, zero_mul]
    have z' : ∑ x ∈ range n \ (l :: L).toFinset, φ (if x ∈ l :: L then 0 else G r x / G r l) * ev x =
        ∑ x ∈ range n \ (l :: L).toFinset, φ (G r x / G r l) * ev x :=
      sum_congr rfl fun x hx => by
        rw [if_neg fun h => (mem_sdiff.1 hx).2 (List.mem_toFinset.2 h)]
    have z'' : ∀ S : Finset ℕ, ∑ x ∈ S, φ (G r x / G r l) * ev x =
        φ (G r l)⁻¹ * ∑ x ∈ S, φ (G r x) * ev x := by
      intro S
      rw [mul_sum]
      exact sum_congr rfl fun x _ => by rw [div_eq_mul_inv, map_mul]; ring
    rw [z, z', z'', z'', rowValA, ← sum_sdiff hsub (f := fun x => φ (G r x) * ev x), mul_add]
    ring
  rw [e1, ← hL, e2, List.map_cons, List.sum_cons, div_self hp, map_one]
  ring

theorem spoly_sound {n : ℕ} {codes : ℕ} {zs : List A}
    (hs : ∀ c, monoSmall zs.length (gcode codes c) = true)
    {G : GMat K} {t r₁ l₁ r₂ l₂ : ℕ} {es : List ℕ}
    (hm : spolyMono codes zs.length n l₁ l₂ es = true) (h1 : r₁ ≠ t) (h2 : r₂ ≠ t)
    (hx : (GStmt.spoly t r₁ l₁ r₂ l₂ es).Exact n G) (p1 : G r₁ l₁ ≠ 0) (p2 : G r₂ l₂ ≠ 0)
    (v1 : rowValA φ n (colEv codes zs) G r₁ = 0) (v2 : rowValA φ n (colEv codes zs) G r₂ = 0) :
    rowValA φ n (colEv codes zs) (es.foldl (fun G e => G.put t (e / 1000000)
      (G.quot r₁ l₁ (e / 1000 % 1000) - G.quot r₂ l₂ (e % 1000))) G) t = 0 := by
  obtain ⟨ev, hev⟩ : ∃ ev, ev = colEv codes zs := ⟨_, rfl⟩
  unfold spolyMono at hm
  simp only [Bool.and_eq_true, decide_eq_true_eq, List.all_eq_true, beq_iff_eq,
    Bool.or_eq_true] at hm
  obtain ⟨⟨⟨⟨⟨hs1, hs2⟩, hle⟩, hl1⟩, hl2⟩, hes⟩ := hm
  obtain ⟨σ₁, hσ₁⟩ : ∃ s, s = spolyShift codes es := ⟨_, rfl⟩
  rw [← hσ₁] at hs1 hs2 hle hes
  obtain ⟨σ₂, hσ₂⟩ : ∃ s, s = gcode codes l₁ + σ₁ - gcode codes l₂ := ⟨_, rfl⟩
  rw [← hσ₂] at hs2 hes
  have hshift : ∀ a b s : ℕ, monoSmall zs.length s = true → gcode codes a = gcode codes b + s →
      ev a = ev b * monoEv zs s := by
    intro a b s h hab
    rw [hev]
    show monoEv zs (gcode codes a) = monoEv zs (gcode codes b) * _
    rw [hab, monoEv_add zs _ _ (hs b) h]
  have hlead : ev l₁ * monoEv zs σ₁ = ev l₂ * monoEv zs σ₂ := by
    rw [hev]
    show monoEv zs (gcode codes l₁) * _ = monoEv zs (gcode codes l₂) * _
    rw [← monoEv_add zs _ _ (hs _) hs1, ← monoEv_add zs _ _ (hs _) hs2]
    congr 1
    omega
  obtain ⟨d1, d2, d3, hz, hx⟩ := hx
  rw [← hev] at v1 v2 ⊢
  rw [spoly_fold_val φ ev G h1 h2 es (fun e he => (hes e he).1.1) d3]
  have ez : rowValA φ n ev G t = (es.map fun e => φ (G t (e / 1000000)) * ev (e / 1000000)).sum := by
    rw [rowVal_list φ ev G t _ d3 (by
      intro x hx
      obtain ⟨e, he, rfl⟩ := List.mem_map.1 hx
      exact (hes e he).1.1) hz, List.map_map]
    rfl
  have s1 := spoly_side φ ev G r₁ l₁ (monoEv zs σ₁) es (fun e => e / 1000 % 1000)
    (fun e he hne => hshift _ _ _ hs1 (((hes e he).1.2.resolve_left hne).2)) hl1
    (fun e he hne => ((hes e he).1.2.resolve_left hne).1) p1 d1
  have s2 := spoly_side φ ev G r₂ l₂ (monoEv zs σ₂) es (fun e => e % 1000)
    (fun e he hne => hshift _ _ _ hs2 (((hes e he).2.resolve_left hne).2)) hl2
    (fun e he hne => ((hes e he).2.resolve_left hne).1) p2 d2
  have split : (es.map fun e => φ (G.quot r₁ l₁ (e / 1000 % 1000) - G.quot r₂ l₂ (e % 1000)) *
      ev (e / 1000000)).sum = (es.map fun e => φ (G.quot r₁ l₁ (e / 1000 % 1000)) *
      ev (e / 1000000)).sum - (es.map fun e => φ (G.quot r₂ l₂ (e % 1000)) * ev (e / 1000000)).sum := by
    clear hes d1 d2 d3 hz hx ez s1 s2 hσ₁
    induction es with
    | nil => simp
    | cons e es ih =>
      rw [List.map_cons, List.sum_cons, ih, List.map_cons, List.sum_cons, List.map_cons,
        List.sum_cons, map_sub]
      ring
  rw [split, s1, s2, ez, v1, v2]
  rcases hx with ⟨x1, x2⟩ | ⟨hl, hx⟩
  · have z1 : ∑ x ∈ range n, φ (if x ∈ l₁ :: spolyL es then 0 else G r₁ x / G r₁ l₁) * ev x = 0 :=
      sum_eq_zero fun x hx => by
        split_ifs with h
        · rw [map_zero, zero_mul]
        · rw [x1 x (mem_range.1 hx) h, zero_div, map_zero, zero_mul]
    have z2 : ∑ x ∈ range n, φ (if x ∈ l₂ :: spolyR es then 0 else G r₂ x / G r₂ l₂) * ev x = 0 :=
      sum_eq_zero fun x hx => by
        split_ifs with h
        · rw [map_zero, zero_mul]
        · rw [x2 x (mem_range.1 hx) h, zero_div, map_zero, zero_mul]
    unfold spolyL at z1
    unfold spolyR at z2
    rw [z1, z2]
    linear_combination -hlead
  · have hσ : σ₂ = σ₁ := by
      rw [hσ₂, hl]
      omega
    have z : ∑ x ∈ range n, φ (if x ∈ l₁ :: spolyL es then 0 else G r₁ x / G r₁ l₁) * ev x =
        ∑ x ∈ range n, φ (if x ∈ l₂ :: spolyR es then 0 else G r₂ x / G r₂ l₂) * ev x :=
      sum_congr rfl fun x hx' => by rw [hx x (mem_range.1 hx')]
    unfold spolyL spolyR at z
    rw [z, hσ, hl]
    ring

end Spoly

/-! ### Statements and programs -/

section Run

variable [DecidableEq K]

/-- A statement keeps the rows zero at the point. -/
theorem exec_sound {n : ℕ} {codes : ℕ} {zs : List A}
    (hs : ∀ c, monoSmall zs.length (gcode codes c) = true) {G G' : GMat K} {st : GStmt}
    (hm : st.monoOk codes zs.length n = true) (hx : st.Exact n G) (he : st.exec G = some G')
    (hv : ∀ r, rowValA φ n (colEv codes zs) G r = 0) (r : ℕ) :
    rowValA φ n (colEv codes zs) G' r = 0 := by
  cases st with
  | spoly t r₁ l₁ r₂ l₂ es =>
    simp only [GStmt.exec] at he
    split_ifs at he with h
    rw [not_or] at h
    rw [← Option.some.inj he]
    simp only [GStmt.monoOk, Bool.and_eq_true, bne_iff_ne, ne_eq] at hm
    by_cases hr : r = t
    · rw [hr]
      exact spoly_sound φ hs hm.2 hm.1.1 hm.1.2 hx h.1 h.2 (hv _) (hv _)
    · rw [rowVal_congr φ _ (spoly_fold_row G es hr)]
      exact hv r
  | elim t c r' l ps =>
    simp only [GStmt.exec] at he
    split_ifs at he with h
    rw [← Option.some.inj he]
    simp only [GStmt.monoOk, Bool.and_eq_true, bne_iff_ne, ne_eq] at hm
    rcases hx with hx | hx
    · rw [hx, zero_div, elim_zero ps hx]
      exact hv r
    by_cases hr : r = t
    · rw [hr]
      exact elim_sound φ hs hm.2 hm.1 hx.1 hx.2 _ (div_mul_cancel₀ _ h) (hv _) (hv _)
    · rw [rowVal_congr φ _ ((sub_row _ _ _ _ hr).trans (put_row G _ _ hr))]
      exact hv r
  | elimC neg t c r' l ps =>
    simp only [GStmt.exec] at he
    rw [← Option.some.inj he]
    simp only [GStmt.monoOk, Bool.and_eq_true, bne_iff_ne, ne_eq] at hm
    rcases hx with hx | hx
    · rw [hx, neg_zero, ite_self, elim_zero ps hx]
      exact hv r
    by_cases hr : r = t
    · rw [hr]
      refine elim_sound φ hs hm.2 hm.1 hx.1 hx.2.1 _ ?_ (hv _) (hv _)
      rw [hx.2.2]
      cases neg <;> simp
    · rw [rowVal_congr φ _ ((sub_row _ _ _ _ hr).trans (put_row G _ _ hr))]
      exact hv r
  | norm r' c =>
    simp only [GStmt.exec] at he
    split_ifs at he with h
    rw [← Option.some.inj he]
    by_cases hr : r = r'
    · have := hv r'
      unfold rowValA at this ⊢
      rw [hr]
      simp only [if_true, map_mul, mul_assoc, ← mul_sum, this, mul_zero]
    · have := hv r
      unfold rowValA at this ⊢
      simpa only [if_neg hr] using this
  | rowSub t c r' =>
    simp only [GStmt.exec] at he
    rw [← Option.some.inj he]
    by_cases hr : r = t
    · have h1 := hv t
      have h2 := hv r'
      unfold rowValA at h1 h2 ⊢
      rw [hr]
      simp only [if_true, map_sub, map_mul, sub_mul, mul_assoc, sum_sub_distrib, ← mul_sum, h1, h2, mul_zero,
        sub_zero]
    · have := hv r
      unfold rowValA at this ⊢
      simpa only [if_neg hr] using this

/-- No statement of a program leaves out a term. -/
def gExact (n : ℕ) : GMat K → List GStmt → Prop
  | _, [] => True
  | G, st :: prog => st.Exact n G ∧ ∀ G', st.exec G = some G' → gExact n G' prog

theorem gRun_cons (G : GMat K) (st : GStmt) (prog : List GStmt) :
    gRun G (st :: prog) = (st.exec G).bind fun G' => gRun G' prog := by
  unfold gRun
  rw [List.foldlM_cons]
  rfl

/-- A program keeps the rows zero at the point. -/
theorem gRun_sound {n : ℕ} {codes : ℕ} {zs : List A}
    (hs : ∀ c, monoSmall zs.length (gcode codes c) = true) (prog : List GStmt)
    (hm : prog.all (GStmt.monoOk codes zs.length n) = true) :
    ∀ {G G' : GMat K}, gExact n G prog → gRun G prog = some G' →
      (∀ r, rowValA φ n (colEv codes zs) G r = 0) → ∀ r, rowValA φ n (colEv codes zs) G' r = 0 := by
  induction prog with
  | nil =>
    intro G G' _ he hv
    unfold gRun at he
    rw [List.foldlM_nil] at he
    rw [← Option.some.inj he]
    exact hv
  | cons st prog ih =>
    intro G G' hx he hv
    rw [List.all_cons, Bool.and_eq_true] at hm
    rw [gRun_cons] at he
    cases h : st.exec G with
    | none => rw [h] at he; exact absurd he (by simp)
    | some G1 =>
      rw [h, Option.bind_some] at he
      exact ih hm.2 (hx.2 G1 h) he (exec_sound φ hs hm.1 hx.1 h hv)

end Run

end OpenGV
