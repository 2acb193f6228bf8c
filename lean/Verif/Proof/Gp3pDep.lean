import Verif.Proof.Gp3pRing

/-!
# The rows 21 to 29 of the elimination of `gp3p`, and the S-polynomials of the rows 30, 31 and 32

Modulo the quadrics the rows 21 to 29 are multiples of the rows 17, 18 and 20 by polynomials of degree
at most one.
-/

namespace OpenGV.Gp3p

open TrivSqZeroExt Finset MvPolynomial OpenGV.Quadrics

section

variable {K : Type} [Field K] [DecidableEq K]

omit [DecidableEq K] in
theorem fold_cancel {t x r₁ l₁ r₂ l₂ : ℕ} (h1 : r₁ ≠ t) (h2 : r₂ ≠ t) (es : List ℕ) :
    ∀ G : GMat K, G t x = 0 →
    (∀ e ∈ es, e / 1000000 = x → G.quot r₁ l₁ (e / 1000 % 1000) - G.quot r₂ l₂ (e % 1000) = 0) →
    (es.foldl (fun G e => G.put t (e / 1000000)
      (G.quot r₁ l₁ (e / 1000 % 1000) - G.quot r₂ l₂ (e % 1000))) G) t x = 0 := by
  induction es with
  | nil => exact fun G hx _ => hx
  | cons e es ih =>
    intro G hx h
    rw [List.foldl_cons]
    have hr : ∀ r, r ≠ t → ∀ c v, (G.put t c v) r = G r := fun r hr c v => put_row G _ _ hr
    apply ih
    · unfold GMat.put
      split_ifs with hc
      · exact h e List.mem_cons_self hc.2.symm
      · exact hx
    · intro e' he' hx'
      rw [quot_congr (hr _ h1 _ _), quot_congr (hr _ h2 _ _)]
      exact h e' (List.mem_cons_of_mem _ he') hx'

/-- The statement is an S-polynomial with given rows, leading columns and shifts, and the entries
claimed to be zero are differences of given pairs of columns. -/
def isSpoly (t r₁ l₁ r₂ l₂ m₁ m₂ Z : ℕ) (Pr : List (ℕ × ℕ)) : GStmt → Bool
  | .spoly t' r₁' l₁' r₂' l₂' es => t' == t && r₁' == r₁ && l₁' == l₁ && r₂' == r₂ && l₂' == l₂ &&
    r₁ != t && r₂ != t && spolyShift codes es == m₁ &&
    gcode codes l₁ + spolyShift codes es - gcode codes l₂ == m₂ &&
    es.all fun e => !Z.testBit (e / 1000000) || Pr.contains (e / 1000 % 1000, e % 1000)
  | _ => false

def spolySegOk (a t r₁ l₁ r₂ l₂ m₁ m₂ : ℕ) (Pr : List (ℕ × ℕ)) : Bool :=
  Nat.blt a 437 && (slice a (a + 1)).all (fun z => isSpoly t r₁ l₁ r₂ l₂ m₁ m₂ z.2.2 Pr z.full) &&
    (stAt a).mask t == 0

/-- A single S-polynomial. -/
theorem spoly_seg {a t r₁ l₁ r₂ l₂ m₁ m₂ : ℕ} {Pr : List (ℕ × ℕ)}
    (hok : spolySegOk a t r₁ l₁ r₂ l₂ m₁ m₂ Pr = true) {G : GMat K} (hS : Supp 92 (stAt a) G)
    (hPr : G r₁ l₁ ≠ 0 → G r₂ l₂ ≠ 0 → ∀ p ∈ Pr, G.quot r₁ l₁ p.1 - G.quot r₂ l₂ p.2 = 0) :
    ZeroRun 92 G (slice a (a + 1)) ∧ ∀ G', gRun G ((slice a (a + 1)).map ZStmt.full) = some G' →
      Supp 92 (stAt (a + 1)) G' ∧ val G' t = (G r₁ l₁)⁻¹ • (monoEv vars m₁ * val G r₁) -
        (G r₂ l₂)⁻¹ • (monoEv vars m₂ * val G r₂) ∧ (∀ r, r ≠ t → G' r = G r) ∧ G r₁ l₁ ≠ 0 ∧
        G r₂ l₂ ≠ 0 := by
  unfold spolySegOk at hok
  rw [Bool.and_eq_true, Bool.and_eq_true, Nat.blt_eq, beq_iff_eq] at hok
  obtain ⟨⟨ha, hsl⟩, h0⟩ := hok
  obtain ⟨z, hz⟩ : ∃ z, slice a (a + 1) = [z] := by
    have : (slice a (a + 1)).length = 1 := by
      unfold slice
      rw [List.length_drop, List.length_take, prog_length]
      omega
    exact List.length_eq_one_iff.1 this
  have hst := stAt_slice (a := a) (b := a + 1) (by omega)
  have hzp : z ∈ prog := slice_mem (a := a) (b := a + 1) (by rw [hz]; exact List.mem_singleton_self z)
  have hmono : z.full.monoOk codes (vars (K := K)).length 92 = true :=
    List.all_eq_true.1 prog_mono z hzp
  rw [hz] at hsl hst ⊢
  rw [List.all_cons, List.all_nil, Bool.and_true] at hsl
  have htar : z.1.target = z.full.target := by
    unfold ZStmt.full
    cases z.1 <;> rfl
  have hzs : zStep (stAt a) z = some (stAt (a + 1)) := by
    unfold zRun at hst
    split at hst
    · exact absurd hst (by simp)
    · rename_i S h
      rw [h]
      exact hst
  generalize hfull : z.full = st at *
  cases st with
  | spoly t' r₁' l₁' r₂' l₂' es =>
    simp only [isSpoly, Bool.and_eq_true, beq_iff_eq, bne_iff_ne, ne_eq] at hsl
    obtain ⟨⟨⟨⟨⟨⟨⟨⟨⟨rfl, rfl⟩, rfl⟩, rfl⟩, rfl⟩, h1⟩, h2⟩, rfl⟩, rfl⟩, hes⟩ := hsl
    have hzero : ∀ G', z.full.exec G = some G' →
        ∀ x, x < 92 → z.2.2.testBit x = true → G' z.1.target x = 0 := by
      intro G' hG' x hx hb
      rw [hfull] at hG'
      simp only [GStmt.exec] at hG'
      split_ifs at hG' with hp
      rw [not_or] at hp
      rw [htar, ← Option.some.inj hG']
      refine fold_cancel h1 h2 es G ?_ ?_
      · refine (hS t').1 x hx ?_
        rw [h0]
        simp
      · intro e he hex
        have := List.all_eq_true.1 hes e he
        rw [hex, hb] at this
        simp only [Bool.not_true, Bool.false_or] at this
        exact hPr hp.1 hp.2 _ (List.contains_iff_mem.1 this)
    obtain ⟨hx, -, hS'⟩ := zStep_spec (k := (vars (K := K)).length) (codes := codes)
      (by rw [hfull]; exact hmono) hS hzs hzero
    rw [hfull] at hx hS'
    refine ⟨fun G' hG' => ⟨hzero G' hG', trivial⟩, fun G' hG' => ?_⟩
    have he : (GStmt.spoly t' r₁' l₁' r₂' l₂' es).exec G = some G' := by
      rw [List.map_singleton, gRun_cons, hfull] at hG'
      cases h : (GStmt.spoly t' r₁' l₁' r₂' l₂' es).exec G with
      | none => rw [h] at hG'; exact absurd hG' (by simp)
      | some H => rw [h] at hG'; exact hG'
    refine ⟨hS' G' he, ?_⟩
    have hrow : ∀ r, r ≠ t' → G' r = G r := fun r hr => exec_row he hr
    simp only [GStmt.exec] at he
    split_ifs at he with hp
    rw [not_or] at hp
    refine ⟨?_, hrow, hp.1, hp.2⟩
    rw [← Option.some.inj he]
    simp only [GStmt.monoOk, Bool.and_eq_true, bne_iff_ne, ne_eq] at hmono
    unfold val
    have := spoly_val (K := K) (A := Dep (P K)) (n := 92) (codes := codes) (zs := vars) vars_small hmono.2 h1 h2
      hx hp.1 hp.2
    generalize rowValA (algebraMap K (Dep (P K))) 92 (colEv codes vars) _ t' = w at this ⊢
    generalize rowValA (algebraMap K (Dep (P K))) 92 (colEv codes vars) _ r₁' = w1 at this ⊢
    generalize rowValA (algebraMap K (Dep (P K))) 92 (colEv codes vars) _ r₂' = w2 at this ⊢
    exact this
  | elim _ _ _ _ _ => simp [isSpoly] at hsl
  | elimC _ _ _ _ _ _ => simp [isSpoly] at hsl
  | norm _ _ => simp [isSpoly] at hsl
  | rowSub _ _ _ => simp [isSpoly] at hsl

end

section

variable {K R : Type} [Field K] [CommRing R] [Algebra K R]

/-- The polynomials of degree at most one. -/
noncomputable def Lin (f : P K →ₐ[K] R) : Submodule K R :=
  Submodule.span K {1, f (X 0), f (X 1), f (X 2)}

/-- The row with the equation of a depth. -/
def baseRow : Fin 3 → ℕ := ![17, 18, 20]

/-- The column of its leading term. -/
def basePiv : Fin 3 → ℕ := ![44, 43, 42]

/-- The multiples of the equation of a depth. -/
noncomputable def EQ (B : GMat K) (f : P K →ₐ[K] R) (i : Fin 3) : Submodule K (Dep R) where
  carrier := {w | ∃ t ∈ Lin f, w = inl t * dmap f (val B (baseRow i))}
  add_mem' := by
    rintro v w ⟨s, hs, rfl⟩ ⟨t, ht, rfl⟩
    exact ⟨s + t, (Lin f).add_mem hs ht, by rw [inl_add, add_mul]⟩
  zero_mem' := ⟨0, (Lin f).zero_mem, by rw [inl_zero, zero_mul]⟩
  smul_mem' := by
    rintro c w ⟨s, hs, rfl⟩
    exact ⟨c • s, (Lin f).smul_mem c hs, by rw [inl_smul, smul_mul_assoc]⟩

theorem one_Lin (f : P K →ₐ[K] R) : 1 ∈ Lin f := Submodule.subset_span (by simp)
theorem x_Lin (f : P K →ₐ[K] R) : f (X 0) ∈ Lin f := Submodule.subset_span (by simp)
theorem y_Lin (f : P K →ₐ[K] R) : f (X 1) ∈ Lin f := Submodule.subset_span (by simp)
theorem z_Lin (f : P K →ₐ[K] R) : f (X 2) ∈ Lin f := Submodule.subset_span (by simp)

/-- What is known about the row `r` for the rows 21 to 29. -/
def cls (r : ℕ) : Fin 3 := ⟨r % 3, Nat.mod_lt _ (by omega)⟩

/-- What holds for the rows below `t`; `B` is the matrix after the row 20. -/
structure Inv2 (B : GMat K) (f : P K →ₐ[K] R) (t : ℕ) (G : GMat K) : Prop where
  rows : ∀ r, r < 21 → G r = B r
  e : ∀ r, 21 ≤ r → r < t → r < 30 → dmap f (val G r) ∈ EQ B f (cls r)
  p18 : 22 < t → G 18 43 ≠ 0
  p20 : 23 < t → G 20 42 ≠ 0
  p21 : 24 < t → G 21 14 ≠ 0

theorem Inv2.succ {B : GMat K} {f : P K →ₐ[K] R} {t : ℕ} {G G' : GMat K} (h : Inv2 B f t G) (ht : 21 ≤ t)
    (hr : ∀ r, r ≠ t → G' r = G r) (he : t < 30 → dmap f (val G' t) ∈ EQ B f (cls t))
    (p18 : t = 22 → G 18 43 ≠ 0) (p20 : t = 23 → G 20 42 ≠ 0) (p21 : t = 24 → G 21 14 ≠ 0) :
    Inv2 B f (t + 1) G' where
  rows r h' := by rw [hr r (by omega)]; exact h.rows r h'
  e r h1 h2 h3 := by
    by_cases hrt : r = t
    · rw [hrt]; exact he (by omega)
    · rw [val_congr (hr r hrt)]; exact h.e r h1 (by omega) h3
  p18 h' := by
    rw [hr 18 (by omega)]
    by_cases hrt : t = 22
    · exact p18 hrt
    · exact h.p18 (by omega)
  p20 h' := by
    rw [hr 20 (by omega)]
    by_cases hrt : t = 23
    · exact p20 hrt
    · exact h.p20 (by omega)
  p21 h' := by
    rw [hr 21 (by omega)]
    by_cases hrt : t = 24
    · exact p21 hrt
    · exact h.p21 (by omega)

/-- The rows that vanish modulo the quadrics. -/
def zrows : List ℕ := [10, 12, 15, 16, 19]

/-- The sources of a row. -/
def srcsOf (a c : ℕ) : List (ℕ × ℕ) := ((slice a c).map ZStmt.full).flatMap (GStmt.srcs codes)

/-- The sources allowed for the rows 21 to 29. -/
def srcOk2 (t : ℕ) (p : ℕ × ℕ) : Bool :=
  zrows.contains p.1 || (p.1 == baseRow (cls t) && [0, 1, 0x10, 0x100].contains p.2) ||
    (p.2 == 0 && Nat.ble 21 p.1 && Nat.blt p.1 t && p.1 % 3 == t % 3)

variable {B : GMat K} {f : P K →ₐ[K] R} (hz : ∀ r ∈ zrows, dmap f (val B r) = 0)

theorem cls_congr {r t : ℕ} (h : r % 3 = t % 3) : cls r = cls t := Fin.ext h

theorem baseRow_lt (i : Fin 3) : baseRow i < 21 := by fin_cases i <;> decide

include hz in
theorem src2 {t : ℕ} {G : GMat K} (hI : Inv2 B f t G) (ht : t < 30) {p : ℕ × ℕ} (hp : srcOk2 t p = true) :
    dmap f (monoEv vars p.2 * val G p.1) ∈ EQ B f (cls t) := by
  obtain ⟨r, m⟩ := p
  unfold srcOk2 at hp
  simp only [Bool.or_eq_true, Bool.and_eq_true, beq_iff_eq, Nat.ble_eq, Nat.blt_eq] at hp
  dsimp only
  rw [dmap_mul]
  rcases hp with (hp | ⟨rfl, hm⟩) | ⟨⟨⟨rfl, h1⟩, h2⟩, h3⟩
  · have hr := List.contains_iff_mem.1 hp
    have hlt : r < 21 := by
      simp only [zrows, List.mem_cons, List.not_mem_nil, or_false] at hr
      omega
    rw [val_congr (hI.rows r hlt), hz r hr, mul_zero]
    exact Submodule.zero_mem _
  · have hm := List.contains_iff_mem.1 hm
    simp only [List.mem_cons, List.not_mem_nil, or_false] at hm
    rw [val_congr (hI.rows _ (baseRow_lt _))]
    rcases hm with rfl | rfl | rfl | rfl
    · rw [ev_one, ← inl_one, dmap_inl, map_one]
      exact ⟨1, one_Lin f, rfl⟩
    · rw [ev_x, dmap_inl]
      exact ⟨_, x_Lin f, rfl⟩
    · rw [ev_y, dmap_inl]
      exact ⟨_, y_Lin f, rfl⟩
    · rw [ev_z, dmap_inl]
      exact ⟨_, z_Lin f, rfl⟩
  · rw [ev_one, ← inl_one, dmap_inl, map_one, inl_one, one_mul, ← cls_congr h3]
    exact hI.e r h1 h2 (by omega)

/-- A piece with its result. -/
def Piece (G : GMat K) [DecidableEq K] (a c : ℕ) (J : GMat K → Prop) : Prop :=
  ZeroRun 92 G (slice a c) ∧ ∀ G', gRun G ((slice a c).map ZStmt.full) = some G' → Supp 92 (stAt c) G' ∧ J G'

theorem Piece.comp [DecidableEq K] {G : GMat K} {a b c : ℕ} {I J : GMat K → Prop} (h1 : Piece G a b I)
    (hab : a ≤ b) (hbc : b ≤ c) (h2 : ∀ G1, Supp 92 (stAt b) G1 → I G1 → Piece G1 b c J) :
    Piece G a c J :=
  two_parts hab hbc (I := fun G' => Supp 92 (stAt b) G' ∧ I G') h1 fun G1 h => h2 G1 h.1 h.2

def rowOk2 (a c t : ℕ) (Pw : List (ℕ × ℕ)) : Bool :=
  segOk a a c t true (srcsOf a c) [] [] Pw [] && (srcsOf a c).all (srcOk2 t)

include hz in
/-- One of the rows 21 to 29. -/
theorem row_eq [DecidableEq K] {a c t : ℕ} {Pw : List (ℕ × ℕ)} (hok : rowOk2 a c t Pw = true) {G : GMat K}
    (hS : Supp 92 (stAt a) G) (hI : Inv2 B f t G) (ht : 21 ≤ t) (ht' : t < 30)
    (h18 : t = 22 → (18, 43) ∈ Pw) (h20 : t = 23 → (20, 42) ∈ Pw) (h21 : t = 24 → (21, 14) ∈ Pw) :
    Piece G a c (Inv2 B f (t + 1)) := by
  unfold rowOk2 at hok
  rw [Bool.and_eq_true] at hok
  obtain ⟨h1, h2⟩ := seg hok.1 ((EQ B f (cls t)).comap (dmap f)) hS
    (fun p hp => src2 hz hI ht' (List.all_eq_true.1 hok.2 p hp)) (by simp) (by simp)
  refine ⟨h1, fun G' hG' => ?_⟩
  obtain ⟨k1, k2, k3, k4⟩ := h2 G' hG'
  exact ⟨k1, hI.succ ht k3 (fun _ => k2) (fun h => k4 _ (h18 h)) (fun h => k4 _ (h20 h))
    (fun h => k4 _ (h21 h))⟩

include hz in
/-- The rows 21 to 29. -/
theorem stage29 [DecidableEq K] (hS : Supp 92 (stAt 62) B) : Piece B 62 176 (Inv2 B f 30) := by
  have h0 : Inv2 B f 21 B :=
    ⟨fun _ _ => rfl, fun r h1 h2 => absurd h2 (by omega), fun h => by omega, fun h => by omega,
      fun h => by omega⟩
  refine Piece.comp (b := 67) (row_eq hz (Pw := []) (by decide +kernel) hS h0 (by omega) (by omega)
    (by omega) (by omega) (by omega)) (by omega) (by omega) fun G hS h => ?_
  refine Piece.comp (b := 72) (row_eq hz (Pw := [(18, 43)]) (by decide +kernel) hS h (by omega) (by omega)
    (by simp) (by omega) (by omega)) (by omega) (by omega) fun G hS h => ?_
  refine Piece.comp (b := 77) (row_eq hz (Pw := [(20, 42)]) (by decide +kernel) hS h (by omega) (by omega)
    (by omega) (by simp) (by omega)) (by omega) (by omega) fun G hS h => ?_
  refine Piece.comp (b := 91) (row_eq hz (Pw := [(21, 14)]) (by decide +kernel) hS h (by omega) (by omega)
    (by omega) (by omega) (by simp)) (by omega) (by omega) fun G hS h => ?_
  refine Piece.comp (b := 105) (row_eq hz (Pw := []) (by decide +kernel) hS h (by omega) (by omega)
    (by omega) (by omega) (by omega)) (by omega) (by omega) fun G hS h => ?_
  refine Piece.comp (b := 119) (row_eq hz (Pw := []) (by decide +kernel) hS h (by omega) (by omega)
    (by omega) (by omega) (by omega)) (by omega) (by omega) fun G hS h => ?_
  refine Piece.comp (b := 138) (row_eq hz (Pw := []) (by decide +kernel) hS h (by omega) (by omega)
    (by omega) (by omega) (by omega)) (by omega) (by omega) fun G hS h => ?_
  refine Piece.comp (b := 157) (row_eq hz (Pw := []) (by decide +kernel) hS h (by omega) (by omega)
    (by omega) (by omega) (by omega)) (by omega) (by omega) fun G hS h => ?_
  exact row_eq hz (Pw := []) (by decide +kernel) hS h (by omega) (by omega) (by omega) (by omega) (by omega)

end

end OpenGV.Gp3p
