import Verif.Proof.Gp3pRows
import Mathlib.RingTheory.Ideal.Quotient.Operations

/-!
# The polynomials of `gp3p` modulo three quadrics

The rows 10, 12 and 15 of the elimination of `gp3p` are three quadrics in the Cayley parameters. If two
numbers do not vanish, the polynomials modulo the quadrics have a basis of eight monomials.
-/

namespace OpenGV.Gp3p

open TrivSqZeroExt Finset MvPolynomial OpenGV.Quadrics

section

variable {K R : Type} [Field K] [CommRing R] [Algebra K R]

/-- A map of the coefficients of the depths. -/
noncomputable def dmap (f : P K →ₐ[K] R) : Dep (P K) →ₗ[K] Dep R where
  toFun v := inl (f v.fst) + inr fun i => f (v.snd i)
  map_add' v w := by ext <;> simp
  map_smul' c v := by ext <;> simp

variable (f : P K →ₐ[K] R)

theorem dmap_fst (v : Dep (P K)) : (dmap f v).fst = f (part none v) := by simp [dmap, part_none]

theorem dmap_snd (v : Dep (P K)) (i : Fin 3) : (dmap f v).snd i = f (part (some i) v) := by
  simp [dmap, part_some]

theorem dmap_mul (v w : Dep (P K)) : dmap f (v * w) = dmap f v * dmap f w := by
  ext i
  · simp [dmap]
  · simp [dmap]

theorem dmap_inl (p : P K) : dmap f (inl p) = inl (f p) := by
  ext i
  · simp [dmap]
  · simp [dmap]

theorem dmap_dep (i : Fin 3) : dmap f (dep i) = dep i := by
  ext j
  · simp [dmap, dep]
  · simp [dmap, dep, Pi.single_apply]

end

variable {K : Type} [Field K]

/-- The columns of a part of a row. -/
def colsOk (k r : ℕ) (i : Option (Fin 3)) (L : List ℕ) : Bool :=
  decide L.Nodup && L.all (fun x => Nat.blt x 92 && depOf (gcode codes x) i) &&
    (List.range 92).all fun x =>
      !depOf (gcode codes x) i || L.contains x || !((stAt k).mask r).testBit x

theorem part_cols {k r : ℕ} {i : Option (Fin 3)} {L : List ℕ} (h : colsOk k r i L = true) {G : GMat K}
    (hS : Supp 92 (stAt k) G) :
    part i (val G r) = (L.map fun x => G r x • monoX (gcode codes x)).sum := by
  unfold colsOk at h
  simp only [Bool.and_eq_true, decide_eq_true_eq] at h
  obtain ⟨⟨h1, h2⟩, h3⟩ := h
  refine part_list i L h1 (fun x hx => ?_) fun x hx hd hn => ?_
  · have := List.all_eq_true.1 h2 x hx
    rwa [Bool.and_eq_true, Nat.blt_eq] at this
  · have := List.all_eq_true.1 h3 x (List.mem_range.2 hx)
    rw [hd] at this
    simp only [Bool.not_true, Bool.false_or, Bool.or_eq_true, Bool.not_eq_true'] at this
    rcases this with h | h
    · exact absurd (List.contains_iff_mem.1 h) hn
    · exact (hS r).1 x hx h

theorem V_monoX {m n : ℕ} (h : dig m 0 + dig m 1 + dig m 2 ≤ n) : (monoX m : P K) ∈ V n :=
  Submodule.subset_span ⟨_, _, _, h, rfl⟩

theorem cols_V {n : ℕ} (L : List ℕ) (h : L.all (fun x => Nat.ble
    (dig (gcode codes x) 0 + dig (gcode codes x) 1 + dig (gcode codes x) 2) n) = true) (g : ℕ → K) :
    (L.map fun x => g x • monoX (gcode codes x)).sum ∈ (V n : Submodule K (P K)) := by
  induction L with
  | nil => exact Submodule.zero_mem _
  | cons x L ih =>
    rw [List.all_cons, Bool.and_eq_true, Nat.ble_eq] at h
    rw [List.map_cons, List.sum_cons]
    exact Submodule.add_mem _ (Submodule.smul_mem _ _ (V_monoX h.1)) (ih h.2)

theorem code54 : (monoX (gcode codes 54) : P K) = X 0 ^ 2 * X 2 := by
  rw [show gcode codes 54 = 0x102 by decide +kernel]; simp [monoX, dig]
theorem code55 : (monoX (gcode codes 55) : P K) = X 0 ^ 2 * X 1 := by
  rw [show gcode codes 55 = 0x12 by decide +kernel]; simp [monoX, dig]
theorem code56 : (monoX (gcode codes 56) : P K) = X 0 ^ 3 := by
  rw [show gcode codes 56 = 0x3 by decide +kernel]; simp [monoX, dig]
theorem code66 : (monoX (gcode codes 66) : P K) = X 2 ^ 2 := by
  rw [show gcode codes 66 = 0x200 by decide +kernel]; simp [monoX, dig]
theorem code70 : (monoX (gcode codes 70) : P K) = X 1 * X 2 := by
  rw [show gcode codes 70 = 0x110 by decide +kernel]; simp [monoX, dig]
theorem code71 : (monoX (gcode codes 71) : P K) = X 1 ^ 2 := by
  rw [show gcode codes 71 = 0x20 by decide +kernel]; simp [monoX, dig]
theorem code75 : (monoX (gcode codes 75) : P K) = X 0 * X 2 := by
  rw [show gcode codes 75 = 0x101 by decide +kernel]; simp [monoX, dig]
theorem code76 : (monoX (gcode codes 76) : P K) = X 0 * X 1 := by
  rw [show gcode codes 76 = 0x11 by decide +kernel]; simp [monoX, dig]
theorem code77 : (monoX (gcode codes 77) : P K) = X 0 ^ 2 := by
  rw [show gcode codes 77 = 0x2 by decide +kernel]; simp [monoX, dig]
theorem code81 : (monoX (gcode codes 81) : P K) = X 2 := by
  rw [show gcode codes 81 = 0x100 by decide +kernel]; simp [monoX, dig]
theorem code82 : (monoX (gcode codes 82) : P K) = X 1 := by
  rw [show gcode codes 82 = 0x10 by decide +kernel]; simp [monoX, dig]
theorem code83 : (monoX (gcode codes 83) : P K) = X 0 := by
  rw [show gcode codes 83 = 0x1 by decide +kernel]; simp [monoX, dig]
theorem code84 : (monoX (gcode codes 84) : P K) = 1 := by
  rw [show gcode codes 84 = 0 by decide +kernel]; simp [monoX, dig]

/-- The two numbers. -/
def Nondeg (G : GMat K) : Prop :=
  G 19 55 ≠ 0 ∧ G 15 71 * (G 19 56 / G 19 55) ^ 2 +
    G 15 75 * ((G 16 55 * (G 19 56 / G 19 55) - G 16 56) / G 16 54) -
    G 15 76 * (G 19 56 / G 19 55) + G 15 77 ≠ 0

/-- The coefficients of a row in the lower columns. -/
def lows (G : GMat K) (r : ℕ) : Fin 7 → K :=
  ![G r 75, G r 76, G r 77, G r 81, G r 82, G r 83, G r 84]

section

variable {B : GMat K} (hS : Supp 92 (stAt 62) B)

include hS

theorem q2_eq : B 15 71 • X 1 ^ 2 + low (lows B 15) = qs B 2 := by
  show _ = part none (val B 15)
  rw [part_cols (k := 62) (L := [71, 75, 76, 77, 81, 82, 83, 84]) (by decide +kernel) hS]
  simp only [List.map_cons, List.map_nil, List.sum_cons, List.sum_nil, code71, code75, code76, code77,
    code81, code82, code83, code84, low, lows, Matrix.cons_val]
  abel

theorem q1_eq : B 12 70 • (X 1 * X 2) + B 12 71 • X 1 ^ 2 + low (lows B 12) = qs B 1 := by
  show _ = part none (val B 12)
  rw [part_cols (k := 62) (L := [70, 71, 75, 76, 77, 81, 82, 83, 84]) (by decide +kernel) hS]
  simp only [List.map_cons, List.map_nil, List.sum_cons, List.sum_nil, code70, code71, code75, code76,
    code77, code81, code82, code83, code84, low, lows, Matrix.cons_val]
  abel

theorem q0_eq : B 10 66 • X 2 ^ 2 + B 10 70 • (X 1 * X 2) + B 10 71 • X 1 ^ 2 + low (lows B 10) =
    qs B 0 := by
  show _ = part none (val B 10)
  rw [part_cols (k := 62) (L := [66, 70, 71, 75, 76, 77, 81, 82, 83, 84]) (by decide +kernel) hS]
  simp only [List.map_cons, List.map_nil, List.sum_cons, List.sum_nil, code66, code70, code71, code75,
    code76, code77, code81, code82, code83, code84, low, lows, Matrix.cons_val]
  abel

theorem r16_eq : B 16 54 • (X 0 ^ 2 * X 2) + B 16 55 • (X 0 ^ 2 * X 1) + B 16 56 • X 0 ^ 3 +
    low (lows B 16) = part none (val B 16) := by
  rw [part_cols (k := 62) (L := [54, 55, 56, 75, 76, 77, 81, 82, 83, 84]) (by decide +kernel) hS]
  simp only [List.map_cons, List.map_nil, List.sum_cons, List.sum_nil, code54, code55, code56, code75,
    code76, code77, code81, code82, code83, code84, low, lows, Matrix.cons_val]
  abel

theorem r19_eq : B 19 55 • (X 0 ^ 2 * X 1) + B 19 56 • X 0 ^ 3 + low (lows B 19) =
    part none (val B 19) := by
  rw [part_cols (k := 62) (L := [55, 56, 75, 76, 77, 81, 82, 83, 84]) (by decide +kernel) hS]
  simp only [List.map_cons, List.map_nil, List.sum_cons, List.sum_nil, code55, code56, code75,
    code76, code77, code81, code82, code83, code84, low, lows, Matrix.cons_val]
  abel

theorem qs_red (hI : Inv 21 B) (hn : Nondeg B) : Red (qs B) := by
  refine red_of (l16 := lows B 16) (l19 := lows B 19) (q2_eq hS) (q1_eq hS) (q0_eq hS) ?_ ?_ (hI.p15 (by omega)) (hI.p12 (by omega))
    (hI.p10 (by omega)) (hI.p16 (by omega)) hn.1 hn.2
  · have : part none (val B 16) ∈ LQ (qs B) := hI.m16 (by omega)
    rw [← r16_eq hS] at this
    exact this
  · have : part none (val B 19) ∈ LQ (qs B) := hI.m19 (by omega)
    rw [← r19_eq hS] at this
    exact this

theorem qs_V (j : Fin 3) : qs B j ∈ (V 2 : Submodule K (P K)) := by
  have h : ∀ r ∈ [10, 12, 15], part none (val B r) ∈ (V 2 : Submodule K (P K)) := by
    intro r hr
    have hc : colsOk 62 r none [66, 70, 71, 75, 76, 77, 81, 82, 83, 84] = true := by
      have : [10, 12, 15].all (fun r => colsOk 62 r none [66, 70, 71, 75, 76, 77, 81, 82, 83, 84]) = true := by
        decide +kernel
      exact List.all_eq_true.1 this r hr
    rw [part_cols (k := 62) hc hS]
    exact cols_V _ (by decide +kernel) _
  fin_cases j
  · exact h 10 (by simp)
  · exact h 12 (by simp)
  · exact h 15 (by simp)

end

/-- The polynomials modulo the quadrics. -/
abbrev RQ (B : GMat K) := P K ⧸ Ideal.span (Set.range (qs B))

/-- The projection. -/
noncomputable def prj (B : GMat K) : P K →ₐ[K] RQ B := Ideal.Quotient.mkₐ K _

theorem prj_eq {B : GMat K} {p : P K} : prj B p = 0 ↔ p ∈ Ideal.span (Set.range (qs B)) := by
  unfold prj
  rw [Ideal.Quotient.mkₐ_eq_mk]
  exact Ideal.Quotient.eq_zero_iff_mem

theorem exists_basis {B : GMat K} (hS : Supp 92 (stAt 62) B) (hI : Inv 21 B) (hn : Nondeg B) :
    ∃ b : Module.Basis (Fin 8) K (RQ B), ∀ i, b i = prj B (mons i) := by
  have hred := qs_red hS hI hn
  have hV := qs_V hS
  have hsum : ∀ c : Fin 8 → K, ∑ i, c i • prj B (mons i) = prj B (∑ i, c i • mons i) := by
    intro c
    rw [map_sum]
    exact sum_congr rfl fun i _ => (map_smul _ _ _).symm
  refine ⟨Module.Basis.mk (v := fun i => prj B (mons i)) ?_ ?_, fun i => ?_⟩
  · rw [Fintype.linearIndependent_iff]
    intro c hc i
    rw [hsum, prj_eq] at hc
    rw [indep hred hV hc]
    rfl
  · intro p _
    obtain ⟨p, rfl⟩ := Ideal.Quotient.mkₐ_surjective K _ p
    obtain ⟨c, hc⟩ := spans hred p
    have e : prj B p = ∑ i, c i • prj B (mons i) := by
      rw [hsum, ← sub_eq_zero, ← map_sub, prj_eq]
      exact hc
    show prj B p ∈ _
    rw [e]
    exact Submodule.sum_mem _ fun i _ => Submodule.smul_mem _ _ (Submodule.subset_span ⟨i, rfl⟩)
  · rw [Module.Basis.mk_apply]

theorem LQ_le (q : Fin 3 → P K) {p : P K} (hp : p ∈ LQ q) : p ∈ Ideal.span (Set.range q) := by
  have : LQ q ≤ (Ideal.span (Set.range q)).restrictScalars K := by
    rw [LQ, Submodule.span_le]
    rintro p ⟨j, t, -, rfl⟩
    exact Ideal.mul_mem_right _ _ (Ideal.subset_span ⟨j, rfl⟩)
  exact this hp

theorem dmap_zero_iff {B : GMat K} {v : Dep (P K)} (h : part none v ∈ Ideal.span (Set.range (qs B)))
    (hd : ∀ i, part (some i) v = 0) : dmap (prj B) v = 0 := by
  ext i
  · rw [dmap_fst, prj_eq.2 h]; rfl
  · rw [dmap_snd, hd, map_zero]; rfl

/-- The rows that vanish modulo the quadrics. -/
theorem rows_zero {B : GMat K} (hS : Supp 92 (stAt 62) B) (hI : Inv 21 B) {r : ℕ}
    (hr : r ∈ [10, 12, 15, 16, 19]) : dmap (prj B) (val B r) = 0 := by
  simp only [List.mem_cons, List.not_mem_nil, or_false] at hr
  have hq : ∀ j, qs B j ∈ Ideal.span (Set.range (qs B)) := fun j => Ideal.subset_span ⟨j, rfl⟩
  rcases hr with rfl | rfl | rfl | rfl | rfl
  · exact dmap_zero_iff (hq 0) (hI.n10 (by omega))
  · exact dmap_zero_iff (hq 1) (hI.n12 (by omega)).1
  · exact dmap_zero_iff (hq 2) (hI.n15 (by omega)).1
  · exact dmap_zero_iff (LQ_le _ (hI.m16 (by omega))) (noDep (k := 62) (by decide +kernel) hS)
  · exact dmap_zero_iff (LQ_le _ (hI.m19 (by omega))) (noDep (k := 62) (by decide +kernel) hS)

end OpenGV.Gp3p
