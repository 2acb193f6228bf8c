import Verif.Proof.FiveKneipRun
import Mathlib.LinearAlgebra.Matrix.Determinant.Basic
import Mathlib.LinearAlgebra.CrossProduct

/-!
# The initial rows of `fivept_kneip` as polynomials in the rotation

The first ten rows are the determinants of three normal vectors, the other rows are the equations of
a rotation.
-/

namespace OpenGV.FiveKneip

open Finset Matrix

/-! ### The terms of the determinant -/

/-- The terms of a component of a normal vector: sign, component of the first vector, row of the
matrix, column of the matrix. -/
def crossTerms (p : ℕ) : List (ℕ × ℕ × ℕ × ℕ) :=
  [(0, (p + 1) % 3, (p + 2) % 3, 0), (0, (p + 1) % 3, (p + 2) % 3, 1), (0, (p + 1) % 3, (p + 2) % 3, 2),
    (1, (p + 2) % 3, (p + 1) % 3, 0), (1, (p + 2) % 3, (p + 1) % 3, 1), (1, (p + 2) % 3, (p + 1) % 3, 2)]

/-- One term of the determinant: the digits as in `initTerms`, and the code of the monomial. -/
def detTerm (s : ℕ) (a b c : ℕ × ℕ × ℕ × ℕ) : ℕ × ℕ :=
  (1000000 * ((s + a.1 + b.1 + c.1) % 2 + 1) + c.2.1 * 100000 + a.2.1 * 10000 + b.2.1 * 1000 +
    c.2.2.2 * 100 + a.2.2.2 * 10 + b.2.2.2,
    16 ^ (3 * a.2.2.1 + a.2.2.2) + 16 ^ (3 * b.2.2.1 + b.2.2.2) + 16 ^ (3 * c.2.2.1 + c.2.2.2))

/-- The permutations with their signs. -/
def perms : List (ℕ × ℕ × ℕ × ℕ) :=
  [(0, 0, 1, 2), (0, 1, 2, 0), (0, 2, 0, 1), (1, 0, 2, 1), (1, 1, 0, 2), (1, 2, 1, 0)]

def detTerms : List (ℕ × ℕ) :=
  perms.flatMap fun p => (crossTerms p.2.1).flatMap fun a => (crossTerms p.2.2.1).flatMap fun b =>
    (crossTerms p.2.2.2).map fun c => detTerm p.1 a b c

/-- The monomials of terms of the determinant that cancel and have no column. -/
def extraCodes : List ℕ :=
  [2097408, 8590983168, 4297064448, 4294967808, 1049088, 8589934848, 4296016128]

/-- The monomials of the columns, and the further ones. -/
def colCode (x : ℕ) : ℕ := if Nat.blt x 197 then gcode codes x else extraCodes.getD (x - 197) 0

/-- The signs of the terms are known. -/
def rowsOk1 (L : List (ℕ × ℕ)) : Bool := L.all fun e => Nat.ble 1000000 e.1 && Nat.blt e.1 3000000

/-- The columns of the initial rows are the terms of the determinant. -/
def rowsOk2 (L : List (ℕ × ℕ)) : Bool := (List.range 204).all fun x => cancels []
  (initTerms.getD x [] ++ (L.filter fun e => Nat.beq e.2 (colCode x)).map fun e => flipTerm e.1)

/-- Each term has one column. -/
def rowsOk3 (L : List (ℕ × ℕ)) : Bool :=
  L.all fun e => ((List.range 204).filter fun x => Nat.beq e.2 (colCode x)).length == 1

theorem rows_ok1 : rowsOk1 detTerms = true := by decide +kernel

theorem rows_ok2 : rowsOk2 detTerms = true := by decide +kernel

theorem rows_ok3 : rowsOk3 detTerms = true := by decide +kernel

variable {A : Type} [CommRing A]

/-- The terms of a list, by monomials. -/
theorem regroup (N : ℕ) (g : ℕ → ℕ) (h : ℕ → A) (m : ℕ → A) : ∀ L : List (ℕ × ℕ),
    (L.all fun e => ((List.range N).filter fun x => Nat.beq e.2 (g x)).length == 1) = true →
    ∑ x ∈ range N, ((L.filter fun e => Nat.beq e.2 (g x)).map fun e => h e.1).sum * m (g x) =
      (L.map fun e => h e.1 * m e.2).sum
  | [], _ => by simp
  | e :: L, hL => by
    rw [List.all_cons, Bool.and_eq_true, beq_iff_eq, List.length_eq_one_iff] at hL
    obtain ⟨⟨x0, hx0⟩, hL⟩ := hL
    have hmem : ∀ x, (x < N ∧ e.2 = g x) ↔ x = x0 := by
      intro x
      have : x ∈ (List.range N).filter (fun x => Nat.beq e.2 (g x)) ↔ x = x0 := by
        rw [hx0, List.mem_singleton]
      rw [← this, List.mem_filter, List.mem_range, Nat.beq_eq]
    rw [List.map_cons, List.sum_cons, ← regroup N g h m L hL]
    have hx := (hmem x0).2 rfl
    have e1 : ∑ x ∈ range N, (if e.2 = g x then h e.1 * m e.2 else 0) = h e.1 * m e.2 := by
      rw [Finset.sum_eq_single_of_mem x0 (mem_range.2 hx.1), if_pos hx.2]
      intro x hxr hne
      rw [if_neg]
      intro hc
      exact hne ((hmem x).1 ⟨mem_range.1 hxr, hc⟩)
    rw [← e1, ← Finset.sum_add_distrib]
    refine Finset.sum_congr rfl fun x _ => ?_
    by_cases hc : e.2 = g x
    · rw [List.filter_cons_of_pos (by rw [Nat.beq_eq]; exact hc), if_pos hc, List.map_cons,
        List.sum_cons, hc]
      ring
    · rw [List.filter_cons_of_neg (by rw [Nat.beq_eq]; exact hc), if_neg hc, zero_add]

/-- The value of an initial row. -/
theorem rows_val (q : ℕ → A) (zs : List A) :
    ∑ x ∈ range 197, ((initTerms.getD x []).map (termVal q)).sum * colEv codes zs x =
      (detTerms.map fun e => termVal q e.1 * monoEv zs e.2).sum := by
  have h1 := rows_ok1
  have h2 := rows_ok2
  have h3 := rows_ok3
  generalize detTerms = L at h1 h2 h3
  unfold rowsOk1 at h1
  unfold rowsOk2 at h2
  unfold rowsOk3 at h3
  rw [← regroup 204 colCode (termVal q) (monoEv zs) L h3]
  have hcol : ∀ x ∈ range 204, ((L.filter fun e => Nat.beq e.2 (colCode x)).map
      fun e => termVal q e.1).sum = ((initTerms.getD x []).map (termVal q)).sum := by
    intro x hx
    have := cancels_spec q _ _ (List.all_eq_true.1 h2 x (List.mem_range.2 (mem_range.1 hx)))
    rw [List.map_append, List.sum_append, List.map_nil, List.sum_nil, zero_add, List.map_map] at this
    have hf := flip_sum q ((L.filter fun e => Nat.beq e.2 (colCode x)).map (·.1)) (by
      intro m hm
      obtain ⟨e, he, rfl⟩ := List.mem_map.1 hm
      have := List.all_eq_true.1 h1 e (List.mem_filter.1 he).1
      rwa [Bool.and_eq_true, Nat.ble_eq, Nat.blt_eq] at this)
    rw [List.map_map, List.map_map] at hf
    have e1 : (termVal q ∘ fun e : ℕ × ℕ => flipTerm e.1) = (termVal q ∘ flipTerm) ∘ fun e => e.1 := rfl
    have e2 : (fun e : ℕ × ℕ => termVal q e.1) = termVal q ∘ fun e => e.1 := rfl
    rw [e1, hf] at this
    rw [e2]
    linear_combination -this
  have hsum : ∑ x ∈ range 204, ((L.filter fun e => Nat.beq e.2 (colCode x)).map
      fun e => termVal q e.1).sum * monoEv zs (colCode x) = ∑ x ∈ range 204,
        ((initTerms.getD x []).map (termVal q)).sum * monoEv zs (colCode x) :=
    Finset.sum_congr rfl fun x hx => by rw [hcol x hx]
  rw [hsum]
  have hl : initTerms.length ≤ 197 := by decide +kernel
  rw [Finset.sum_subset (range_subset_range.2 (show 197 ≤ 204 by norm_num)) (fun x _ hx => by
    rw [List.getD_eq_default _ _ (hl.trans (by simpa using hx)), List.map_nil, List.sum_nil, zero_mul])]
  refine Finset.sum_congr rfl fun x _ => ?_
  by_cases hx : x < 197
  · have : colCode x = gcode codes x := if_pos (by rw [Nat.blt_eq]; exact hx)
    rw [this]
    rfl
  · rw [List.getD_eq_default _ _ (by omega), List.map_nil, List.sum_nil, zero_mul, zero_mul]

/-! ### The determinant -/

/-- The entries of a matrix row by row. -/
def rotList (R : Matrix (Fin 3) (Fin 3) A) : List A :=
  [R 0 0, R 0 1, R 0 2, R 1 0, R 1 1, R 1 2, R 2 0, R 2 1, R 2 2]

/-- The value of one term of a component of a normal vector. -/
def crossVal (F G : Fin 3 → A) (R : Matrix (Fin 3) (Fin 3) A) (a : ℕ × ℕ × ℕ × ℕ) : A :=
  (-1) ^ a.1 * (F (Fin.ofNat 3 a.2.1) *
    (R (Fin.ofNat 3 a.2.2.1) (Fin.ofNat 3 a.2.2.2) * G (Fin.ofNat 3 a.2.2.2)))

theorem crossTerms_val (F G : Fin 3 → A) (R : Matrix (Fin 3) (Fin 3) A) (p : Fin 3) :
    ((crossTerms p).map (crossVal F G R)).sum = crossProduct F (R *ᵥ G) p := by
  have e0 : Fin.ofNat 3 0 = 0 := rfl
  have e1 : Fin.ofNat 3 1 = 1 := rfl
  have e2 : Fin.ofNat 3 2 = 2 := rfl
  fin_cases p <;>
    simp [crossTerms, crossVal, crossProduct, mulVec, dotProduct, Fin.sum_univ_three, e0, e1, e2,
      -Fin.ofNat_eq_cast] <;> ring

/-- The digits are below three. -/
def small (a : ℕ × ℕ × ℕ × ℕ) : Bool := a.1 < 2 && a.2.1 < 3 && a.2.2.1 < 3 && a.2.2.2 < 3

theorem crossTerms_small (p : ℕ) (hp : p < 3) : ∀ a ∈ crossTerms p, small a = true := by
  interval_cases p <;> decide

theorem monoEv_entry (R : Matrix (Fin 3) (Fin 3) A) {r l : ℕ} (hr : r < 3) (hl : l < 3) :
    monoEv (rotList R) (16 ^ (3 * r + l)) = R (Fin.ofNat 3 r) (Fin.ofNat 3 l) := by
  interval_cases r <;> interval_cases l <;> simp [rotList, monoEv] <;> rfl

theorem small_pow : ∀ u < 9, monoSmall 9 (16 ^ u) = true := by decide

theorem small_pow2 : ∀ u < 9, ∀ v < 9, monoSmall 9 (16 ^ u + 16 ^ v) = true := by decide

theorem detTerm_val {q : ℕ → A} {Fa Fb Fc Ga Gb Gc : Fin 3 → A} (R : Matrix (Fin 3) (Fin 3) A)
    (hq : ∀ m, q m = Fc (Fin.ofNat 3 (m / 100000 % 10)) * (Fa (Fin.ofNat 3 (m / 10000 % 10)) *
      Fb (Fin.ofNat 3 (m / 1000 % 10))) * (Gc (Fin.ofNat 3 (m / 100 % 10)) *
      (Ga (Fin.ofNat 3 (m / 10 % 10)) * Gb (Fin.ofNat 3 (m % 10)))))
    {s : ℕ} {a b c : ℕ × ℕ × ℕ × ℕ} (ha : small a = true) (hb : small b = true)
    (hc : small c = true) :
    termVal q (detTerm s a b c).1 * monoEv (rotList R) (detTerm s a b c).2 =
      (-1) ^ s * (crossVal Fa Ga R a * crossVal Fb Gb R b * crossVal Fc Gc R c) := by
  obtain ⟨a0, a1, a2, a3⟩ := a
  obtain ⟨b0, b1, b2, b3⟩ := b
  obtain ⟨c0, c1, c2, c3⟩ := c
  simp only [small, Bool.and_eq_true, decide_eq_true_eq] at ha hb hc
  obtain ⟨⟨⟨ha0, ha1⟩, ha2⟩, ha3⟩ := ha
  obtain ⟨⟨⟨hb0, hb1⟩, hb2⟩, hb3⟩ := hb
  obtain ⟨⟨⟨hc0, hc1⟩, hc2⟩, hc3⟩ := hc
  have hl : (rotList R).length = 9 := rfl
  have hm : monoEv (rotList R) (detTerm s (a0, a1, a2, a3) (b0, b1, b2, b3) (c0, c1, c2, c3)).2 =
      R (Fin.ofNat 3 a2) (Fin.ofNat 3 a3) * R (Fin.ofNat 3 b2) (Fin.ofNat 3 b3) *
        R (Fin.ofNat 3 c2) (Fin.ofNat 3 c3) := by
    simp only [detTerm]
    rw [monoEv_add _ _ _ (by rw [hl]; exact small_pow2 _ (by omega) _ (by omega))
      (by rw [hl]; exact small_pow _ (by omega)), monoEv_add _ _ _
      (by rw [hl]; exact small_pow _ (by omega)) (by rw [hl]; exact small_pow _ (by omega)),
      monoEv_entry R ha2 ha3, monoEv_entry R hb2 hb3, monoEv_entry R hc2 hc3]
  rw [hm]
  have hk : q ((detTerm s (a0, a1, a2, a3) (b0, b1, b2, b3) (c0, c1, c2, c3)).1 % 1000000) =
      Fc (Fin.ofNat 3 c1) * (Fa (Fin.ofNat 3 a1) * Fb (Fin.ofNat 3 b1)) *
        (Gc (Fin.ofNat 3 c3) * (Ga (Fin.ofNat 3 a3) * Gb (Fin.ofNat 3 b3))) := by
    rw [hq]
    have key : (detTerm s (a0, a1, a2, a3) (b0, b1, b2, b3) (c0, c1, c2, c3)).1 % 1000000 =
        c1 * 100000 + a1 * 10000 + b1 * 1000 + c3 * 100 + a3 * 10 + b3 := by
      simp only [detTerm]
      omega
    rw [key]
    have e1 : (c1 * 100000 + a1 * 10000 + b1 * 1000 + c3 * 100 + a3 * 10 + b3) / 100000 % 10 = c1 := by
      omega
    have e2 : (c1 * 100000 + a1 * 10000 + b1 * 1000 + c3 * 100 + a3 * 10 + b3) / 10000 % 10 = a1 := by
      omega
    have e3 : (c1 * 100000 + a1 * 10000 + b1 * 1000 + c3 * 100 + a3 * 10 + b3) / 1000 % 10 = b1 := by
      omega
    have e4 : (c1 * 100000 + a1 * 10000 + b1 * 1000 + c3 * 100 + a3 * 10 + b3) / 100 % 10 = c3 := by
      omega
    have e5 : (c1 * 100000 + a1 * 10000 + b1 * 1000 + c3 * 100 + a3 * 10 + b3) / 10 % 10 = a3 := by
      omega
    have e6 : (c1 * 100000 + a1 * 10000 + b1 * 1000 + c3 * 100 + a3 * 10 + b3) % 10 = b3 := by
      omega
    rw [e1, e2, e3, e4, e5, e6]
  have hsg : (if 2000000 ≤ (detTerm s (a0, a1, a2, a3) (b0, b1, b2, b3) (c0, c1, c2, c3)).1 then
      (-1 : A) else 1) = (-1) ^ s * ((-1) ^ a0 * (-1) ^ b0 * (-1) ^ c0) := by
    have key : 2000000 ≤ (detTerm s (a0, a1, a2, a3) (b0, b1, b2, b3) (c0, c1, c2, c3)).1 ↔
        (s + a0 + b0 + c0) % 2 = 1 := by
      simp only [detTerm]
      omega
    rw [← pow_add, ← pow_add, ← pow_add, show s + (a0 + b0 + c0) = s + a0 + b0 + c0 by omega,
      neg_one_pow_eq_pow_mod_two]
    split_ifs with h
    · rw [key.1 h, pow_one]
    · rw [show (s + a0 + b0 + c0) % 2 = 0 by have := mt key.2 h; omega, pow_zero]
  unfold termVal crossVal
  rw [hsg, hk]
  ring

theorem sum_flatMap {α β : Type} (h : β → A) (F : α → List β) : ∀ L : List α,
    ((L.flatMap F).map h).sum = (L.map fun a => ((F a).map h).sum).sum
  | [] => rfl
  | a :: L => by
    rw [List.flatMap_cons, List.map_append, List.sum_append, sum_flatMap h F L, List.map_cons,
      List.sum_cons]

theorem sum_mul_left {α : Type} (k : A) (u : α → A) : ∀ L : List α,
    (L.map fun a => k * u a).sum = k * (L.map u).sum
  | [] => by simp
  | a :: L => by
    rw [List.map_cons, List.sum_cons, sum_mul_left k u L, List.map_cons, List.sum_cons]
    ring

theorem prod3 {α : Type} (k : A) (u v w : α → A) (L M N : List α) :
    (L.map fun a => (M.map fun b => (N.map fun c => k * (u a * v b * w c)).sum).sum).sum =
      k * ((L.map u).sum * (M.map v).sum * (N.map w).sum) := by
  have e1 : ∀ a b, (N.map fun c => k * (u a * v b * w c)).sum = k * u a * v b * (N.map w).sum := by
    intro a b
    rw [← sum_mul_left]
    congr 1
    exact List.map_congr_left fun c _ => by ring
  have e2 : ∀ a, (M.map fun b => (N.map fun c => k * (u a * v b * w c)).sum).sum =
      k * u a * (N.map w).sum * (M.map v).sum := by
    intro a
    rw [← sum_mul_left]
    congr 1
    exact List.map_congr_left fun b _ => by rw [e1]; ring
  rw [List.map_congr_left fun a _ => e2 a]
  rw [show k * ((L.map u).sum * (M.map v).sum * (N.map w).sum) =
    k * (N.map w).sum * (M.map v).sum * (L.map u).sum by ring, ← sum_mul_left]
  congr 1
  exact List.map_congr_left fun b _ => by ring

/-- The terms give the determinant of the normal vectors. -/
theorem detTerms_val {q : ℕ → A} {Fa Fb Fc Ga Gb Gc : Fin 3 → A} (R : Matrix (Fin 3) (Fin 3) A)
    (hq : ∀ m, q m = Fc (Fin.ofNat 3 (m / 100000 % 10)) * (Fa (Fin.ofNat 3 (m / 10000 % 10)) *
      Fb (Fin.ofNat 3 (m / 1000 % 10))) * (Gc (Fin.ofNat 3 (m / 100 % 10)) *
      (Ga (Fin.ofNat 3 (m / 10 % 10)) * Gb (Fin.ofNat 3 (m % 10))))) :
    (detTerms.map fun e => termVal q e.1 * monoEv (rotList R) e.2).sum =
      (Matrix.of ![crossProduct Fa (R *ᵥ Ga), crossProduct Fb (R *ᵥ Gb),
        crossProduct Fc (R *ᵥ Gc)]).det := by
  have hp : ∀ p ∈ perms, p.1 < 2 ∧ p.2.1 < 3 ∧ p.2.2.1 < 3 ∧ p.2.2.2 < 3 := by decide
  have h1 : (detTerms.map fun e => termVal q e.1 * monoEv (rotList R) e.2).sum =
      (perms.map fun p => (-1) ^ p.1 * (((crossTerms p.2.1).map (crossVal Fa Ga R)).sum *
        ((crossTerms p.2.2.1).map (crossVal Fb Gb R)).sum *
        ((crossTerms p.2.2.2).map (crossVal Fc Gc R)).sum)).sum := by
    unfold detTerms
    rw [sum_flatMap]
    congr 1
    refine List.map_congr_left fun p hpm => ?_
    obtain ⟨-, h1, h2, h3⟩ := hp p hpm
    rw [← prod3, sum_flatMap]
    congr 1
    refine List.map_congr_left fun a ha => ?_
    rw [sum_flatMap]
    congr 1
    refine List.map_congr_left fun b hb => ?_
    rw [List.map_map]
    congr 1
    refine List.map_congr_left fun c hc => ?_
    exact detTerm_val R hq (crossTerms_small _ h1 a ha) (crossTerms_small _ h2 b hb)
      (crossTerms_small _ h3 c hc)
  rw [h1]
  have k0 := fun F G : Fin 3 → A => crossTerms_val F G R 0
  have k1 := fun F G : Fin 3 → A => crossTerms_val F G R 1
  have k2 := fun F G : Fin 3 → A => crossTerms_val F G R 2
  simp only [Fin.val_zero, Fin.val_one, Fin.val_two] at k0 k1 k2
  simp only [perms, List.map_cons, List.map_nil, List.sum_cons, List.sum_nil, k0, k1, k2, pow_zero,
    pow_one]
  rw [det_fin_three]
  simp only [Matrix.of_apply, Matrix.cons_val]
  ring

/-- The first ten rows. -/
theorem init_det (φ : ℝ →+* A) (f1 f2 : Fin 5 → Vec3) (R : Matrix (Fin 3) (Fin 3) A) {r : ℕ}
    (hr : r < 10) : ∃ t ∈ kneipTriples,
    rowValA φ 197 (colEv codes (rotList R)) (kneipInit f1 f2) r =
      (Matrix.of ![crossProduct (φ ∘ f1 t.1) (R *ᵥ (φ ∘ f2 t.1)),
        crossProduct (φ ∘ f1 t.2.1) (R *ᵥ (φ ∘ f2 t.2.1)),
        crossProduct (φ ∘ f1 t.2.2) (R *ᵥ (φ ∘ f2 t.2.2))]).det := by
  obtain ⟨t, -, ht, hrow⟩ := init_row f1 f2 hr
  refine ⟨t, ht, ?_⟩
  unfold rowValA
  rw [← detTerms_val (q := fun m => φ (kneipQ (kneipC (f1 t.1) (f1 t.2.1) (f1 t.2.2))
    (kneipC (f2 t.1) (f2 t.2.1) (f2 t.2.2)) m)) R (fun m => by
      simp only [kneipQ, kneipC, Matrix.smul_apply, vecMulVec_apply, smul_eq_mul, map_mul,
        Function.comp]), ← rows_val]
  refine Finset.sum_congr rfl fun x _ => ?_
  rw [hrow]
  unfold initEpncpRow
  congr 1
  rw [map_list_sum, List.map_map]
  congr 1
  refine List.map_congr_left fun m _ => ?_
  rw [Function.comp, kneipTerm_eq]
  unfold termVal
  rw [map_mul]
  split_ifs <;> simp

/-! ### The constant rows -/

/-- The constant rows with their monomials as lists of variables. -/
def constMonos : List (List (List ℕ × ℤ)) := [
  [([2, 2], 1), ([1, 1], 1), ([0, 0], 1), ([], -1)],
  [([2, 5], 1), ([1, 4], 1), ([0, 3], 1)],
  [([2, 8], 1), ([1, 7], 1), ([0, 6], 1)],
  [([5, 5], 1), ([4, 4], 1), ([3, 3], 1), ([], -1)],
  [([5, 8], 1), ([4, 7], 1), ([3, 6], 1)],
  [([8, 8], 1), ([7, 7], 1), ([6, 6], 1), ([], -1)],
  [([4, 6], -1), ([3, 7], 1), ([2], -1)],
  [([1, 6], 1), ([0, 7], -1), ([5], -1)],
  [([1, 3], -1), ([0, 4], 1), ([8], -1)],
  [([5, 7], -1), ([4, 8], 1), ([0], -1)],
  [([2, 7], 1), ([1, 8], -1), ([3], -1)],
  [([2, 4], -1), ([1, 5], 1), ([6], -1)],
  [([6, 6], 1), ([3, 3], 1), ([0, 0], 1), ([], -1)],
  [([6, 7], 1), ([3, 4], 1), ([0, 1], 1)],
  [([6, 8], 1), ([3, 5], 1), ([0, 2], 1)],
  [([7, 7], 1), ([4, 4], 1), ([1, 1], 1), ([], -1)],
  [([7, 8], 1), ([4, 5], 1), ([1, 2], 1)],
  [([2, 3], 1), ([0, 5], -1), ([7], -1)],
  [([5, 6], 1), ([3, 8], -1), ([1], -1)],
  [([2, 6], -1), ([0, 8], 1), ([4], -1)]]

theorem const_codes : (constRows.map fun L => L.map fun p => (gcode codes p.1, p.2)) =
    constMonos.map fun L => L.map fun p => ((p.1.map fun i => 16 ^ i).sum, p.2) := by decide +kernel

theorem const_nodup : (constRows.all fun L => decide (L.map (·.1)).Nodup &&
    L.all fun p => decide (p.1 < 197)) = true := by decide +kernel

theorem find_mem {L : List (ℕ × ℤ)} (hd : (L.map (·.1)).Nodup) {p : ℕ × ℤ} (hp : p ∈ L) :
    L.find? (·.1 == p.1) = some p := by
  induction L with
  | nil => exact absurd hp (by simp)
  | cons a L ih =>
    rw [List.map_cons, List.nodup_cons] at hd
    rcases List.mem_cons.1 hp with rfl | hp
    · rw [List.find?_cons_of_pos (by simp)]
    · rw [List.find?_cons_of_neg, ih hd.2 hp]
      intro hc
      rw [beq_iff_eq] at hc
      exact hd.1 (hc ▸ List.mem_map_of_mem hp)

/-- The value of a constant row. -/
theorem const_val (φ : ℝ →+* A) (f1 f2 : Fin 5 → Vec3) (zs : List A) {i : ℕ} (hi : i < 20) :
    rowValA φ 197 (colEv codes zs) (kneipInit f1 f2) (10 + i) =
      ((constMonos.getD i []).map fun p => (p.2 : A) * monoEv zs (p.1.map fun i => 16 ^ i).sum).sum := by
  have hl : constRows.length = 20 := rfl
  have hl' : constMonos.length = 20 := rfl
  obtain ⟨L, hL⟩ : ∃ L, constRows.getD i [] = L := ⟨_, rfl⟩
  have hmem : L ∈ constRows := by
    rw [← hL, List.getD_eq_getElem _ _ (by omega)]
    exact List.getElem_mem _
  have hnd := List.all_eq_true.1 const_nodup L hmem
  rw [Bool.and_eq_true, decide_eq_true_eq] at hnd
  have hM : (L.map fun p => (gcode codes p.1, p.2)) =
      (constMonos.getD i []).map fun p => ((p.1.map fun i => 16 ^ i).sum, p.2) := by
    have := congrArg (fun l => l.getD i []) const_codes
    rw [List.getD_eq_getElem _ _ (by simp [hl]; omega),
      List.getD_eq_getElem _ _ (by simp [hl']; omega), List.getElem_map, List.getElem_map] at this
    rw [← hL, List.getD_eq_getElem _ _ (by omega), List.getD_eq_getElem _ _ (by omega)]
    exact this
  have e1 : (fun p : List ℕ × ℤ => (p.2 : A) * monoEv zs (p.1.map fun i => 16 ^ i).sum) =
      (fun e : ℕ × ℤ => (e.2 : A) * monoEv zs e.1) ∘ fun p => ((p.1.map fun i => 16 ^ i).sum, p.2) :=
    rfl
  rw [e1, ← List.map_map, ← hM, List.map_map]
  have hcv : ∀ p ∈ L, constVal (10 + i) p.1 = p.2 := by
    intro p hp
    unfold constVal
    rw [Nat.add_sub_cancel_left, hL, find_mem hnd.1 hp]
    rfl
  rw [rowVal_list φ _ _ _ (L.map (·.1)) hnd.1]
  · rw [List.map_map]
    congr 1
    refine List.map_congr_left fun p hp => ?_
    rw [Function.comp, Function.comp, init_const f1 f2 (by omega), hcv p hp, map_intCast]
    rfl
  · intro x hx
    obtain ⟨p, hp, rfl⟩ := List.mem_map.1 hx
    simpa using List.all_eq_true.1 hnd.2 p hp
  · intro x _ hx
    rw [init_const f1 f2 (by omega)]
    unfold constVal
    rw [Nat.add_sub_cancel_left, hL, List.find?_eq_none.2]
    · simp
    · intro p hp hc
      rw [beq_iff_eq] at hc
      exact hx (hc ▸ List.mem_map_of_mem hp)

/-- The equations of a rotation over any ring. -/
theorem const_rows (φ : ℝ →+* A) (f1 f2 : Fin 5 → Vec3) {R : Matrix (Fin 3) (Fin 3) A}
    (hR : R * Rᵀ = 1) (hd : R.det = 1) {r : ℕ} (hr : 10 ≤ r) :
    rowValA φ 197 (colEv codes (rotList R)) (kneipInit f1 f2) r = 0 := by
  by_cases h30 : r < 30
  · obtain ⟨i, rfl⟩ : ∃ i, r = 10 + i := ⟨r - 10, by omega⟩
    rw [const_val φ f1 f2 (rotList R) (by omega)]
    have hR' : Rᵀ * R = 1 := mul_eq_one_comm.1 hR
    have hadj : R.adjugate = Rᵀ := by
      have := mul_adjugate R
      rw [hd, one_smul] at this
      calc R.adjugate = (Rᵀ * R) * R.adjugate := by rw [hR', one_mul]
        _ = Rᵀ := by rw [mul_assoc, this, mul_one]
    have o : ∀ i j, (R * Rᵀ) i j = (1 : Matrix (Fin 3) (Fin 3) A) i j := fun i j => by rw [hR]
    have o' : ∀ i j, (Rᵀ * R) i j = (1 : Matrix (Fin 3) (Fin 3) A) i j := fun i j => by rw [hR']
    have c : ∀ i j, R.adjugate i j = R j i := fun i j => by rw [hadj]; rfl
    simp only [Matrix.mul_apply, Matrix.transpose_apply, Fin.sum_univ_three] at o o'
    rw [adjugate_fin_three] at c
    have hi : i < 20 := by omega
    have key : ∀ L, (L = constMonos.getD i []) → (L.map fun p =>
        (p.2 : A) * monoEv (rotList R) (p.1.map fun i => 16 ^ i).sum).sum = 0 := by
      intro L hL
      have o00 := o 0 0
      have o01 := o 0 1
      have o02 := o 0 2
      have o11 := o 1 1
      have o12 := o 1 2
      have o22 := o 2 2
      have p00 := o' 0 0
      have p01 := o' 0 1
      have p02 := o' 0 2
      have p11 := o' 1 1
      have p12 := o' 1 2
      have c00 := c 0 0
      have c01 := c 0 1
      have c02 := c 0 2
      have c10 := c 1 0
      have c11 := c 1 1
      have c12 := c 1 2
      have c20 := c 2 0
      have c21 := c 2 1
      have c22 := c 2 2
      simp [one_apply] at o00 o01 o02 o11 o12 o22 p00 p01 p02 p11 p12 c00 c01 c02 c10 c11 c12 c20 c21 c22
      interval_cases i <;> subst hL <;> simp [constMonos, rotList, monoEv]
      · linear_combination o00
      · linear_combination o01
      · linear_combination o02
      · linear_combination o11
      · linear_combination o12
      · linear_combination o22
      · linear_combination c20
      · linear_combination c21
      · linear_combination c22
      · linear_combination c00
      · linear_combination c01
      · linear_combination c02
      · linear_combination p00
      · linear_combination p01
      · linear_combination p02
      · linear_combination p11
      · linear_combination p12
      · linear_combination c12
      · linear_combination c10
      · linear_combination c11
    exact key _ rfl
  · unfold rowValA
    refine Finset.sum_eq_zero fun x _ => ?_
    rw [init_const f1 f2 hr]
    unfold constVal
    rw [List.getD_eq_default _ _ (by simp [constRows]; omega)]
    simp

end OpenGV.FiveKneip
