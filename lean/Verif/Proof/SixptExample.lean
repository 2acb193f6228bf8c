import Verif.Proof.SixptExampleData
import Verif.Proof.UpnpExampleSym
import Mathlib.Data.Rat.Cast.CharZero

/-!
# An example for the six point solver
-/

namespace OpenGV

open Matrix Adapters

/-! ## Homomorphisms and factors -/

section

variable {R S : Type} [CommRing R] [CommRing S] (φ : R →+* S)

theorem sixC0_map (l01 l02 l11 l12 : Fin 6 → R) (j : Fin 10) :
    sixC0 (fun k => φ (l01 k)) (fun k => φ (l02 k)) (fun k => φ (l11 k)) (fun k => φ (l12 k)) j =
      φ (sixC0 l01 l02 l11 l12 j) := by
  simp only [sixC0]
  fin_cases j <;> simp only [Fin.zero_eta, Fin.mk_one, Fin.reduceFinMk, cons_val, map_add, map_sub, map_mul,
    map_neg, map_ofNat]

theorem sixC1_map (l01 l02 l11 l12 : Fin 6 → R) (j : Fin 10) :
    sixC1 (fun k => φ (l01 k)) (fun k => φ (l02 k)) (fun k => φ (l11 k)) (fun k => φ (l12 k)) j =
      φ (sixC1 l01 l02 l11 l12 j) := by
  simp only [sixC1]
  fin_cases j <;> simp only [Fin.zero_eta, Fin.mk_one, Fin.reduceFinMk, cons_val, map_add, map_sub, map_mul,
    map_neg, map_ofNat]

theorem sixC2_map (l01 l02 l11 l12 : Fin 6 → R) (j : Fin 10) :
    sixC2 (fun k => φ (l01 k)) (fun k => φ (l02 k)) (fun k => φ (l11 k)) (fun k => φ (l12 k)) j =
      φ (sixC2 l01 l02 l11 l12 j) := by
  simp only [sixC2]
  fin_cases j <;> simp only [Fin.zero_eta, Fin.mk_one, Fin.reduceFinMk, cons_val, map_add, map_sub, map_mul,
    map_neg, map_ofNat]

theorem sixGet_map (L : Fin 6 → Fin 6 → R) (i : ℕ) :
    sixGet (fun i k => φ (L i k)) i = fun k => φ (sixGet L i k) := by
  unfold sixGet
  split
  · rfl
  · funext k; simp

theorem sixM_map (L1 L2 : Fin 6 → Fin 6 → R) (d r : ℕ) (k : Fin 3) (j : Fin 10) :
    sixM (fun i k => φ (L1 i k)) (fun i k => φ (L2 i k)) d r k j = φ (sixM L1 L2 d r k j) := by
  unfold sixM
  simp only [sixGet_map]
  fin_cases k
  · exact sixC0_map φ (sixGet L1 d) (sixGet L2 d) (sixGet L1 (sixSec d r)) (sixGet L2 (sixSec d r)) j
  · exact sixC1_map φ (sixGet L1 d) (sixGet L2 d) (sixGet L1 (sixSec d r)) (sixGet L2 (sixSec d r)) j
  · exact sixC2_map φ (sixGet L1 d) (sixGet L2 d) (sixGet L1 (sixSec d r)) (sixGet L2 (sixSec d r)) j

theorem sixEntry_map (m : Fin 3 → Fin 10 → R) (k j : ℕ) :
    sixEntry (fun k j => φ (m k j)) k j = φ (sixEntry m k j) := by
  unfold sixEntry
  split
  · rfl
  · simp

theorem sixTerm_map (m0 m1 m2 : Fin 3 → Fin 10 → R) (t : ℕ) :
    sixTerm (fun k j => φ (m0 k j)) (fun k j => φ (m1 k j)) (fun k j => φ (m2 k j)) t =
      φ (sixTerm m0 m1 m2 t) := by
  unfold sixTerm
  simp only [sixEntry_map]
  split <;> simp

theorem sixFillRow_map (m0 m1 m2 : Fin 3 → Fin 10 → R) (c : ℕ) :
    sixFillRow (fun k j => φ (m0 k j)) (fun k j => φ (m1 k j)) (fun k j => φ (m2 k j)) c =
      φ (sixFillRow m0 m1 m2 c) := by
  unfold sixFillRow
  rw [map_list_sum, List.map_map]
  congr 1
  apply List.map_congr_left
  intro t _
  exact sixTerm_map φ m0 m1 m2 t

theorem sixEntry_scale (s : R) (m : Fin 3 → Fin 10 → R) (k j : ℕ) :
    sixEntry (fun k j => s * m k j) k j = s * sixEntry m k j := by
  unfold sixEntry
  split <;> simp

theorem sixFillRow_scale (s : R) (m0 m1 m2 : Fin 3 → Fin 10 → R) (c : ℕ) :
    sixFillRow (fun k j => s * m0 k j) (fun k j => s * m1 k j) (fun k j => s * m2 k j) c =
      s ^ 3 * sixFillRow m0 m1 m2 c := by
  unfold sixFillRow
  rw [← List.sum_map_mul_left]
  congr 1
  apply List.map_congr_left
  intro t _
  unfold sixTerm
  simp only [sixEntry_scale]
  split <;> ring

end

/-- A factor does not change `M1`. -/
theorem sixM1_scale (M : Matrix (Fin 60) (Fin 84) ℝ) {s : ℝ} (hs : s ≠ 0) : sixM1 (s • M) = sixM1 M := by
  have hB : sixB (s • M) = s • sixB M := rfl
  have hG : (s • sixB M)ᵀ * (s • sixB M) = (s * s) • ((sixB M)ᵀ * sixB M) := by
    rw [transpose_smul, Matrix.smul_mul, Matrix.mul_smul, smul_smul]
  unfold sixM1
  simp only [hB, hG, det_smul]
  have h0 : (s * s) ^ Fintype.card (Fin 15) * ((sixB M)ᵀ * sixB M).det = 0 ↔ ((sixB M)ᵀ * sixB M).det = 0 := by
    rw [mul_eq_zero, or_iff_right (pow_ne_zero _ (mul_ne_zero hs hs))]
  by_cases h : ((sixB M)ᵀ * sixB M).det = 0
  · rw [if_pos (h0.2 h), if_pos h]
  · rw [if_neg (fun h' => h (h0.1 h')), if_neg h]
    congr 1
    have hinv : ((s * s) • ((sixB M)ᵀ * sixB M))⁻¹ = (s * s)⁻¹ • ((sixB M)ᵀ * sixB M)⁻¹ := by
      apply Matrix.inv_eq_left_inv
      rw [Matrix.smul_mul, Matrix.mul_smul, smul_smul, inv_mul_cancel₀ (mul_ne_zero hs hs), one_smul,
        Matrix.nonsing_inv_mul _ (isUnit_iff_ne_zero.2 h)]
    rw [hinv, transpose_smul]
    simp only [Matrix.smul_mul, Matrix.mul_smul, smul_smul]
    rw [show s * (s * (s * s)⁻¹) = 1 by field_simp, one_smul]

/-! ## The matrix modulo 251 -/

instance fact_prime_251 : Fact (Nat.Prime 251) := ⟨by norm_num⟩

/-- The coefficients of `fillRow1`, times 81. -/
def sixZ (d r : ℕ) (k : Fin 3) (j : Fin 10) : ℤ := (81 * sixM sixQ1 sixQ2 d r k j).num

theorem sixZ_rat {d r : ℕ} (hd : d < 6) (hr : r < 5) (k : Fin 3) (j : Fin 10) :
    81 * sixM sixQ1 sixQ2 d r k j = (sixZ d r k j : ℚ) :=
  (Rat.coe_int_num_of_den_eq_one (sixT_check ⟨d, hd⟩ ⟨r, hr⟩ k j).1).symm

theorem sixZ_mod {d r : ℕ} (hd : d < 6) (hr : r < 5) (k : Fin 3) (j : Fin 10) :
    ((sixZ d r k j : ℤ) : ZMod 251) = (byteAt (sixBlk d r) (16 * k + j) : ZMod 251) :=
  zmod_of_emod (sixT_check ⟨d, hd⟩ ⟨r, hr⟩ k j).2

/-- The residues as a block of coefficients. -/
def sixBytes (m : ℕ) (k : Fin 3) (j : Fin 10) : ZMod 251 := (byteAt m (16 * k + j) : ZMod 251)

theorem sixAll_digits {t : ℕ} (h : t ∈ sixAll) : t / 1048576 % 16 < 3 ∧ t / 65536 % 16 < 10 ∧
    t / 4096 % 16 < 3 ∧ t / 256 % 16 < 10 ∧ t / 16 % 16 < 3 ∧ t % 16 < 10 := by
  simp only [sixAll, List.mem_flatMap, List.mem_map, List.mem_range] at h
  obtain ⟨s, hs, a, ha, b, hb, d, hd, rfl⟩ := h
  simp only [sixSigns, List.mem_cons, List.not_mem_nil, or_false] at hs
  rcases hs with rfl | rfl | rfl | rfl | rfl | rfl <;> omega

theorem sixFill_mem {l : List ℕ} (hl : l ∈ sixFill) {t : ℕ} (ht : t ∈ l) : t ∈ sixAll :=
  sixFill_perm.mem_iff.1 (List.mem_flatten.2 ⟨l, hl, ht⟩)

theorem sixProd_eq (m0 m1 m2 : ℕ) {t : ℕ} (ht : t ∈ sixAll) :
    sixTerm (sixBytes m0) (sixBytes m1) (sixBytes m2) t =
      (if t < 16777216 then 1 else -1) * (sixProd m0 m1 m2 t : ZMod 251) := by
  obtain ⟨h1, h2, h3, h4, h5, h6⟩ := sixAll_digits ht
  have e2 : t.shiftRight 16 % 256 = 16 * (t / 1048576 % 16) + t / 65536 % 16 := by
    rw [show t.shiftRight 16 = t / 2 ^ 16 from Nat.shiftRight_eq_div_pow t 16]; omega
  have e1 : t.shiftRight 8 % 256 = 16 * (t / 4096 % 16) + t / 256 % 16 := by
    rw [show t.shiftRight 8 = t / 2 ^ 8 from Nat.shiftRight_eq_div_pow t 8]; omega
  have e0 : t % 256 = 16 * (t / 16 % 16) + t % 16 := by omega
  have hp : sixProd m0 m1 m2 t = byteAt m2 (16 * (t / 1048576 % 16) + t / 65536 % 16) *
      byteAt m1 (16 * (t / 4096 % 16) + t / 256 % 16) * byteAt m0 (16 * (t / 16 % 16) + t % 16) := by
    rw [← e2, ← e1, ← e0]
    rfl
  rw [hp]
  unfold sixTerm sixEntry
  simp only [dif_pos (And.intro h1 h2), dif_pos (And.intro h3 h4), dif_pos (And.intro h5 h6), sixBytes]
  push_cast
  split <;> ring

theorem sixAcc_sound (m0 m1 m2 w : ℕ) (l : List ℕ) (hl : ∀ t ∈ l, t ∈ sixAll) (pos neg : ℕ)
    (h : sixAcc m0 m1 m2 w l pos neg = true) :
    (pos : ZMod 251) + (l.map (sixTerm (sixBytes m0) (sixBytes m1) (sixBytes m2))).sum = neg + w := by
  induction l generalizing pos neg with
  | nil =>
    simp only [sixAcc, Nat.beq_eq] at h
    have : ((pos % 251 : ℕ) : ZMod 251) = (((neg + w) % 251 : ℕ) : ZMod 251) := congrArg _ h
    rw [ZMod.natCast_mod, ZMod.natCast_mod] at this
    simpa using this
  | cons t ts ih =>
    have ht := sixProd_eq m0 m1 m2 (hl t List.mem_cons_self)
    have ih' := fun p n => ih (fun t ht => hl t (List.mem_cons_of_mem _ ht)) p n
    simp only [sixAcc, forceNat_eq] at h
    rw [List.map_cons, List.sum_cons, ht]
    by_cases hb : t < 16777216
    · rw [show Nat.blt t 16777216 = true by simpa [Nat.blt_eq] using hb, cond_true] at h
      have := ih' _ _ h
      rw [show Nat.add pos (sixProd m0 m1 m2 t) = pos + sixProd m0 m1 m2 t from rfl] at this
      push_cast at this
      rw [if_pos hb]
      linear_combination this
    · rw [show Nat.blt t 16777216 = false by
        rw [Bool.eq_false_iff]; simpa [Nat.blt_eq] using hb, cond_false] at h
      have := ih' _ _ h
      rw [show Nat.add neg (sixProd m0 m1 m2 t) = neg + sixProd m0 m1 m2 t from rfl] at this
      push_cast at this
      rw [if_neg hb]
      linear_combination this

theorem sixRowCheck_sound (m0 m1 m2 row : ℕ) (ls : List (List ℕ)) (hls : ∀ l ∈ ls, l ∈ sixFill) (c i : ℕ)
    (h : sixRowCheck m0 m1 m2 row c ls = true) (hi : i < ls.length) :
    ((ls.getD i []).map (sixTerm (sixBytes m0) (sixBytes m1) (sixBytes m2))).sum =
      (byteTab sixWb row (c + i) : ZMod 251) := by
  induction ls generalizing c i with
  | nil => simp at hi
  | cons l ls ih =>
    simp only [sixRowCheck, forceNat_eq, Bool.and_eq_true] at h
    cases i with
    | zero =>
      have := sixAcc_sound m0 m1 m2 _ l (fun t ht => sixFill_mem (hls l List.mem_cons_self) ht) 0 0 h.1
      simpa using this
    | succ i =>
      rw [List.getD_cons_succ, ih (fun l hl => hls l (List.mem_cons_of_mem _ hl)) (c + 1) i h.2
        (by simpa using hi)]
      congr 2
      omega

theorem sixCount_lt : ∀ row : Fin 60, (sixCount row).1 < 6 ∧ (sixCount row).2.1 < 5 ∧
    (sixCount row).2.2.1 < 5 ∧ (sixCount row).2.2.2 < 5 := by decide +kernel

/-- `M1p`, times `81 ^ 3`. -/
def sixWI (row : Fin 60) (c : Fin 84) : ℤ :=
  let s := sixCount row
  sixFillRow (sixZ s.1 s.2.1) (sixZ s.1 s.2.2.1) (sixZ s.1 s.2.2.2) c

theorem sixWI_mod (row : Fin 60) (c : Fin 84) :
    ((sixWI row c : ℤ) : ZMod 251) = (byteTab sixWb row c : ZMod 251) := by
  have hr := sixRow_check row
  obtain ⟨b0, b1, b2, b3⟩ := sixCount_lt row
  unfold sixRowOk at hr
  unfold sixWI
  generalize sixCount row = s at *
  obtain ⟨d, r0, r1, r2⟩ := s
  simp only [forceNat_eq] at hr b0 b1 b2 b3 ⊢
  have := sixRowCheck_sound _ _ _ row sixFill (fun _ h => h) 0 c hr (by rw [sixFill_length]; exact c.2)
  rw [zero_add] at this
  rw [← this]
  have hm := sixFillRow_map (Int.castRingHom (ZMod 251)) (sixZ d r0) (sixZ d r1) (sixZ d r2) c
  rw [show ((sixFillRow (sixZ d r0) (sixZ d r1) (sixZ d r2) c : ℤ) : ZMod 251) =
    Int.castRingHom (ZMod 251) (sixFillRow (sixZ d r0) (sixZ d r1) (sixZ d r2) c) from rfl, ← hm]
  have e : ∀ r, r < 5 → (fun k j => Int.castRingHom (ZMod 251) (sixZ d r k j)) = sixBytes (sixBlk d r) := by
    intro r hr
    funext k j
    exact sixZ_mod b0 hr k j
  rw [e r0 b1, e r1 b2, e r2 b3]
  rfl

/-! ## The correspondences -/

/-- The correspondences. -/
noncomputable def sixObs (i : Fin 6) : RelObs where
  f1 := fun k => (sixF1 i k : ℝ)
  f2 := fun k => (sixF2 i k : ℝ)
  off1 := fun k => (sixO1 i k : ℝ)
  off2 := fun k => (sixO2 i k : ℝ)
  rot1 := 1
  rot2 := 1

theorem sixLine_cast (f off : Fin 3 → ℚ) :
    sixLine (fun k => (f k : ℝ)) (fun k => (off k : ℝ)) = fun k => ((sixLineQ f off k : ℚ) : ℝ) := by
  funext k
  fin_cases k <;> simp [sixLine, sixLineQ, cross_apply]

theorem sixObs_L1 : sixL1 sixObs = fun i k => (Rat.castHom ℝ) (sixQ1 i k) := by
  funext i
  simp only [sixL1, sixObs, one_mulVec]
  exact sixLine_cast _ _

theorem sixObs_L2 : sixL2 sixObs = fun i k => (Rat.castHom ℝ) (sixQ2 i k) := by
  funext i
  simp only [sixL2, sixObs, one_mulVec]
  exact sixLine_cast _ _

theorem sixObs_M1p : (81 ^ 3 : ℝ) • sixM1p (sixL1 sixObs) (sixL2 sixObs) =
    fun r c => ((sixWI r c : ℤ) : ℝ) := by
  rw [sixObs_L1, sixObs_L2]
  funext row c
  obtain ⟨b0, b1, b2, b3⟩ := sixCount_lt row
  show (81 ^ 3 : ℝ) * sixM1p _ _ row c = _
  unfold sixM1p sixWI
  generalize sixCount row = s at *
  obtain ⟨d, r0, r1, r2⟩ := s
  simp only at b0 b1 b2 b3 ⊢
  rw [← sixFillRow_scale]
  have e : ∀ r, r < 5 → (fun k j => (81 : ℝ) * sixM (fun i k => (Rat.castHom ℝ) (sixQ1 i k))
      (fun i k => (Rat.castHom ℝ) (sixQ2 i k)) d r k j) = fun k j => Int.castRingHom ℝ (sixZ d r k j) := by
    intro r hr
    funext k j
    rw [sixM_map]
    have := congrArg (fun q : ℚ => (q : ℝ)) (sixZ_rat b0 hr k j)
    simpa using this
  rw [e r0 b1, e r1 b2, e r2 b3, sixFillRow_map]
  rfl

/-! ## `M1` modulo 251 -/

theorem sumTo_eq (f : ℕ → ℕ) (n : ℕ) : sumTo f n = ∑ i ∈ Finset.range n, f i := by
  induction n with
  | zero => rfl
  | succ n ih => rw [Finset.sum_range_succ, ← ih]; exact add_comm (f n) (sumTo f n)

theorem sum_mod (f : ℕ → ℕ) {n v : ℕ} (h : Nat.beq (Nat.mod (sumTo f n) 251) v = true) :
    ∑ i : Fin n, (f i : ZMod 251) = v := by
  rw [Nat.beq_eq, sumTo_eq] at h
  rw [← h, show Nat.mod (∑ i ∈ Finset.range n, f i) 251 = (∑ i ∈ Finset.range n, f i) % 251 from rfl,
    ZMod.natCast_mod, Nat.cast_sum, Finset.sum_range]

/-- The matrix of whole numbers. -/
def sixWM : Matrix (Fin 60) (Fin 84) ℤ := sixWI

/-- `Bᵀ * M1p` for the matrix of whole numbers. -/
def sixHI : Matrix (Fin 15) (Fin 84) ℤ := (sixB sixWM)ᵀ * sixWM

/-- `Bᵀ * B` for the matrix of whole numbers. -/
def sixGI : Matrix (Fin 15) (Fin 15) ℤ := (sixB sixWM)ᵀ * sixB sixWM

theorem sixHI_mod (i : Fin 15) (j : Fin 84) : ((sixHI i j : ℤ) : ZMod 251) = (byteTab sixHb i j : ZMod 251) := by
  rw [← sum_mod _ (sixH_check i j), sixHI, mul_apply]
  push_cast
  apply Finset.sum_congr rfl
  intro r _
  have h1 := sixWI_mod r (Fin.castLE (by norm_num) i)
  have h2 := sixWI_mod r j
  rw [show Nat.mul (byteTab sixWb r i) (byteTab sixWb r j) = byteTab sixWb r i * byteTab sixWb r j from rfl,
    Nat.cast_mul, ← h2, show (i : ℕ) = ((Fin.castLE (by norm_num) i : Fin 84) : ℕ) from rfl, ← h1]
  rfl

/-- The residues of the inverse. -/
def sixJZ : Matrix (Fin 15) (Fin 15) (ZMod 251) := fun i k => (byteTab sixJb i k : ZMod 251)

theorem sixJ_mul : sixJZ * sixHI.map (Int.cast : ℤ → ZMod 251) =
    Matrix.of fun (i : Fin 15) (j : Fin 84) => (byteTab sixEb i j : ZMod 251) := by
  ext i j
  rw [mul_apply, of_apply, ← sum_mod _ (sixE_check i j)]
  apply Finset.sum_congr rfl
  intro k _
  rw [map_apply, sixHI_mod]
  exact (Nat.cast_mul _ _).symm

theorem sixJ_one : sixJZ * sixGI.map (Int.cast : ℤ → ZMod 251) = 1 := by
  ext i j
  have h := congrFun (congrFun sixJ_mul i) (Fin.castLE (by norm_num) j)
  rw [of_apply, Fin.val_castLE, sixE_one] at h
  rw [one_apply, ← Nat.cast_one, ← Nat.cast_zero, ← Nat.cast_ite, ← h]
  rfl

theorem sixGI_det : ((sixGI.det : ℤ) : ZMod 251) ≠ 0 := by
  intro h
  have h1 := congrArg det sixJ_one
  rw [det_mul, det_one] at h1
  have h2 : (sixGI.map (Int.cast : ℤ → ZMod 251)).det = ((sixGI.det : ℤ) : ZMod 251) :=
    ((Int.castRingHom (ZMod 251)).map_det sixGI).symm
  rw [h2, h, mul_zero] at h1
  exact zero_ne_one h1

/-- A multiple of `M1` has whole entries with known residues. -/
theorem sixObs_M1 : ∃ M1 : Matrix (Fin 15) (Fin 84) ℝ, ∃ (d : ℝ) (A : Fin 15 → Fin 84 → ℤ) (d' : ℤ),
    sixM1 (sixM1p (sixL1 sixObs) (sixL2 sixObs)) = some M1 ∧ d = d' ∧ ((d' : ℤ) : ZMod 251) = 1 ∧
    (∀ i j, d * M1 i j = A i j) ∧
    ∀ i j, ((A i j : ℤ) : ZMod 251) = (byteTab sixEb i j : ZMod 251) := by
  have hdet := sixGI_det
  obtain ⟨e, he⟩ : ∃ e : ℤ, ((e : ℤ) : ZMod 251) * ((sixGI.det : ℤ) : ZMod 251) = 1 := by
    obtain ⟨e, he⟩ := ZMod.intCast_surjective (((sixGI.det : ℤ) : ZMod 251)⁻¹)
    exact ⟨e, by rw [he]; exact inv_mul_cancel₀ hdet⟩
  rw [← sixM1_scale _ (show (81 ^ 3 : ℝ) ≠ 0 by norm_num), sixObs_M1p]
  set W : Matrix (Fin 60) (Fin 84) ℝ := fun r c => ((sixWI r c : ℤ) : ℝ) with hW
  have hWm : W = sixWM.map (Int.cast : ℤ → ℝ) := rfl
  have hBm : sixB W = (sixB sixWM).map (Int.cast : ℤ → ℝ) := rfl
  have hG : (sixB W)ᵀ * sixB W = sixGI.map (Int.cast : ℤ → ℝ) := by
    rw [hBm, sixGI, ← transpose_map]
    exact (Matrix.map_mul (f := Int.castRingHom ℝ)).symm
  have hH : (sixB W)ᵀ * W = sixHI.map (Int.cast : ℤ → ℝ) := by
    rw [hBm, sixHI, ← transpose_map]
    exact (Matrix.map_mul (f := Int.castRingHom ℝ)).symm
  have hGd : (sixGI.map (Int.cast : ℤ → ℝ)).det = ((sixGI.det : ℤ) : ℝ) :=
    ((Int.castRingHom ℝ).map_det sixGI).symm
  have hne : ((sixGI.det : ℤ) : ℝ) ≠ 0 := by
    intro h
    have : sixGI.det = 0 := by exact_mod_cast h
    rw [this] at hdet
    exact hdet Int.cast_zero
  refine ⟨(sixGI.map (Int.cast : ℤ → ℝ))⁻¹ * sixHI.map (Int.cast : ℤ → ℝ), ((e * sixGI.det : ℤ) : ℝ),
    e • (sixGI.adjugate * sixHI), e * sixGI.det, ?_, rfl, by rw [Int.cast_mul, he], ?_, ?_⟩
  · unfold sixM1
    simp only [hG, hGd]
    rw [if_neg hne, Matrix.mul_assoc, hH]
  · intro i j
    have : ((e * sixGI.det : ℤ) : ℝ) • ((sixGI.map (Int.cast : ℤ → ℝ))⁻¹ * sixHI.map (Int.cast : ℤ → ℝ)) =
        (e • (sixGI.adjugate * sixHI)).map (Int.cast : ℤ → ℝ) := by
      have ha : (sixGI.map (Int.cast : ℤ → ℝ)).adjugate = sixGI.adjugate.map (Int.cast : ℤ → ℝ) :=
        ((Int.castRingHom ℝ).map_adjugate sixGI).symm
      have hm : (sixGI.adjugate * sixHI).map (Int.cast : ℤ → ℝ) =
          sixGI.adjugate.map (Int.cast : ℤ → ℝ) * sixHI.map (Int.cast : ℤ → ℝ) :=
        Matrix.map_mul (f := Int.castRingHom ℝ)
      rw [Matrix.inv_def, hGd, Ring.inverse_eq_inv', Matrix.smul_mul, smul_smul, ha, ← hm]
      rw [Int.cast_mul, mul_inv_cancel_right₀ hne]
      ext i j
      simp
    exact congrFun (congrFun this i) j
  · intro i j
    have hm : (sixGI * (e • (sixGI.adjugate * sixHI))).map (Int.cast : ℤ → ZMod 251) =
        sixHI.map (Int.cast : ℤ → ZMod 251) := by
      rw [Matrix.mul_smul, ← Matrix.mul_assoc, mul_adjugate, Matrix.smul_mul, Matrix.one_mul]
      ext i j
      show (((e * (sixGI.det * sixHI i j) : ℤ)) : ZMod 251) = _
      rw [Int.cast_mul, Int.cast_mul, ← mul_assoc, he, one_mul]
      rfl
    have hm2 : (sixGI * (e • (sixGI.adjugate * sixHI))).map (Int.cast : ℤ → ZMod 251) =
        sixGI.map (Int.cast : ℤ → ZMod 251) * (e • (sixGI.adjugate * sixHI)).map (Int.cast : ℤ → ZMod 251) :=
      Matrix.map_mul (f := Int.castRingHom (ZMod 251))
    have h := sixJ_mul
    rw [← hm, hm2, ← Matrix.mul_assoc, sixJ_one, Matrix.one_mul] at h
    exact congrFun (congrFun h i) j

/-! ## The template and the eigenvectors -/

theorem byteTab_le (t k j : ℕ) : byteTab t k j ≤ 1073741824 := by
  have h : byteTab t k j < 256 := Nat.mod_lt _ (by norm_num)
  omega

theorem sixExtra_length : sixExtra.length = 64 := by decide +kernel

theorem sixExtra_bounds : ∀ row ∈ sixExtra, ascending 0 row.2 = true ∧ row.1 = 15 ∧
    ∀ e ∈ row.2, e.1 < 157 ∧ e.2 < 2 := by decide +kernel

theorem sixExtra_spec : ∀ i : Fin 64, i.val < 63 →
    (∀ r, sixSource i = some r → sixExtra[i.val]? = some (15, [(r.val, 0), (93 + i.val, 1)])) ∧
    (sixSource i = none → ∃ o, sixOne i = some o ∧
      sixExtra[i.val]? = some (15, [(93 + o.val, 0), (93 + i.val, 1)])) := by decide +kernel

theorem sixExtra_last : sixExtra[63]? = some (15, [(156, 0)]) := by decide +kernel

theorem sixEig_mem {row} (hr : row ∈ sixEigTable) : ascending 0 row.2 = true ∧
    (∀ e ∈ row.2, e.1 < 157) ∧ ((row.1 < 15 ∧ ∀ e ∈ row.2, e.2 < 84) ∨ (row.1 = 15 ∧ ∀ e ∈ row.2, e.2 < 2)) := by
  have : row ∈ sixTable ∨ row ∈ sixExtra := by simpa [sixEigTable] using hr
  rcases this with h | h
  · obtain ⟨h1, h2, h3⟩ := sixTable_bounds h
    exact ⟨h1, fun e he => (h3 e he).1, Or.inl ⟨h2, fun e he => (h3 e he).2⟩⟩
  · obtain ⟨h1, h2, h3⟩ := sixExtra_bounds row h
    exact ⟨h1, fun e he => (h3 e he).1, Or.inr ⟨h2, fun e he => (h3 e he).2⟩⟩

theorem sixEig_length : sixEigTable.length = 157 := by
  simp [sixEigTable, sixTable_length, sixExtra_length]

theorem sixEig_low {r : ℕ} (hr : r < 93) : sixEigTable[r]? = sixTable[r]? := by
  have : sixEigTable = sixTable ++ sixExtra := by simp [sixEigTable]
  rw [this, List.getElem?_append_left (by rw [sixTable_length]; exact hr)]

theorem sixEig_high (s : ℕ) : sixEigTable[93 + s]? = sixExtra[s]? := by
  have : sixEigTable = sixTable ++ sixExtra := by simp [sixEigTable]
  rw [this, List.getElem?_append_right (by rw [sixTable_length]; omega), sixTable_length,
    Nat.add_sub_cancel_left]

theorem sixEb_row : byteTab sixEb 15 0 = 1 ∧ byteTab sixEb 15 1 = 250 := by decide +kernel

/-- The solver finishes for the example, and the eigenvectors of the action matrix to the eigenvalue
one are determined by their last entry. -/
theorem sixObs_setup : ∃ Action, sixSetup (sixL1 sixObs) (sixL2 sixObs) = some Action ∧
    ∀ y : Fin 64 → ℝ, Action *ᵥ y = (1 : ℝ) • y → y 63 = 0 → y = 0 := by
  obtain ⟨M1, d, A, d', hM1, hdd, hd1, hA, hE⟩ := sixObs_M1
  set A' : ℕ → ℕ → ℤ := fun k j =>
    if h : k < 15 ∧ j < 84 then A ⟨k, h.1⟩ ⟨j, h.2⟩ else d' * (if j = 0 then 1 else -1) with hA'
  set M1' : ℕ → ℕ → ℝ := fun k j => if k < 15 then matFun M1 k j else (if j = 0 then 1 else -1) with hM1'
  have hd0 : d ≠ 0 := by
    rintro rfl
    have : d' = 0 := by exact_mod_cast hdd.symm
    rw [this] at hd1
    exact zero_ne_one (Int.cast_zero.symm.trans hd1)
  have e1 : ∀ k j, k < 15 → j < 84 → ((A' k j : ℤ) : ZMod 251) = (byteTab sixEb k j : ZMod 251) := by
    intro k j hk hj
    simp only [hA', dif_pos (And.intro hk hj)]
    exact hE ⟨k, hk⟩ ⟨j, hj⟩
  have e2 : ∀ k j, k < 15 → j < 84 → d * matFun M1 k j = A' k j := by
    intro k j hk hj
    simp only [hA', dif_pos (And.intro hk hj), matFun]
    exact hA ⟨k, hk⟩ ⟨j, hj⟩
  have hleft := template_regular (p := 251) (n := 93) (ncols := 157) (by norm_num) (by norm_num) (by norm_num)
    sixTable_length (fun row hr => ⟨(sixTable_bounds hr).1, fun e he => ((sixTable_bounds hr).2.2 e he).1⟩)
    (σ := fun c => c) (fun _ => rfl) (fun _ hc => hc) (byteTab_le sixEb) A'
    (fun row hr e he => e1 _ _ (sixTable_bounds hr).2.1 ((sixTable_bounds hr).2.2 e he).2)
    (matFun M1) d
    (fun row hr e he => e2 _ _ (sixTable_bounds hr).2.1 ((sixTable_bounds hr).2.2 e he).2)
    sixReg_check
  have hldet : (sixLeft M1).det ≠ 0 := by
    intro h
    apply hleft
    have : (Matrix.of fun r c : Fin 93 => d * templateM2 sixTable (matFun M1) r c) = d • sixLeft M1 := rfl
    rw [this, det_smul, h, mul_zero]
  have hM3 : sixM3 M1 = some ((sixLeft M1)⁻¹ * sixRight M1) := by
    unfold sixM3
    rw [if_neg hldet]
  refine ⟨sixAction ((sixLeft M1)⁻¹ * sixRight M1), by rw [sixSetup, hM1, Option.bind_some, hM3]; rfl, ?_⟩
  intro y hy h63
  rw [one_smul] at hy
  have hfull := template_regular (p := 251) (n := 157) (ncols := 157) (by norm_num) (by norm_num) (by norm_num)
    sixEig_length (fun row hr => ⟨(sixEig_mem hr).1, (sixEig_mem hr).2.1⟩)
    (σ := fun c => c) (fun _ => rfl) (fun _ hc => hc) (byteTab_le sixEb) A'
    (fun row hr e he => by
      rcases (sixEig_mem hr).2.2 with ⟨h1, h2⟩ | ⟨h1, h2⟩
      · exact e1 _ _ h1 (h2 e he)
      · have := h2 e he
        simp only [hA', h1, show ¬ (15 < 15 ∧ e.2 < 84) by omega, dif_neg, not_false_eq_true]
        rw [Int.cast_mul, hd1, one_mul]
        obtain h0 | h0 : e.2 = 0 ∨ e.2 = 1 := by omega
        · rw [h0, sixEb_row.1]; simp
        · rw [h0, sixEb_row.2]; simp; decide)
    M1' d
    (fun row hr e he => by
      rcases (sixEig_mem hr).2.2 with ⟨h1, h2⟩ | ⟨h1, h2⟩
      · simp only [hM1', if_pos h1]
        exact e2 _ _ h1 (h2 e he)
      · simp only [hA', hM1', h1, lt_irrefl, false_and, dite_false,
          if_false]
        rw [hdd]
        push_cast
        split <;> simp)
    sixReg_check2
  set xl : Fin 93 → ℝ := -(((sixLeft M1)⁻¹ * sixRight M1) *ᵥ y) with hxl
  have hx : sixLeft M1 *ᵥ xl + sixRight M1 *ᵥ y = 0 := by
    rw [hxl, mulVec_neg, mulVec_mulVec, ← Matrix.mul_assoc,
      Matrix.mul_nonsing_inv _ (isUnit_iff_ne_zero.2 hldet), Matrix.one_mul, neg_add_cancel]
  set x : ℕ → ℝ := fun c => if h : c < 93 then xl ⟨c, h⟩ else if h : c - 93 < 64 then y ⟨c - 93, h⟩ else 0
    with hxdef
  have hx1 : ∀ c : Fin 93, x c = xl c := fun c => by simp [hxdef]
  have hx2 : ∀ s : Fin 64, x (93 + s) = y s := fun s => by simp [hxdef]
  have hrowsrc : ∀ (i : Fin 64) (r : Fin 93), sixSource i = some r → x r - x (93 + i) = 0 := by
    intro i r hs
    have h := congrFun hy i
    simp only [mulVec, dotProduct, sixAction, hs, zero_sub, neg_mul, Finset.sum_neg_distrib] at h
    rw [hx1, hx2, hxl, ← h]
    simp [mulVec, dotProduct]
  have hrowone : ∀ (i o : Fin 64), sixSource i = none → sixOne i = some o → x (93 + o) - x (93 + i) = 0 := by
    intro i o hs ho
    have h := congrFun hy i
    simp only [mulVec, dotProduct, sixAction, hs, ho, Option.some.injEq, ite_mul, one_mul, zero_mul,
      Finset.sum_ite_eq, Finset.mem_univ, if_true] at h
    rw [hx2, hx2, h, sub_self]
  have hz := det_sum hfull x (by
    intro r hr
    by_cases hr1 : r < 93
    · have h := congrFun hx ⟨r, hr1⟩
      rw [show 157 = 93 + 64 from rfl, Finset.sum_range_add, Finset.sum_range, Finset.sum_range]
      simp only [hx1, hx2]
      refine Eq.trans ?_ h
      have ht : ∀ c, templateM2 sixEigTable M1' r c = templateM2 sixTable (matFun M1) r c := by
        intro c
        unfold templateM2
        rw [sixEig_low hr1]
        cases ht : sixTable[r]? with
        | none => rfl
        | some row =>
          have hk := (sixTable_bounds (List.mem_of_getElem? ht)).2.1
          simp only [hM1', if_pos hk]
      simp only [ht]
      rfl
    · obtain ⟨s, rfl⟩ := Nat.exists_eq_add_of_le (Nat.le_of_not_lt hr1)
      have hs : s < 64 := by omega
      have main : ∀ row, sixExtra[s]? = some row → (row.2.map fun e => M1' 15 e.2 * x e.1).sum = 0 →
          ∑ c ∈ Finset.range 157, templateM2 sixEigTable M1' (93 + s) c * x c = 0 := by
        intro row hrow hsum
        obtain ⟨b1, b2, b3⟩ := sixExtra_bounds row (List.mem_of_getElem? hrow)
        unfold templateM2
        rw [sixEig_high, hrow]
        show ∑ c ∈ Finset.range 157, row.2.foldl
          (fun f e => Function.update f e.1 (M1' row.1 e.2)) (0 : ℕ → ℝ) c * x c = 0
        rw [foldl_update_sum (fun j => M1' row.1 j) x 157 _ 0 0 b1
          (fun e he => (b3 e he).1) (fun _ _ => rfl), b2, hsum]
        simp
      have m0 : M1' 15 0 = 1 := by simp [hM1']
      have m1 : M1' 15 1 = -1 := by simp [hM1']
      by_cases h63' : s = 63
      · subst h63'
        apply main _ sixExtra_last
        simp only [List.map_cons, List.map_nil, List.sum_cons, List.sum_nil, m0]
        have := hx2 63
        rw [h63] at this
        rw [show x 156 = 0 from this]
        ring
      · obtain ⟨g1, g2⟩ := sixExtra_spec ⟨s, hs⟩ (show s < 63 by omega)
        cases hsrc : sixSource ⟨s, hs⟩ with
        | some q =>
          apply main _ (g1 q hsrc)
          simp only [List.map_cons, List.map_nil, List.sum_cons, List.sum_nil, m0, m1]
          have := hrowsrc ⟨s, hs⟩ q hsrc
          simp only at this
          linarith
        | none =>
          obtain ⟨o, ho, hrow⟩ := g2 hsrc
          apply main _ hrow
          simp only [List.map_cons, List.map_nil, List.sum_cons, List.sum_nil, m0, m1]
          have := hrowone ⟨s, hs⟩ o hsrc ho
          simp only at this
          linarith)
  funext s
  rw [← hx2 s]
  exact hz _ (by omega)

/-- The Cayley parameters of the example. -/
def sixCay : Vec3 := ![1, 1, 1]

/-- The translation of the example. -/
def sixTr : Vec3 := ![2, 0, 0]

theorem sixObs_unit : (∀ i, ((sixObs i).rot1 *ᵥ (sixObs i).f1) ⬝ᵥ ((sixObs i).rot1 *ᵥ (sixObs i).f1) = 1) ∧
    ∀ i, ((sixObs i).rot2 *ᵥ (sixObs i).f2) ⬝ᵥ ((sixObs i).rot2 *ᵥ (sixObs i).f2) = 1 := by
  have h : ∀ i : Fin 6, sixF1 i 0 * sixF1 i 0 + sixF1 i 1 * sixF1 i 1 + sixF1 i 2 * sixF1 i 2 = 1 ∧
    sixF2 i 0 * sixF2 i 0 + sixF2 i 1 * sixF2 i 1 + sixF2 i 2 * sixF2 i 2 = 1 := by decide +kernel
  constructor <;> intro i <;> simp only [sixObs, one_mulVec, dot3]
  · exact_mod_cast (h i).1
  · exact_mod_cast (h i).2

theorem sixObs_exact (i : Fin 6) :
    (sixObs i).off1 + (3 * sixDepth 0 i : ℝ) • ((sixObs i).rot1 *ᵥ (sixObs i).f1) =
      (cayley2rot sixCay)ᵀ *ᵥ ((sixObs i).off2 + (3 * sixDepth 1 i : ℝ) • ((sixObs i).rot2 *ᵥ (sixObs i).f2)) +
        sixTr := by
  have hR : (cayley2rot sixCay)ᵀ = !![0, 1, 0; 0, 0, 1; 1, 0, 0] := by
    apply mat3_ext <;> simp [cayley2rot, sixCay] <;> norm_num
  have h : ∀ i : Fin 6, sixO1 i 0 + 3 * sixDepth 0 i * sixF1 i 0 = sixO2 i 1 + 3 * sixDepth 1 i * sixF2 i 1 + 2 ∧
    sixO1 i 1 + 3 * sixDepth 0 i * sixF1 i 1 = sixO2 i 2 + 3 * sixDepth 1 i * sixF2 i 2 ∧
    sixO1 i 2 + 3 * sixDepth 0 i * sixF1 i 2 = sixO2 i 0 + 3 * sixDepth 1 i * sixF2 i 0 := by decide +kernel
  obtain ⟨h0, h1, h2⟩ := h i
  rw [hR]
  have c0 := congrArg (fun q : ℚ => (q : ℝ)) h0
  have c1 := congrArg (fun q : ℚ => (q : ℝ)) h1
  have c2 := congrArg (fun q : ℚ => (q : ℝ)) h2
  push_cast at c0 c1 c2
  simp only [sixObs, one_mulVec]
  funext k
  fin_cases k <;> simp [dotProduct, Fin.sum_univ_three, sixTr] <;> assumption

end OpenGV
