import Verif.Model.UpnpAction
import Verif.Model.Upnp
import Mathlib.Data.Rat.Cast.CharZero
import Mathlib.Tactic.FinCases
import Mathlib.Tactic.NormNum

/-!
# Rational correspondences

For correspondences with rational numbers, the matrices of UPnP have rational entries that can be
computed.
-/

namespace OpenGV

open Matrix

/-- A correspondence with rational numbers. -/
structure QObs where
  f : Fin 3 → ℚ
  v : Fin 3 → ℚ
  p : Fin 3 → ℚ

/-- A rational matrix as a real one. -/
noncomputable def realMat {m n : ℕ} (A : Matrix (Fin m) (Fin n) ℚ) : Matrix (Fin m) (Fin n) ℝ :=
  A.map (Rat.castHom ℝ)

/-- A rational vector as a real one. -/
def realVec {n : ℕ} (x : Fin n → ℚ) : Fin n → ℝ := fun i => x i

/-- The correspondence in real numbers. -/
def QObs.real (o : QObs) : UpnpObs := ⟨realVec o.f, realVec o.v, realVec o.p⟩

theorem realMat_apply {m n : ℕ} (A : Matrix (Fin m) (Fin n) ℚ) (i : Fin m) (j : Fin n) :
    realMat A i j = (A i j : ℝ) := rfl

theorem realMat_mul {m n k : ℕ} (A : Matrix (Fin m) (Fin n) ℚ) (B : Matrix (Fin n) (Fin k) ℚ) :
    realMat (A * B) = realMat A * realMat B := Matrix.map_mul

theorem realMat_add {m n : ℕ} (A B : Matrix (Fin m) (Fin n) ℚ) :
    realMat (A + B) = realMat A + realMat B := by
  ext i j; simp [realMat_apply]

theorem realMat_sub {m n : ℕ} (A B : Matrix (Fin m) (Fin n) ℚ) :
    realMat (A - B) = realMat A - realMat B := by
  ext i j; simp [realMat_apply]

theorem realMat_one {n : ℕ} : realMat (1 : Matrix (Fin n) (Fin n) ℚ) = 1 := by
  ext i j
  by_cases h : i = j <;> simp [realMat_apply, one_apply, h]

theorem realMat_transpose {m n : ℕ} (A : Matrix (Fin m) (Fin n) ℚ) :
    realMat Aᵀ = (realMat A)ᵀ := rfl

theorem realMat_sum {m n : ℕ} (l : List (Matrix (Fin m) (Fin n) ℚ)) :
    realMat l.sum = (l.map realMat).sum := by
  induction l with
  | nil => ext i j; simp [realMat_apply]
  | cons A l ih => rw [List.sum_cons, realMat_add, ih, List.map_cons, List.sum_cons]

theorem realVec_add {n : ℕ} (x y : Fin n → ℚ) : realVec (x + y) = realVec x + realVec y := by
  funext i; simp [realVec]

theorem realVec_neg {n : ℕ} (x : Fin n → ℚ) : realVec (-x) = -realVec x := by
  funext i; simp [realVec]

theorem realVec_sum {n : ℕ} (l : List (Fin n → ℚ)) : realVec l.sum = (l.map realVec).sum := by
  induction l with
  | nil => funext i; simp [realVec]
  | cons A l ih => rw [List.sum_cons, realVec_add, ih, List.map_cons, List.sum_cons]

theorem realVec_mulVec {m n : ℕ} (A : Matrix (Fin m) (Fin n) ℚ) (x : Fin n → ℚ) :
    realVec (A *ᵥ x) = realMat A *ᵥ realVec x := by
  funext i; simp [realVec, mulVec, dotProduct, realMat_apply]

theorem realVec_vecMul {m n : ℕ} (A : Matrix (Fin m) (Fin n) ℚ) (x : Fin m → ℚ) :
    realVec (x ᵥ* A) = realVec x ᵥ* realMat A := by
  funext i; simp [realVec, vecMul, dotProduct, realMat_apply]

/-! ## The matrices of UPnP -/

/-- `fill3x10` for a rational vector. -/
def fillQ (x : Fin 3 → ℚ) : Matrix (Fin 3) (Fin 10) ℚ :=
  !![x 0, x 0, -x 0, -x 0, 0, 2 * x 2, -2 * x 1, 2 * x 1, 2 * x 2, 0;
     x 1, -x 1, x 1, -x 1, -2 * x 2, 0, 2 * x 0, 2 * x 0, 0, 2 * x 2;
     x 2, -x 2, -x 2, x 2, 2 * x 1, -2 * x 0, 0, 0, 2 * x 0, 2 * x 1]

theorem fill3x10_real (x : Fin 3 → ℚ) : fill3x10 (realVec x) = realMat (fillQ x) := by
  ext i j
  fin_cases i <;> fin_cases j <;> simp [fill3x10, realMat_apply, fillQ, realVec]

/-- `upnpTemp` for a rational vector. -/
def tempQ (f : Fin 3 → ℚ) : Matrix (Fin 3) (Fin 3) ℚ := vecMulVec f f - 1

theorem upnpTemp_real (f : Fin 3 → ℚ) : upnpTemp (realVec f) = realMat (tempQ f) := by
  unfold upnpTemp tempQ
  rw [realMat_sub, realMat_one]
  congr 1
  ext i j
  simp [realMat_apply, vecMulVec_apply, realVec]

/-- `H_inv` for rational numbers. -/
def hinvQ (obs : List QObs) : Matrix (Fin 3) (Fin 3) ℚ :=
  (obs.length : ℚ) • 1 - (obs.map fun o => vecMulVec o.f o.f).sum

theorem upnpHinv_real (obs : List QObs) : upnpHinv (obs.map QObs.real) = realMat (hinvQ obs) := by
  unfold upnpHinv hinvQ
  rw [realMat_sub, realMat_sum, List.length_map, List.map_map, List.map_map]
  congr 1
  · ext i j
    by_cases h : i = j <;> simp [realMat_apply, one_apply, h]
  · congr 1
    apply List.map_congr_left
    intro o _
    ext i j
    simp [realMat_apply, vecMulVec_apply, realVec, QObs.real]

theorem upnpH_real {obs : List QObs} {h : Matrix (Fin 3) (Fin 3) ℚ} (hh : hinvQ obs * h = 1) :
    upnpH (obs.map QObs.real) = realMat h := by
  unfold upnpH
  rw [upnpHinv_real]
  exact Matrix.inv_eq_right_inv (by rw [← realMat_mul, hh, realMat_one])

theorem upnpI_real {obs : List QObs} {h : Matrix (Fin 3) (Fin 3) ℚ} (hh : hinvQ obs * h = 1)
    {I : Matrix (Fin 3) (Fin 10) ℚ}
    (hI : (obs.map fun o => h * tempQ o.f * fillQ o.p).sum = I) :
    upnpI (obs.map QObs.real) = realMat I := by
  unfold upnpI
  rw [upnpH_real hh, ← hI, realMat_sum, List.map_map, List.map_map]
  congr 1
  apply List.map_congr_left
  intro o _
  simp only [Function.comp, QObs.real, upnpTemp_real, fill3x10_real, realMat_mul]

theorem upnpJ_real {obs : List QObs} {h : Matrix (Fin 3) (Fin 3) ℚ} (hh : hinvQ obs * h = 1)
    {J : Fin 3 → ℚ} (hJ : (obs.map fun o => (h * tempQ o.f) *ᵥ o.v).sum = J) :
    upnpJ (obs.map QObs.real) = realVec J := by
  unfold upnpJ
  rw [upnpH_real hh, ← hJ, realVec_sum, List.map_map, List.map_map]
  congr 1
  apply List.map_congr_left
  intro o _
  simp only [Function.comp, QObs.real, upnpTemp_real, realVec_mulVec, realMat_mul]

theorem upnpM_real {obs : List QObs} {h : Matrix (Fin 3) (Fin 3) ℚ} (hh : hinvQ obs * h = 1)
    {I : Matrix (Fin 3) (Fin 10) ℚ}
    (hI : (obs.map fun o => h * tempQ o.f * fillQ o.p).sum = I) {M : Matrix (Fin 10) (Fin 10) ℚ}
    (hM : (obs.map fun o => (tempQ o.f * (fillQ o.p + I))ᵀ * (tempQ o.f * (fillQ o.p + I))).sum =
      M) : upnpM (obs.map QObs.real) = realMat M := by
  unfold upnpM upnpA
  rw [upnpI_real hh hI, ← hM, realMat_sum, List.map_map, List.map_map]
  congr 1
  apply List.map_congr_left
  intro o _
  simp only [Function.comp, QObs.real, upnpTemp_real, fill3x10_real, realMat_mul, realMat_add,
    realMat_transpose]

theorem upnpC_real {obs : List QObs} {h : Matrix (Fin 3) (Fin 3) ℚ} (hh : hinvQ obs * h = 1)
    {I : Matrix (Fin 3) (Fin 10) ℚ}
    (hI : (obs.map fun o => h * tempQ o.f * fillQ o.p).sum = I) {J : Fin 3 → ℚ}
    (hJ : (obs.map fun o => (h * tempQ o.f) *ᵥ o.v).sum = J) {C : Fin 10 → ℚ}
    (hC : (obs.map fun o => (-(tempQ o.f *ᵥ (o.v + J))) ᵥ* (tempQ o.f * (fillQ o.p + I))).sum = C) :
    upnpC (obs.map QObs.real) = realVec C := by
  unfold upnpC upnpA upnpB
  rw [upnpI_real hh hI, upnpJ_real hh hJ, ← hC, realVec_sum, List.map_map, List.map_map]
  congr 1
  apply List.map_congr_left
  intro o _
  simp only [Function.comp, QObs.real, upnpTemp_real, fill3x10_real, realMat_mul, realMat_add,
    realVec_vecMul, realVec_neg, realVec_add, realVec_mulVec]

/-! ## The equations -/

theorem upnpSymRow0_real (M : Matrix (Fin 10) (Fin 10) ℚ) (C : Fin 10 → ℚ) :
    upnpSymRow0 (realMat M) (realVec C) = realVec (upnpSymRow0 M C) := by
  funext j
  fin_cases j <;> simp [upnpSymRow0, realVec, realMat_apply]

theorem upnpSymRow1_real (M : Matrix (Fin 10) (Fin 10) ℚ) (C : Fin 10 → ℚ) :
    upnpSymRow1 (realMat M) (realVec C) = realVec (upnpSymRow1 M C) := by
  funext j
  fin_cases j <;> simp [upnpSymRow1, realVec, realMat_apply]

theorem upnpSymRow2_real (M : Matrix (Fin 10) (Fin 10) ℚ) (C : Fin 10 → ℚ) :
    upnpSymRow2 (realMat M) (realVec C) = realVec (upnpSymRow2 M C) := by
  funext j
  fin_cases j <;> simp [upnpSymRow2, realVec, realMat_apply]

theorem upnpSymRow3_real (M : Matrix (Fin 10) (Fin 10) ℚ) (C : Fin 10 → ℚ) :
    upnpSymRow3 (realMat M) (realVec C) = realVec (upnpSymRow3 M C) := by
  funext j
  fin_cases j <;> simp [upnpSymRow3, realVec, realMat_apply]

theorem upnpSymRow4_real :
    upnpSymRow4 = realVec (upnpSymRow4) := by
  funext j
  fin_cases j <;> simp [upnpSymRow4, realVec]

theorem upnpSymRow5_real :
    upnpSymRow5 = realVec (upnpSymRow5) := by
  funext j
  fin_cases j <;> simp [upnpSymRow5, realVec]

theorem upnpSymRow6_real :
    upnpSymRow6 = realVec (upnpSymRow6) := by
  funext j
  fin_cases j <;> simp [upnpSymRow6, realVec]

theorem upnpSymRow7_real :
    upnpSymRow7 = realVec (upnpSymRow7) := by
  funext j
  fin_cases j <;> simp [upnpSymRow7, realVec]

theorem upnpM1SymInit_real (M : Matrix (Fin 10) (Fin 10) ℚ) (C : Fin 10 → ℚ) :
    upnpM1SymInit (realMat M) (realVec C) = realMat (upnpM1SymInit M C) := by
  unfold upnpM1SymInit
  rw [upnpSymRow0_real, upnpSymRow1_real, upnpSymRow2_real, upnpSymRow3_real, upnpSymRow4_real, upnpSymRow5_real, upnpSymRow6_real, upnpSymRow7_real]
  ext i j
  fin_cases i <;> rfl

theorem upnpGenRow0_real (M : Matrix (Fin 10) (Fin 10) ℚ) (C : Fin 10 → ℚ) :
    upnpGenRow0 (realMat M) (realVec C) = realVec (upnpGenRow0 M C) := by
  funext j
  fin_cases j <;> simp [upnpGenRow0, realVec, realMat_apply]

theorem upnpGenRow1_real (M : Matrix (Fin 10) (Fin 10) ℚ) (C : Fin 10 → ℚ) :
    upnpGenRow1 (realMat M) (realVec C) = realVec (upnpGenRow1 M C) := by
  funext j
  fin_cases j <;> simp [upnpGenRow1, realVec, realMat_apply]

theorem upnpGenRow2_real (M : Matrix (Fin 10) (Fin 10) ℚ) (C : Fin 10 → ℚ) :
    upnpGenRow2 (realMat M) (realVec C) = realVec (upnpGenRow2 M C) := by
  funext j
  fin_cases j <;> simp [upnpGenRow2, realVec, realMat_apply]

theorem upnpGenRow3_real (M : Matrix (Fin 10) (Fin 10) ℚ) (C : Fin 10 → ℚ) :
    upnpGenRow3 (realMat M) (realVec C) = realVec (upnpGenRow3 M C) := by
  funext j
  fin_cases j <;> simp [upnpGenRow3, realVec, realMat_apply]

theorem upnpGenRow4_real :
    upnpGenRow4 = realVec (upnpGenRow4) := by
  funext j
  fin_cases j <;> simp [upnpGenRow4, realVec]

theorem upnpM1GenInit_real (M : Matrix (Fin 10) (Fin 10) ℚ) (C : Fin 10 → ℚ) :
    upnpM1GenInit (realMat M) (realVec C) = realMat (upnpM1GenInit M C) := by
  unfold upnpM1GenInit
  rw [upnpGenRow0_real, upnpGenRow1_real, upnpGenRow2_real, upnpGenRow3_real, upnpGenRow4_real]
  ext i j
  fin_cases i <;> rfl

/-- The equations of `upnp4.cpp`, from an inverse of the leading block. -/
theorem upnpM1Sym_real {M : Matrix (Fin 10) (Fin 10) ℚ} {C : Fin 10 → ℚ}
    {B : Matrix (Fin 7) (Fin 7) ℚ}
    (hB : (upnpM1SymInit M C).submatrix (Fin.castLE (by norm_num)) (Fin.castLE (by norm_num)) * B =
      1)
    {F : Matrix (Fin 7) (Fin 24) ℚ}
    (hF : B * (upnpM1SymInit M C).submatrix (Fin.castLE (by norm_num)) id = F) :
    ∃ M1, upnpM1Sym (realMat M) (realVec C) = some M1 ∧
      (∀ i : Fin 7, ∀ j, M1 (i.castLE (by norm_num)) j =
        ((F i j - F i 10 * upnpSymRow7 j : ℚ) : ℝ)) ∧
      ∀ j, M1 7 j = ((upnpSymRow7 j : ℚ) : ℝ) := by
  have hblock : upnpBlockSym (realMat M) (realVec C) = realMat
      ((upnpM1SymInit M C).submatrix (Fin.castLE (by norm_num)) (Fin.castLE (by norm_num))) := by
    unfold upnpBlockSym
    rw [upnpM1SymInit_real]
    rfl
  have hone : upnpBlockSym (realMat M) (realVec C) * realMat B = 1 := by
    rw [hblock, ← realMat_mul, hB, realMat_one]
  have hdet : (upnpBlockSym (realMat M) (realVec C)).det ≠ 0 := by
    intro h0
    have := congrArg det hone
    rw [det_mul, h0, zero_mul, det_one] at this
    exact zero_ne_one this
  have hpart : upnpPartSym (realMat M) (realVec C) = realMat F := by
    unfold upnpPartSym
    rw [Matrix.inv_eq_right_inv hone, upnpM1SymInit_real, ← hF, realMat_mul]
    rfl
  refine ⟨_, if_neg hdet, ?_, ?_⟩
  · intro i j
    have hi : ((i.castLE (by norm_num : 7 ≤ 8) : Fin 8) : ℕ) < 7 := i.2
    have e1 : ∀ j, upnpM1SymInv (realMat M) (realVec C) (i.castLE (by norm_num)) j =
        (F i j : ℝ) := by
      intro j
      unfold upnpM1SymInv
      rw [dif_pos hi, hpart]
      rfl
    have e2 : ∀ j, upnpM1SymInv (realMat M) (realVec C) 7 j = ((upnpSymRow7 j : ℚ) : ℝ) := by
      intro j
      unfold upnpM1SymInv
      rw [dif_neg (by decide), upnpM1SymInit_real]
      rfl
    beta_reduce
    rw [if_pos hi, e1, e1, e2, e2, show (upnpSymRow7 10 : ℚ) = 1 from rfl]
    push_cast
    ring
  · intro j
    beta_reduce
    rw [if_neg (by decide)]
    unfold upnpM1SymInv
    rw [dif_neg (by decide), upnpM1SymInit_real]
    rfl

/-- The equations of `upnp2.cpp`, from an inverse of the leading block. -/
theorem upnpM1Gen_real {M : Matrix (Fin 10) (Fin 10) ℚ} {C : Fin 10 → ℚ}
    {B : Matrix (Fin 4) (Fin 4) ℚ}
    (hB : (upnpM1GenInit M C).submatrix (Fin.castLE (by norm_num)) (Fin.castLE (by norm_num)) * B =
      1)
    {F : Matrix (Fin 4) (Fin 29) ℚ}
    (hF : B * (upnpM1GenInit M C).submatrix (Fin.castLE (by norm_num)) id = F) :
    ∃ M1, upnpM1Gen (realMat M) (realVec C) = some M1 ∧
      (∀ i : Fin 4, ∀ j, M1 (i.castLE (by norm_num)) j = (F i j : ℝ)) ∧
      ∀ j, M1 4 j = ((upnpGenRow4 j : ℚ) : ℝ) := by
  have hblock : upnpBlockGen (realMat M) (realVec C) = realMat
      ((upnpM1GenInit M C).submatrix (Fin.castLE (by norm_num)) (Fin.castLE (by norm_num))) := by
    unfold upnpBlockGen
    rw [upnpM1GenInit_real]
    rfl
  have hone : upnpBlockGen (realMat M) (realVec C) * realMat B = 1 := by
    rw [hblock, ← realMat_mul, hB, realMat_one]
  have hdet : (upnpBlockGen (realMat M) (realVec C)).det ≠ 0 := by
    intro h0
    have := congrArg det hone
    rw [det_mul, h0, zero_mul, det_one] at this
    exact zero_ne_one this
  have hpart : upnpPartGen (realMat M) (realVec C) = realMat F := by
    unfold upnpPartGen
    rw [Matrix.inv_eq_right_inv hone, upnpM1GenInit_real, ← hF, realMat_mul]
    rfl
  refine ⟨_, if_neg hdet, ?_, ?_⟩
  · intro i j
    have hi : ((i.castLE (by norm_num : 4 ≤ 5) : Fin 5) : ℕ) < 4 := i.2
    beta_reduce
    rw [dif_pos hi, hpart]
    rfl
  · intro j
    beta_reduce
    rw [dif_neg (by decide), upnpM1GenInit_real]
    rfl

end OpenGV
