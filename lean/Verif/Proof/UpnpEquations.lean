import Verif.Proof.UpnpCodes
import Verif.Model.Upnp
import Mathlib.Analysis.Calculus.Deriv.Pow
import Mathlib.Analysis.Calculus.Deriv.Add
import Mathlib.Analysis.Calculus.Deriv.Mul

/-!
# The equations of UPnP
-/

namespace OpenGV

set_option linter.unusedSimpArgs false

open Matrix

/-! ## The gradient -/

/-- The derivative of `upnpFillS` in direction `i`. -/
def upnpFillD (q : Quat) : Fin 4 → Fin 10 → ℝ :=
  ![![2 * q 0, 0, 0, 0, q 1, q 2, q 3, 0, 0, 0], ![0, 2 * q 1, 0, 0, q 0, 0, 0, q 2, q 3, 0],
    ![0, 0, 2 * q 2, 0, 0, q 0, 0, q 1, 0, q 3], ![0, 0, 0, 2 * q 3, 0, 0, q 0, 0, q 1, q 2]]

/-- The gradient of the energy for a symmetric matrix. -/
def upnpEnergyD (M : Matrix (Fin 10) (Fin 10) ℝ) (C : Fin 10 → ℝ) (q : Quat) (i : Fin 4) : ℝ :=
  2 * (upnpFillD q i ⬝ᵥ (M *ᵥ upnpFillS q)) + 2 * (C ⬝ᵥ upnpFillD q i)

theorem fillS_line (q : Quat) (i : Fin 4) (s : ℝ) :
    upnpFillS (q + s • Pi.single i 1) =
      upnpFillS q + s • upnpFillD q i + s ^ 2 • Pi.single (i.castLE (by norm_num)) 1 := by
  funext k
  fin_cases i <;> fin_cases k <;> simp [upnpFillS, upnpFillD] <;> ring

theorem energy_line (M : Matrix (Fin 10) (Fin 10) ℝ) (hM : Mᵀ = M) (C : Fin 10 → ℝ) (gamma : ℝ)
    (q : Quat) (i : Fin 4) : ∃ a b c : ℝ, ∀ s : ℝ, upnpEnergy M C gamma (q + s • Pi.single i 1) =
      upnpEnergy M C gamma q + s * upnpEnergyD M C q i + a * s ^ 2 + b * s ^ 3 + c * s ^ 4 := by
  set S := upnpFillS q
  set D := upnpFillD q i
  set E : Fin 10 → ℝ := Pi.single (i.castLE (by norm_num)) 1
  have hsym : ∀ u v : Fin 10 → ℝ, u ⬝ᵥ (M *ᵥ v) = v ⬝ᵥ (M *ᵥ u) := by
    intro u v
    rw [dotProduct_mulVec, ← mulVec_transpose, hM, dotProduct_comm]
  refine ⟨D ⬝ᵥ (M *ᵥ D) + 2 * (E ⬝ᵥ (M *ᵥ S)) + 2 * (C ⬝ᵥ E), 2 * (E ⬝ᵥ (M *ᵥ D)),
    E ⬝ᵥ (M *ᵥ E), fun s => ?_⟩
  unfold upnpEnergy upnpEnergyD
  rw [fillS_line]
  simp only [mulVec_add, mulVec_smul, add_dotProduct, dotProduct_add, smul_dotProduct,
    dotProduct_smul, smul_eq_mul]
  change S ⬝ᵥ (M *ᵥ S) + s * (D ⬝ᵥ (M *ᵥ S)) + s ^ 2 * (E ⬝ᵥ (M *ᵥ S)) +
    s * (S ⬝ᵥ (M *ᵥ D) + s * (D ⬝ᵥ (M *ᵥ D)) + s ^ 2 * (E ⬝ᵥ (M *ᵥ D))) +
    s ^ 2 * (S ⬝ᵥ (M *ᵥ E) + s * (D ⬝ᵥ (M *ᵥ E)) + s ^ 2 * (E ⬝ᵥ (M *ᵥ E))) +
    2 * (C ⬝ᵥ S + s * (C ⬝ᵥ D) + s ^ 2 * (C ⬝ᵥ E)) + gamma = _
  rw [hsym S D, hsym S E, hsym D E]
  ring

theorem energy_hasDerivAt (M : Matrix (Fin 10) (Fin 10) ℝ) (hM : Mᵀ = M) (C : Fin 10 → ℝ)
    (gamma : ℝ) (q : Quat) (i : Fin 4) :
    HasDerivAt (fun s : ℝ => upnpEnergy M C gamma (q + s • Pi.single i 1))
      (upnpEnergyD M C q i) 0 := by
  obtain ⟨a, b, c, h⟩ := energy_line M hM C gamma q i
  rw [show (fun s : ℝ => upnpEnergy M C gamma (q + s • Pi.single i 1)) = _ from funext h]
  have h1 := (((((hasDerivAt_const (0 : ℝ) (upnpEnergy M C gamma q)).add
    ((hasDerivAt_id (0 : ℝ)).mul_const (upnpEnergyD M C q i))).add
    ((hasDerivAt_pow 2 (0 : ℝ)).const_mul a)).add ((hasDerivAt_pow 3 (0 : ℝ)).const_mul b)).add
    ((hasDerivAt_pow 4 (0 : ℝ)).const_mul c))
  exact h1.congr_deriv (by norm_num)

/-! ## The equations -/

/-- The monomials of the columns of `M1` in `upnp4.cpp`. -/
def upnpValSym (q : Quat) : Fin 24 → ℝ :=
  ![q 0 * q 0 * q 0, q 0 * q 0 * q 1, q 0 * q 1 * q 1, q 1 * q 1 * q 1, q 0 * q 0 * q 2,
  q 0 * q 1 * q 2, q 1 * q 1 * q 2, q 0 * q 2 * q 2, q 1 * q 2 * q 2, q 2 * q 2 * q 2,
  q 0 * q 0 * q 3, q 0 * q 1 * q 3, q 1 * q 1 * q 3, q 0 * q 2 * q 3, q 1 * q 2 * q 3,
  q 2 * q 2 * q 3, q 0 * q 3 * q 3, q 1 * q 3 * q 3, q 2 * q 3 * q 3, q 3 * q 3 * q 3, q 0, q 1,
  q 2, q 3]

/-- The monomials of the columns of `M1` in `upnp2.cpp`. -/
def upnpValGen (q : Quat) : Fin 29 → ℝ :=
  ![q 0 * q 0 * q 0, q 0 * q 0 * q 1, q 0 * q 1 * q 1, q 1 * q 1 * q 1, q 0 * q 0 * q 2,
  q 0 * q 1 * q 2, q 1 * q 1 * q 2, q 0 * q 2 * q 2, q 1 * q 2 * q 2, q 2 * q 2 * q 2,
  q 0 * q 0 * q 3, q 0 * q 1 * q 3, q 1 * q 1 * q 3, q 0 * q 2 * q 3, q 1 * q 2 * q 3,
  q 2 * q 2 * q 3, q 0 * q 3 * q 3, q 1 * q 3 * q 3, q 2 * q 3 * q 3, q 3 * q 3 * q 3, q 0 * q 0,
  q 1 * q 1, q 2 * q 2, q 3 * q 3, q 0, q 1, q 2, q 3, 1]

theorem upnpValSym_eq (q : Quat) (j : Fin 24) :
    mono4 q (codeAt upnpEqsSym j) = upnpValSym q j := by
  fin_cases j <;> simp [-mul_eq_mul_left_iff, -mul_eq_mul_right_iff, mono4, codeAt, upnpEqsSym,
    upnpValSym] <;> ring

theorem upnpValGen_eq (q : Quat) (j : Fin 29) :
    mono4 q (codeAt upnpEqsGen j) = upnpValGen q j := by
  fin_cases j <;> simp [-mul_eq_mul_left_iff, -mul_eq_mul_right_iff, mono4, codeAt, upnpEqsGen,
    upnpValGen] <;> ring

theorem upnpSymRow_D (M : Matrix (Fin 10) (Fin 10) ℝ) (hM : Mᵀ = M) (C : Fin 10 → ℝ) (q : Quat)
    (i : Fin 4) : upnpM1SymInit M C (i.castLE (by norm_num)) ⬝ᵥ upnpValSym q =
      upnpEnergyD M C q i := by
  have hs : ∀ i j, M i j = M j i := fun i j => by rw [← hM, transpose_apply, hM]
  fin_cases i
  · simp [upnpM1SymInit, upnpSymRow0, upnpValSym, upnpEnergyD, upnpFillD, upnpFillS, mulVec,
      dotProduct, Fin.sum_univ_succ]
    simp only [hs 1 0, hs 2 0, hs 2 1, hs 3 0, hs 3 1, hs 3 2, hs 4 0, hs 4 1, hs 4 2, hs 4 3, hs 5 0,
      hs 5 1, hs 5 2, hs 5 3, hs 5 4, hs 6 0, hs 6 1, hs 6 2, hs 6 3, hs 6 4, hs 6 5, hs 7 0,
      hs 7 1, hs 7 2, hs 7 3, hs 7 4, hs 7 5, hs 7 6, hs 8 0, hs 8 1, hs 8 2, hs 8 3, hs 8 4,
      hs 8 5, hs 8 6, hs 8 7, hs 9 0, hs 9 1, hs 9 2, hs 9 3, hs 9 4, hs 9 5, hs 9 6, hs 9 7,
      hs 9 8]
    ring
  · simp [upnpM1SymInit, upnpSymRow1, upnpValSym, upnpEnergyD, upnpFillD, upnpFillS, mulVec,
      dotProduct, Fin.sum_univ_succ]
    simp only [hs 1 0, hs 2 0, hs 2 1, hs 3 0, hs 3 1, hs 3 2, hs 4 0, hs 4 1, hs 4 2, hs 4 3, hs 5 0,
      hs 5 1, hs 5 2, hs 5 3, hs 5 4, hs 6 0, hs 6 1, hs 6 2, hs 6 3, hs 6 4, hs 6 5, hs 7 0,
      hs 7 1, hs 7 2, hs 7 3, hs 7 4, hs 7 5, hs 7 6, hs 8 0, hs 8 1, hs 8 2, hs 8 3, hs 8 4,
      hs 8 5, hs 8 6, hs 8 7, hs 9 0, hs 9 1, hs 9 2, hs 9 3, hs 9 4, hs 9 5, hs 9 6, hs 9 7,
      hs 9 8]
    ring
  · simp [upnpM1SymInit, upnpSymRow2, upnpValSym, upnpEnergyD, upnpFillD, upnpFillS, mulVec,
      dotProduct, Fin.sum_univ_succ]
    simp only [hs 1 0, hs 2 0, hs 2 1, hs 3 0, hs 3 1, hs 3 2, hs 4 0, hs 4 1, hs 4 2, hs 4 3, hs 5 0,
      hs 5 1, hs 5 2, hs 5 3, hs 5 4, hs 6 0, hs 6 1, hs 6 2, hs 6 3, hs 6 4, hs 6 5, hs 7 0,
      hs 7 1, hs 7 2, hs 7 3, hs 7 4, hs 7 5, hs 7 6, hs 8 0, hs 8 1, hs 8 2, hs 8 3, hs 8 4,
      hs 8 5, hs 8 6, hs 8 7, hs 9 0, hs 9 1, hs 9 2, hs 9 3, hs 9 4, hs 9 5, hs 9 6, hs 9 7,
      hs 9 8]
    ring
  · simp [upnpM1SymInit, upnpSymRow3, upnpValSym, upnpEnergyD, upnpFillD, upnpFillS, mulVec,
      dotProduct, Fin.sum_univ_succ]
    simp only [hs 1 0, hs 2 0, hs 2 1, hs 3 0, hs 3 1, hs 3 2, hs 4 0, hs 4 1, hs 4 2, hs 4 3, hs 5 0,
      hs 5 1, hs 5 2, hs 5 3, hs 5 4, hs 6 0, hs 6 1, hs 6 2, hs 6 3, hs 6 4, hs 6 5, hs 7 0,
      hs 7 1, hs 7 2, hs 7 3, hs 7 4, hs 7 5, hs 7 6, hs 8 0, hs 8 1, hs 8 2, hs 8 3, hs 8 4,
      hs 8 5, hs 8 6, hs 8 7, hs 9 0, hs 9 1, hs 9 2, hs 9 3, hs 9 4, hs 9 5, hs 9 6, hs 9 7,
      hs 9 8]
    ring

theorem upnpGenRow_D (M : Matrix (Fin 10) (Fin 10) ℝ) (hM : Mᵀ = M) (C : Fin 10 → ℝ) (q : Quat)
    (i : Fin 4) : upnpM1GenInit M C (i.castLE (by norm_num)) ⬝ᵥ upnpValGen q =
      upnpEnergyD M C q i := by
  have hs : ∀ i j, M i j = M j i := fun i j => by rw [← hM, transpose_apply, hM]
  fin_cases i
  · simp [upnpM1GenInit, upnpGenRow0, upnpValGen, upnpEnergyD, upnpFillD, upnpFillS, mulVec,
      dotProduct, Fin.sum_univ_succ]
    simp only [hs 1 0, hs 2 0, hs 2 1, hs 3 0, hs 3 1, hs 3 2, hs 4 0, hs 4 1, hs 4 2, hs 4 3, hs 5 0,
      hs 5 1, hs 5 2, hs 5 3, hs 5 4, hs 6 0, hs 6 1, hs 6 2, hs 6 3, hs 6 4, hs 6 5, hs 7 0,
      hs 7 1, hs 7 2, hs 7 3, hs 7 4, hs 7 5, hs 7 6, hs 8 0, hs 8 1, hs 8 2, hs 8 3, hs 8 4,
      hs 8 5, hs 8 6, hs 8 7, hs 9 0, hs 9 1, hs 9 2, hs 9 3, hs 9 4, hs 9 5, hs 9 6, hs 9 7,
      hs 9 8]
    ring
  · simp [upnpM1GenInit, upnpGenRow1, upnpValGen, upnpEnergyD, upnpFillD, upnpFillS, mulVec,
      dotProduct, Fin.sum_univ_succ]
    simp only [hs 1 0, hs 2 0, hs 2 1, hs 3 0, hs 3 1, hs 3 2, hs 4 0, hs 4 1, hs 4 2, hs 4 3, hs 5 0,
      hs 5 1, hs 5 2, hs 5 3, hs 5 4, hs 6 0, hs 6 1, hs 6 2, hs 6 3, hs 6 4, hs 6 5, hs 7 0,
      hs 7 1, hs 7 2, hs 7 3, hs 7 4, hs 7 5, hs 7 6, hs 8 0, hs 8 1, hs 8 2, hs 8 3, hs 8 4,
      hs 8 5, hs 8 6, hs 8 7, hs 9 0, hs 9 1, hs 9 2, hs 9 3, hs 9 4, hs 9 5, hs 9 6, hs 9 7,
      hs 9 8]
    ring
  · simp [upnpM1GenInit, upnpGenRow2, upnpValGen, upnpEnergyD, upnpFillD, upnpFillS, mulVec,
      dotProduct, Fin.sum_univ_succ]
    simp only [hs 1 0, hs 2 0, hs 2 1, hs 3 0, hs 3 1, hs 3 2, hs 4 0, hs 4 1, hs 4 2, hs 4 3, hs 5 0,
      hs 5 1, hs 5 2, hs 5 3, hs 5 4, hs 6 0, hs 6 1, hs 6 2, hs 6 3, hs 6 4, hs 6 5, hs 7 0,
      hs 7 1, hs 7 2, hs 7 3, hs 7 4, hs 7 5, hs 7 6, hs 8 0, hs 8 1, hs 8 2, hs 8 3, hs 8 4,
      hs 8 5, hs 8 6, hs 8 7, hs 9 0, hs 9 1, hs 9 2, hs 9 3, hs 9 4, hs 9 5, hs 9 6, hs 9 7,
      hs 9 8]
    ring
  · simp [upnpM1GenInit, upnpGenRow3, upnpValGen, upnpEnergyD, upnpFillD, upnpFillS, mulVec,
      dotProduct, Fin.sum_univ_succ]
    simp only [hs 1 0, hs 2 0, hs 2 1, hs 3 0, hs 3 1, hs 3 2, hs 4 0, hs 4 1, hs 4 2, hs 4 3, hs 5 0,
      hs 5 1, hs 5 2, hs 5 3, hs 5 4, hs 6 0, hs 6 1, hs 6 2, hs 6 3, hs 6 4, hs 6 5, hs 7 0,
      hs 7 1, hs 7 2, hs 7 3, hs 7 4, hs 7 5, hs 7 6, hs 8 0, hs 8 1, hs 8 2, hs 8 3, hs 8 4,
      hs 8 5, hs 8 6, hs 8 7, hs 9 0, hs 9 1, hs 9 2, hs 9 3, hs 9 4, hs 9 5, hs 9 6, hs 9 7,
      hs 9 8]
    ring

end OpenGV
