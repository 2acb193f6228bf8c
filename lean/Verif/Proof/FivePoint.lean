import Verif.Model.FivePoint
import Verif.Proof.NisterTable
import Verif.Proof.SteweniusTable
import Verif.Proof.SevenPoint
import Verif.Spec.Eigen
import Mathlib.Tactic.FieldSimp
import Mathlib.Tactic.LinearCombination

/-!
# Lemmas for the five-point solvers
-/

open Matrix OpenGV.Spec

namespace OpenGV

section rows

variable {K : Type*} [CommRing K]

/-- The left hand side of the trace constraint. -/
def traceMat (E : Matrix (Fin 3) (Fin 3) K) : Matrix (Fin 3) (Fin 3) K :=
  (2 : K) • (E * E.transpose * E) - (E * E.transpose).trace • E

theorem row_value (v : ℕ → K) (x y z : K) (s : ℤ) (B : List Term) (A : List (List Term))
    (ks : List (List (ℕ × ℕ × ℕ))) (mono : List K) (hlen : ks.length = 20) (hmlen : mono.length = 20)
    (hA : A.map normTerms = ks.map fun k => normTerms (expandTerms s k B))
    (hks : ks.flatten.Perm triples)
    (hmono : List.Forall₂ (fun (k : List (ℕ × ℕ × ℕ)) (w : K) =>
      ∀ p ∈ k, factors x y z p.1 * factors x y z p.2.1 * factors x y z p.2.2 = w) ks mono) :
    ∑ c : Fin 20, termsVal v (A.getD c []) * mono.getD c 0 =
      s * termsVal (comboVal v (factors x y z)) B := by
  rw [sum_columns v A ?_ mono hmlen, cubic_expansion v _ B s ks A hA hks mono hmono]
  have := congrArg List.length hA
  rwa [List.length_map, List.length_map, hlen] at this

/-- The order of the ten constraints in Nister's matrix. -/
def nisterConstraints (E : Matrix (Fin 3) (Fin 3) K) : Fin 10 → K :=
  ![E.det, traceMat E 0 0, traceMat E 1 0, traceMat E 2 0, traceMat E 0 1, traceMat E 1 1,
    traceMat E 2 1, traceMat E 0 2, traceMat E 1 2, traceMat E 2 2]

/-- The order of the ten constraints in Stewenius' matrix. -/
def steweniusConstraints (E : Matrix (Fin 3) (Fin 3) K) : Fin 10 → K :=
  ![traceMat E 0 0, traceMat E 1 0, traceMat E 2 0, traceMat E 0 1, traceMat E 1 1,
    traceMat E 2 1, traceMat E 0 2, traceMat E 1 2, traceMat E 2 2, 2 * E.det]

theorem nister_rows (v : ℕ → K) (x y z : K) (r : Fin 10) :
    ∑ c : Fin 20, termsVal v ((nisterTable.getD r []).getD c []) *
      [x ^ 3, y ^ 3, x ^ 2 * y, x * y ^ 2, x ^ 2 * z, x ^ 2, y ^ 2 * z, y ^ 2, x * y * z, x * y,
        x * z ^ 2, x * z, x, y * z ^ 2, y * z, y, z ^ 3, z ^ 2, z, 1].getD c 0 =
      nisterConstraints (ofRows fun i => comboVal v (factors x y z) i) r := by
  have key := fun s B A h => row_value v x y z s B A nisterKs _ rfl rfl h nisterKs_perm
    (nister_mono x y z)
  have hd := termsVal_det (comboVal v (factors x y z))
  have ht := termsVal_trace (comboVal v (factors x y z))
  fin_cases r
  · refine (key 1 _ _ nisterRow0_norm).trans ?_
    rw [hd, Int.cast_one, one_mul]; rfl
  · refine (key 1 _ _ nisterRow1_norm).trans ?_
    rw [Int.cast_one, one_mul]; exact ht 0 0
  · refine (key 1 _ _ nisterRow2_norm).trans ?_
    rw [Int.cast_one, one_mul]; exact ht 1 0
  · refine (key 1 _ _ nisterRow3_norm).trans ?_
    rw [Int.cast_one, one_mul]; exact ht 2 0
  · refine (key 1 _ _ nisterRow4_norm).trans ?_
    rw [Int.cast_one, one_mul]; exact ht 0 1
  · refine (key 1 _ _ nisterRow5_norm).trans ?_
    rw [Int.cast_one, one_mul]; exact ht 1 1
  · refine (key 1 _ _ nisterRow6_norm).trans ?_
    rw [Int.cast_one, one_mul]; exact ht 2 1
  · refine (key 1 _ _ nisterRow7_norm).trans ?_
    rw [Int.cast_one, one_mul]; exact ht 0 2
  · refine (key 1 _ _ nisterRow8_norm).trans ?_
    rw [Int.cast_one, one_mul]; exact ht 1 2
  · refine (key 1 _ _ nisterRow9_norm).trans ?_
    rw [Int.cast_one, one_mul]; exact ht 2 2

theorem stewenius_rows (v : ℕ → K) (x y z : K) (r : Fin 10) :
    ∑ c : Fin 20, termsVal v ((steweniusTable.getD r []).getD c []) *
      [x ^ 3, x ^ 2 * y, x * y ^ 2, y ^ 3, x ^ 2 * z, x * y * z, y ^ 2 * z, x * z ^ 2, y * z ^ 2,
        z ^ 3, x ^ 2, x * y, y ^ 2, x * z, y * z, z ^ 2, x, y, z, 1].getD c 0 =
      steweniusConstraints (ofRows fun i => comboVal v (factors x y z) i) r := by
  have key := fun s B A h => row_value v x y z s B A steweniusKs _ rfl rfl h steweniusKs_perm
    (stewenius_mono x y z)
  have hd := termsVal_det (comboVal v (factors x y z))
  have ht := termsVal_trace (comboVal v (factors x y z))
  fin_cases r
  · refine (key 1 _ _ steweniusRow0_norm).trans ?_
    rw [Int.cast_one, one_mul]; exact ht 0 0
  · refine (key 1 _ _ steweniusRow1_norm).trans ?_
    rw [Int.cast_one, one_mul]; exact ht 1 0
  · refine (key 1 _ _ steweniusRow2_norm).trans ?_
    rw [Int.cast_one, one_mul]; exact ht 2 0
  · refine (key 1 _ _ steweniusRow3_norm).trans ?_
    rw [Int.cast_one, one_mul]; exact ht 0 1
  · refine (key 1 _ _ steweniusRow4_norm).trans ?_
    rw [Int.cast_one, one_mul]; exact ht 1 1
  · refine (key 1 _ _ steweniusRow5_norm).trans ?_
    rw [Int.cast_one, one_mul]; exact ht 2 1
  · refine (key 1 _ _ steweniusRow6_norm).trans ?_
    rw [Int.cast_one, one_mul]; exact ht 0 2
  · refine (key 1 _ _ steweniusRow7_norm).trans ?_
    rw [Int.cast_one, one_mul]; exact ht 1 2
  · refine (key 1 _ _ steweniusRow8_norm).trans ?_
    rw [Int.cast_one, one_mul]; exact ht 2 2
  · refine (key 2 _ _ steweniusRow9_norm).trans ?_
    rw [hd, Int.cast_ofNat]; rfl

theorem constraints_iff (E : Matrix (Fin 3) (Fin 3) K) :
    EssentialConstraints E ↔ E.det = 0 ∧ ∀ a b, traceMat E a b = 0 := by
  constructor
  · rintro ⟨h1, h2⟩
    exact ⟨h1, fun a b => congrFun (congrFun h2 a) b⟩
  · rintro ⟨h1, h2⟩
    exact ⟨h1, by ext a b; exact h2 a b⟩

theorem nisterConstraints_iff (E : Matrix (Fin 3) (Fin 3) K) :
    nisterConstraints E = 0 ↔ EssentialConstraints E := by
  rw [constraints_iff, funext_iff]
  simp only [Fin.forall_fin_succ, nisterConstraints]
  simp
  tauto

theorem steweniusConstraints_iff {K : Type*} [Field K] [CharZero K]
    (E : Matrix (Fin 3) (Fin 3) K) :
    steweniusConstraints E = 0 ↔ EssentialConstraints E := by
  rw [constraints_iff, funext_iff]
  simp only [Fin.forall_fin_succ, steweniusConstraints]
  simp
  tauto

end rows

theorem comboVal_eVar (EE : Matrix (Fin 9) (Fin 4) ℝ) {K : Type*} [CommRing K] (f : ℝ →+* K)
    (x y z : K) (i : Fin 9) : comboVal (fun n => f (eVar EE n)) (factors x y z) i =
      x * f (EE i 0) + y * f (EE i 1) + z * f (EE i 2) + f (EE i 3) := by
  have h : ∀ k : Fin 4, eVar EE (10 * k + i) = EE i k := by
    intro k
    have hi := i.isLt
    have hk := k.isLt
    rw [eVar, dif_pos ⟨by omega, by omega⟩]
    congr 1
    · apply Fin.ext; simp only; omega
    · apply Fin.ext; simp only; omega
  have h0 := h 0
  have h1 := h 1
  have h2 := h 2
  have h3 := h 3
  simp only [Fin.val_zero, Fin.val_one, Fin.val_two, mul_zero, zero_add, mul_one,
    show ((3 : Fin 4) : ℕ) = 3 from rfl, show 10 * 2 = 20 from rfl, show 10 * 3 = 30 from rfl]
    at h0 h1 h2 h3
  simp only [comboVal, factors, h0, h1, h2, h3, one_mul]

theorem nisterA_mulVec (EE : Matrix (Fin 9) (Fin 4) ℝ) (x y z : ℝ) :
    nisterA EE *ᵥ nisterMonomials x y z = nisterConstraints (combo EE x y z) := by
  funext r
  have h := nister_rows (eVar EE) x y z r
  have hc : (ofRows fun i : Fin 9 => comboVal (eVar EE) (factors x y z) i) = combo EE x y z := by
    congr 1; funext i
    exact comboVal_eVar EE (RingHom.id ℝ) x y z i
  rw [hc] at h
  rw [← h, mulVec, dotProduct]
  apply Finset.sum_congr rfl
  intro c _
  congr 1
  fin_cases c <;> rfl

theorem termsVal_map {K L : Type*} [CommRing K] [CommRing L] (f : K →+* L) (v : ℕ → K)
    (l : List Term) : termsVal (fun n => f (v n)) l = f (termsVal v l) := by
  induction l with
  | nil => simp [termsVal]
  | cons t l ih => rw [termsVal_cons, termsVal_cons, ih, map_add]; simp [termVal]

theorem steweniusA_mulVec (EE : Matrix (Fin 9) (Fin 4) ℝ) (x y z : ℂ) :
    (2 : ℂ) • ((steweniusA EE).map (fun a => (a : ℂ)) *ᵥ steweniusMonomials x y z) =
      steweniusConstraints (combo (EE.map fun a => (a : ℂ)) x y z) := by
  funext r
  have h := stewenius_rows (fun n => (Complex.ofRealHom (eVar EE n))) x y z r
  have hc : (ofRows fun i : Fin 9 => comboVal (fun n => (Complex.ofRealHom (eVar EE n)))
      (factors x y z) i) = combo (EE.map fun a => (a : ℂ)) x y z := by
    congr 1; funext i
    exact comboVal_eVar EE Complex.ofRealHom x y z i
  rw [hc] at h
  rw [← h, Pi.smul_apply, mulVec, dotProduct, smul_eq_mul, Finset.mul_sum]
  apply Finset.sum_congr rfl
  intro c _
  rw [← mul_assoc]
  congr 1
  · rw [termsVal_map]
    simp only [steweniusA, map_apply, of_apply]
    push_cast
    simp only [Complex.ofRealHom_eq_coe]
    ring
  · fin_cases c <;> rfl

end OpenGV
