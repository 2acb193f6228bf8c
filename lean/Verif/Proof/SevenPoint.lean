import Verif.Spec.Eigen
import Verif.Proof.RelativePose
import Mathlib.LinearAlgebra.Matrix.Rank
import Mathlib.LinearAlgebra.Matrix.Charpoly.Coeff
import Mathlib.Analysis.Complex.Polynomial.Basic

namespace OpenGV

open Matrix Spec

/-! ### Existence of eigenvalues -/

theorem exists_eigenvalues {n : ℕ} (M : Matrix (Fin n) (Fin n) ℝ) : ∃ D, IsEigenvalues M D := by
  set N : Matrix (Fin n) (Fin n) ℂ := M.map (fun x => (x : ℂ)) with hN
  have hs := IsAlgClosed.splits N.charpoly
  have hm := N.charpoly_monic
  have hcard : N.charpoly.roots.card = n := by
    rw [← hs.natDegree_eq_card_roots, charpoly_natDegree_eq_dim, Fintype.card_fin]
  set l := N.charpoly.roots.toList with hl
  have hlen : l.length = n := by rw [hl, Multiset.length_toList, hcard]
  refine ⟨fun i => l[i.1]'(by rw [hlen]; exact i.2), fun z => ?_⟩
  have e1 : (z • (1 : Matrix (Fin n) (Fin n) ℂ) - N).det = N.charpoly.eval z := by
    rw [Matrix.eval_charpoly]
    congr 1
    ext i j
    simp [Matrix.scalar_apply, Matrix.one_apply, Matrix.diagonal_apply]
  rw [e1, hs.eval_eq_prod_roots_of_monic hm]
  have e2 : N.charpoly.roots = (l : Multiset ℂ) := by rw [hl, Multiset.coe_toList]
  rw [e2, Multiset.map_coe, Multiset.prod_coe, ← List.prod_ofFn]
  congr 1
  apply List.ext_getElem
  · simp [hlen]
  · intro i h1 h2
    simp

theorem exists_eigenvalues_fun (n : ℕ) :
    ∃ eig : Matrix (Fin n) (Fin n) ℝ → Fin n → ℂ, ∀ M, IsEigenvalues M (eig M) :=
  ⟨fun M => (exists_eigenvalues M).choose, fun M => (exists_eigenvalues M).choose_spec⟩

/-! ### The kernel of a wide matrix -/

theorem svd_image_sq {m : Type} [Fintype m] {n : ℕ} {A : Matrix m (Fin n) ℝ}
    {V : Matrix (Fin n) (Fin n) ℝ} {σ : Fin n → ℝ} (h : IsRightSvd A V σ) (j : Fin n) :
    (A *ᵥ fun i => V i j) ⬝ᵥ (A *ᵥ fun i => V i j) = σ j ^ 2 := by
  have e3 : (V.transpose * (A.transpose * A) * V) j j = σ j ^ 2 := by
    rw [h.gram, diagonal_apply_eq]
  rw [← e3, dotProduct_mulVec, ← mulVec_transpose, mulVec_mulVec, dotProduct_comm,
    Matrix.mul_assoc]
  simp only [Matrix.mul_apply, dotProduct, mulVec, transpose_apply]

theorem svd_sigma_wide {m n : ℕ} {A : Matrix (Fin m) (Fin n) ℝ}
    {V : Matrix (Fin n) (Fin n) ℝ} {σ : Fin n → ℝ} (h : IsRightSvd A V σ) (j : Fin n)
    (hj : m ≤ j.1) : σ j = 0 := by
  by_contra hne
  have hpos : 0 < σ j := lt_of_le_of_ne (h.nonneg j) (Ne.symm hne)
  have r1 : (diagonal (fun i => σ i ^ 2)).rank ≤ m := by
    rw [← h.gram]
    calc _ ≤ (V.transpose * (A.transpose * A)).rank := rank_mul_le_left _ _
      _ ≤ (A.transpose * A).rank := rank_mul_le_right _ _
      _ ≤ A.rank := rank_mul_le_right _ _
      _ ≤ m := by simpa using A.rank_le_card_height
  rw [rank_diagonal] at r1
  have r2 : j.1 + 1 ≤ Fintype.card {i // σ i ^ 2 ≠ 0} := by
    rw [← Fintype.card_fin (j.1 + 1)]
    refine Fintype.card_le_of_injective (fun i => ⟨⟨i.1, by omega⟩, ?_⟩) ?_
    · have := h.anti ⟨i.1, by omega⟩ j (by rw [Fin.le_def]; simp; omega)
      exact (pow_pos (lt_of_lt_of_le hpos this) 2).ne'
    · intro a b hab
      simp only [Subtype.mk.injEq, Fin.mk.injEq] at hab
      exact Fin.ext hab
  omega

theorem svd_kernel_wide {m n : ℕ} {A : Matrix (Fin m) (Fin n) ℝ}
    {V : Matrix (Fin n) (Fin n) ℝ} {σ : Fin n → ℝ} (h : IsRightSvd A V σ) (j : Fin n)
    (hj : m ≤ j.1) : A *ᵥ (fun i => V i j) = 0 := by
  apply dotProduct_self_eq_zero.1
  rw [svd_image_sq h, svd_sigma_wide h j hj]
  norm_num

/-! ### The pencil -/

theorem pencil_det {F1 F2 : Mat3} (h2 : F2.det ≠ 0) (x : ℝ) :
    (F1 - x • F2).det = -F2.det * (x • (1 : Mat3) - ((F2.det)⁻¹ • F2.adjugate) * F1).det := by
  have e : F1 - x • F2 = -(F2 * (x • (1 : Mat3) - ((F2.det)⁻¹ • F2.adjugate) * F1)) := by
    rw [Matrix.mul_sub, ← Matrix.mul_assoc, Matrix.mul_smul, Matrix.mul_smul, mul_adjugate,
      smul_smul, inv_mul_cancel₀ h2, one_smul, Matrix.one_mul, Matrix.mul_one]
    abel
  rw [e, det_neg, det_mul]
  norm_num

theorem pencil_det_complex {F1 F2 : Mat3} (h2 : F2.det ≠ 0) (z : ℂ) :
    (F1.map (fun x => (x : ℂ)) - z • F2.map (fun x => (x : ℂ))).det =
      -(F2.det : ℂ) * (z • (1 : Matrix (Fin 3) (Fin 3) ℂ) -
        (((F2.det)⁻¹ • F2.adjugate) * F1).map (fun x => (x : ℂ))).det := by
  have e0 : F2 * (((F2.det)⁻¹ • F2.adjugate) * F1) = F1 := by
    rw [← Matrix.mul_assoc, Matrix.mul_smul, mul_adjugate,
      smul_smul, inv_mul_cancel₀ h2, one_smul, Matrix.one_mul]
  have e1 : F2.map (fun x => (x : ℂ)) *
      (((F2.det)⁻¹ • F2.adjugate) * F1).map (fun x => (x : ℂ)) = F1.map (fun x => (x : ℂ)) := by
    conv_rhs => rw [← e0]
    exact (Matrix.map_mul (f := Complex.ofRealHom)).symm
  have e2 : (F2.map (fun x => (x : ℂ))).det = (F2.det : ℂ) := by
    rw [det_fin_three, det_fin_three]; simp
  generalize (((F2.det)⁻¹ • F2.adjugate) * F1).map (fun x => (x : ℂ)) = M at *
  have e : F1.map (fun x => (x : ℂ)) - z • F2.map (fun x => (x : ℂ)) =
      -(F2.map (fun x => (x : ℂ)) * (z • (1 : Matrix (Fin 3) (Fin 3) ℂ) - M)) := by
    rw [Matrix.mul_sub, e1, Matrix.mul_smul, Matrix.mul_one]
    abel
  rw [e, det_neg, det_mul, e2]
  norm_num

theorem eigen_real {M : Mat3} {D : Fin 3 → ℂ} (h : IsEigenvalues M D) (x : ℝ) :
    (x • (1 : Mat3) - M).det = 0 ↔ ∃ i, D i = x := by
  have e := h x
  have e2 : ((x : ℂ) • (1 : Matrix (Fin 3) (Fin 3) ℂ) - M.map (fun x => (x : ℂ))).det =
      (((x • (1 : Mat3) - M).det : ℝ) : ℂ) := by
    rw [det_fin_three, det_fin_three]
    simp
  rw [e2] at e
  constructor
  · intro h0
    rw [h0, Complex.ofReal_zero, eq_comm, Finset.prod_eq_zero_iff] at e
    obtain ⟨i, _, hi⟩ := e
    exact ⟨i, (sub_eq_zero.1 hi).symm⟩
  · rintro ⟨i, hi⟩
    have : ∏ i, ((x : ℂ) - D i) = 0 :=
      Finset.prod_eq_zero (Finset.mem_univ i) (by rw [hi, sub_self])
    rw [this] at e
    exact_mod_cast e

theorem eigen_conj {M : Mat3} {D : Fin 3 → ℂ} (h : IsEigenvalues M D) (j : Fin 3) :
    ∃ k, D k = starRingEnd ℂ (D j) := by
  have e1 := h (D j)
  have e2 := h (starRingEnd ℂ (D j))
  rw [Finset.prod_eq_zero (Finset.mem_univ j) (sub_self _)] at e1
  have e3 : (starRingEnd ℂ (D j) • (1 : Matrix (Fin 3) (Fin 3) ℂ) - M.map (fun x => (x : ℂ))).det =
      starRingEnd ℂ ((D j • (1 : Matrix (Fin 3) (Fin 3) ℂ) - M.map (fun x => (x : ℂ))).det) := by
    rw [det_fin_three, det_fin_three]
    simp
  rw [e3, e1, map_zero, eq_comm, Finset.prod_eq_zero_iff] at e2
  obtain ⟨k, _, hk⟩ := e2
  exact ⟨k, (sub_eq_zero.1 hk).symm⟩

/-- With a non-real eigenvalue, exactly one index has a real eigenvalue. -/
theorem eigen_unique_real {M : Mat3} {D : Fin 3 → ℂ} (h : IsEigenvalues M D) {j a b : Fin 3}
    (hj : (D j).im ≠ 0) (ha : (D a).im = 0) (hb : (D b).im = 0) : a = b := by
  obtain ⟨k, hk⟩ := eigen_conj h j
  have hki : (D k).im = -(D j).im := by rw [hk]; simp
  have kj : k ≠ j := by
    rintro rfl
    apply hj; linarith
  have aj : a ≠ j := by rintro rfl; exact hj ha
  have bj : b ≠ j := by rintro rfl; exact hj hb
  have ak : a ≠ k := by
    rintro rfl; apply hj; linarith
  have bk : b ≠ k := by
    rintro rfl; apply hj; linarith
  omega

/-- The index of the smallest imaginary part. -/
theorem sevenpt_minIndex (v : Fin 3 → ℝ) :
    let mi : ℝ × Fin 3 := if v 1 < v 0 then (v 1, 1) else (v 0, 0)
    ∀ l, v (if v 2 < mi.1 then 2 else mi.2) ≤ v l := by
  intro mi l
  have h : v (if v 2 < mi.1 then 2 else mi.2) ≤ v 0 ∧
      v (if v 2 < mi.1 then 2 else mi.2) ≤ v 1 ∧ v (if v 2 < mi.1 then 2 else mi.2) ≤ v 2 := by
    simp only [mi]
    split_ifs <;> simp_all <;> first | linarith | (constructor <;> linarith)
  fin_cases l
  · exact h.1
  · exact h.2.1
  · exact h.2.2

/-- A real cubic has a real root. -/
theorem eigen_exists_real {M : Mat3} {D : Fin 3 → ℂ} (h : IsEigenvalues M D) :
    ∃ i, (D i).im = 0 := by
  by_contra hcon
  simp only [not_exists] at hcon
  obtain ⟨k0, h0⟩ := eigen_conj h 0
  have tr : D 0 + D 1 + D 2 = (M.trace : ℂ) := by
    have e0 := h 0
    have e1 := h 1
    have e2 := h (-1)
    have e3 := h 2
    rw [det_fin_three, Fin.prod_univ_three] at e0 e1 e2 e3
    simp at e0 e1 e2 e3
    rw [trace_fin_three]
    push_cast
    linear_combination (1 / 2) * e1 + (1 / 2) * e2 - e0
  have im0 := congrArg Complex.im tr
  simp at im0
  have hk : (D k0).im = -(D 0).im := by rw [h0]; simp
  have hk0 : k0 ≠ 0 := by
    rintro rfl; apply hcon 0; linarith
  have h12 : k0 = 1 ∨ k0 = 2 := by omega
  rcases h12 with rfl | rfl
  · apply hcon 2; linarith
  · apply hcon 1; linarith

end OpenGV
