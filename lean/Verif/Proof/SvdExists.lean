import Verif.Spec.Svd
import Mathlib.Analysis.Matrix.Spectrum
import Mathlib.LinearAlgebra.Matrix.PosDef
import Mathlib.Data.Fin.Tuple.Sort

/-!
The contracts of Eigen's decompositions can be met: every real matrix has a singular value
decomposition.
-/

namespace OpenGV

open Matrix

/-- Orthogonal diagonalisation of a symmetric matrix with decreasing eigenvalues. -/
theorem exists_sorted_diag {n : ℕ} (S : Matrix (Fin n) (Fin n) ℝ) (hS : S.transpose = S) :
    ∃ (V : Matrix (Fin n) (Fin n) ℝ) (l : Fin n → ℝ), V.transpose * V = 1 ∧
      V.transpose * S * V = Matrix.diagonal l ∧ ∀ i j, i ≤ j → l j ≤ l i := by
  have hH : S.IsHermitian := by
    rw [Matrix.IsHermitian, conjTranspose_eq_transpose_of_trivial]; exact hS
  set U : Matrix (Fin n) (Fin n) ℝ := (hH.eigenvectorUnitary : Matrix (Fin n) (Fin n) ℝ) with hU
  have hstar : star U = U.transpose := by
    rw [star_eq_conjTranspose, conjTranspose_eq_transpose_of_trivial]
  have h1 : U.transpose * U = 1 := by
    rw [← hstar]; exact Unitary.coe_star_mul_self hH.eigenvectorUnitary
  have h2 : U.transpose * S * U = Matrix.diagonal hH.eigenvalues := by
    have := hH.conjStarAlgAut_star_eigenvectorUnitary
    rw [Unitary.conjStarAlgAut_star_apply] at this
    rw [← hstar]
    simpa [hU] using this
  set p := Tuple.sort (fun i => -hH.eigenvalues i) with hp
  have hmono := Tuple.monotone_sort (fun i => -hH.eigenvalues i)
  refine ⟨U.submatrix id p, hH.eigenvalues ∘ p, ?_, ?_, ?_⟩
  · have : (U.submatrix id p).transpose * U.submatrix id p = (U.transpose * U).submatrix p p := by
      ext i j; simp [Matrix.mul_apply]
    rw [this, h1]
    ext i j
    simp [Matrix.one_apply]
  · have : (U.submatrix id p).transpose * S * U.submatrix id p =
        (U.transpose * S * U).submatrix p p := by
      ext i j; simp [Matrix.mul_apply]
    rw [this, h2]
    ext i j
    simp [Matrix.diagonal_apply]
  · intro i j hij
    have := hmono hij
    simp only [Function.comp_apply] at this ⊢
    linarith

/-- Every matrix has right singular vectors as in the contract. -/
theorem exists_rightSvd {m : Type} [Fintype m] {n : ℕ} (A : Matrix m (Fin n) ℝ) :
    ∃ V σ, Spec.IsRightSvd A V σ := by
  obtain ⟨V, l, h1, h2, h3⟩ := exists_sorted_diag (A.transpose * A) (by simp [transpose_mul])
  have hnn : ∀ i, 0 ≤ l i := by
    intro i
    have e : l i = ((A * V).transpose * (A * V)) i i := by
      have : (A * V).transpose * (A * V) = Matrix.diagonal l := by
        rw [← h2, transpose_mul]; simp only [Matrix.mul_assoc]
      rw [this]; simp
    rw [e, Matrix.mul_apply]
    exact Finset.sum_nonneg fun k _ => mul_self_nonneg _
  refine ⟨V, fun i => Real.sqrt (l i), h1, ?_, fun i => Real.sqrt_nonneg _,
    fun i j hij => Real.sqrt_le_sqrt (h3 i j hij)⟩
  rw [h2]
  congr 1
  funext i
  rw [Real.sq_sqrt (hnn i)]

/-- Every square matrix has a singular value decomposition, with the given right factor. -/
theorem exists_svd_of_right {n : ℕ} {A V : Matrix (Fin n) (Fin n) ℝ} {σ : Fin n → ℝ}
    (h : Spec.IsRightSvd A V σ) : ∃ U, Spec.IsSvd A U V σ := by
  have hVV : V * V.transpose = 1 := mul_eq_one_comm.1 h.orth
  have hg : ∀ i j, ∑ k, (A * V) k i * (A * V) k j = if i = j then σ i ^ 2 else 0 := by
    intro i j
    have : (A * V).transpose * (A * V) = Matrix.diagonal (fun i => σ i ^ 2) := by
      rw [← h.gram, transpose_mul]; simp only [Matrix.mul_assoc]
    have := congrFun (congrFun this i) j
    rw [Matrix.mul_apply, Matrix.diagonal_apply] at this
    simpa using this
  let v : Fin n → EuclideanSpace ℝ (Fin n) := fun i =>
    WithLp.toLp 2 (fun k => (σ i)⁻¹ * (A * V) k i)
  let s : Set (Fin n) := {i | σ i ≠ 0}
  have hv : Orthonormal ℝ (s.domRestrict v) := by
    rw [orthonormal_iff_ite]
    rintro ⟨i, hi⟩ ⟨j, hj⟩
    have hi' : σ i ≠ 0 := hi
    simp only [Set.domRestrict_apply, v, PiLp.inner_apply, RCLike.inner_apply, conj_trivial]
    have e : ∑ k, (σ j)⁻¹ * (A * V) k j * ((σ i)⁻¹ * (A * V) k i) =
        (σ j)⁻¹ * (σ i)⁻¹ * ∑ k, (A * V) k i * (A * V) k j := by
      rw [Finset.mul_sum]
      exact Finset.sum_congr rfl fun k _ => by ring
    rw [e, hg i j]
    by_cases hij : i = j
    · subst hij
      simp only [if_true]
      field_simp
    · simp [hij]
  obtain ⟨b, hb⟩ := hv.exists_orthonormalBasis_extension_of_card_eq (by simp)
  let U : Matrix (Fin n) (Fin n) ℝ := Matrix.of fun k i => b i k
  refine ⟨U, ?_, h.orth, ?_, h.nonneg, h.anti⟩
  · ext i j
    rw [Matrix.mul_apply]
    have := orthonormal_iff_ite.1 b.orthonormal i j
    rw [PiLp.inner_apply] at this
    simp only [RCLike.inner_apply, conj_trivial] at this
    rw [Matrix.one_apply, ← this]
    exact Finset.sum_congr rfl fun k _ => by simp [U, mul_comm]
  · have hAV : A * V = U * Matrix.diagonal σ := by
      ext k i
      rw [Matrix.mul_diagonal]
      by_cases hi : σ i = 0
      · have h0 := hg i i
        simp only [if_true, hi, zero_pow two_ne_zero] at h0
        rw [Finset.sum_eq_zero_iff_of_nonneg (fun k _ => mul_self_nonneg _)] at h0
        rw [hi, mul_zero]
        exact mul_self_eq_zero.1 (h0 k (Finset.mem_univ _))
      · have : U k i = (σ i)⁻¹ * (A * V) k i := by
          show b i k = _
          rw [hb i hi]
        rw [this]
        field_simp
    rw [← hAV, Matrix.mul_assoc, hVV, Matrix.mul_one]

theorem exists_svd {n : ℕ} (A : Matrix (Fin n) (Fin n) ℝ) : ∃ U V σ, Spec.IsSvd A U V σ := by
  obtain ⟨V, σ, h⟩ := exists_rightSvd A
  obtain ⟨U, hU⟩ := exists_svd_of_right h
  exact ⟨U, V, σ, hU⟩

/-- A decomposition function meeting the contract everywhere. -/
theorem exists_svd_fun (n : ℕ) : ∃ svd : Matrix (Fin n) (Fin n) ℝ →
    Matrix (Fin n) (Fin n) ℝ × Matrix (Fin n) (Fin n) ℝ,
    ∀ A, ∃ σ, Spec.IsSvd A (svd A).1 (svd A).2 σ := by
  choose U V σ h using exists_svd (n := n)
  exact ⟨fun A => (U A, V A), fun A => ⟨σ A, h A⟩⟩

/-- Every matrix with at least as many rows as columns has a thin decomposition. -/
theorem exists_thinSvd {m : Type} [Fintype m] {n : ℕ} (hm : n ≤ Fintype.card m)
    (A : Matrix m (Fin n) ℝ) : ∃ U σ V, Spec.IsThinSvd A U σ V := by
  classical
  obtain ⟨V, σ, h⟩ := exists_rightSvd A
  obtain ⟨f⟩ : Nonempty (Fin n ↪ m) := Function.Embedding.nonempty_of_card_le (by simpa using hm)
  have hVV : V * V.transpose = 1 := mul_eq_one_comm.1 h.orth
  have hg : ∀ i j, ∑ k, (A * V) k i * (A * V) k j = if i = j then σ i ^ 2 else 0 := by
    intro i j
    have : (A * V).transpose * (A * V) = Matrix.diagonal (fun i => σ i ^ 2) := by
      rw [← h.gram, transpose_mul]; simp only [Matrix.mul_assoc]
    have := congrFun (congrFun this i) j
    rw [Matrix.mul_apply, Matrix.diagonal_apply] at this
    simpa using this
  let u : Fin n → EuclideanSpace ℝ m := fun i => WithLp.toLp 2 (fun k => (σ i)⁻¹ * (A * V) k i)
  let v : m → EuclideanSpace ℝ m := Function.extend f u 0
  let s : Set m := f '' {i | σ i ≠ 0}
  have hv : Orthonormal ℝ (s.domRestrict v) := by
    rw [orthonormal_iff_ite]
    rintro ⟨_, i, hi, rfl⟩ ⟨_, j, hj, rfl⟩
    have hi' : σ i ≠ 0 := hi
    simp only [Set.domRestrict_apply, v, f.injective.extend_apply, u, PiLp.inner_apply,
      RCLike.inner_apply, conj_trivial]
    have e : ∑ k, (σ j)⁻¹ * (A * V) k j * ((σ i)⁻¹ * (A * V) k i) =
        (σ j)⁻¹ * (σ i)⁻¹ * ∑ k, (A * V) k i * (A * V) k j := by
      rw [Finset.mul_sum]
      exact Finset.sum_congr rfl fun k _ => by ring
    rw [e, hg i j]
    by_cases hij : i = j
    · subst hij
      simp only [if_true]
      field_simp
    · simp [hij, Subtype.ext_iff, f.injective.eq_iff]
  obtain ⟨b, hb⟩ := hv.exists_orthonormalBasis_extension_of_card_eq (by simp)
  let U : Matrix m (Fin n) ℝ := Matrix.of fun k i => b (f i) k
  refine ⟨U, σ, V, ?_, h.orth, ?_, h.nonneg, h.anti⟩
  · ext i j
    rw [Matrix.mul_apply]
    have := orthonormal_iff_ite.1 b.orthonormal (f i) (f j)
    rw [PiLp.inner_apply] at this
    simp only [RCLike.inner_apply, conj_trivial, f.injective.eq_iff] at this
    rw [Matrix.one_apply, ← this]
    exact Finset.sum_congr rfl fun k _ => by simp [U, mul_comm]
  · have hAV : A * V = U * Matrix.diagonal σ := by
      ext k i
      rw [Matrix.mul_diagonal]
      by_cases hi : σ i = 0
      · have h0 := hg i i
        simp only [if_true, hi, zero_pow two_ne_zero] at h0
        rw [Finset.sum_eq_zero_iff_of_nonneg (fun k _ => mul_self_nonneg _)] at h0
        rw [hi, mul_zero]
        exact mul_self_eq_zero.1 (h0 k (Finset.mem_univ _))
      · have : U k i = (σ i)⁻¹ * (A * V) k i := by
          show b (f i) k = _
          rw [hb (f i) ⟨i, hi, rfl⟩]
          simp [v, f.injective.extend_apply, u]
        rw [this]
        field_simp
    rw [← hAV, Matrix.mul_assoc, hVV, Matrix.mul_one]

end OpenGV
