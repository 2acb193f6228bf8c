import Verif.Spec.Eigen
import Verif.Proof.SevenPoint
import Mathlib.Data.Fin.Tuple.Sort

namespace OpenGV

open Matrix Spec

/-! ### Eigen systems of real matrices -/

theorem map_ofReal_mulVec {n : ℕ} (M : Matrix (Fin n) (Fin n) ℝ) (v : Fin n → ℝ) :
    (M.map fun x => (x : ℂ)) *ᵥ (fun i => (v i : ℂ)) = fun i => ((M *ᵥ v) i : ℂ) := by
  funext i
  simp [mulVec, dotProduct]

theorem map_ofReal_det {n : ℕ} (M : Matrix (Fin n) (Fin n) ℝ) (x : ℝ) :
    ((x : ℂ) • (1 : Matrix (Fin n) (Fin n) ℂ) - M.map fun x => (x : ℂ)).det =
      (((x • (1 : Matrix (Fin n) (Fin n) ℝ) - M).det : ℝ) : ℂ) := by
  have e : (x : ℂ) • (1 : Matrix (Fin n) (Fin n) ℂ) - M.map (fun x => (x : ℂ)) =
      (x • (1 : Matrix (Fin n) (Fin n) ℝ) - M).map (Complex.ofRealHom : ℝ →+* ℂ) := by
    ext i j
    rcases eq_or_ne i j with rfl | hij
    · simp
    · simp [hij]
  rw [e]
  exact (RingHom.map_det Complex.ofRealHom _).symm

theorem exists_eigenSystem {n : ℕ} (M : Matrix (Fin n) (Fin n) ℝ) :
    ∃ D V, IsEigenSystem M D V := by
  obtain ⟨D, hD⟩ := exists_eigenvalues M
  have h : ∀ c, ∃ v : Fin n → ℂ, (M.map fun x => (x : ℂ)) *ᵥ v = D c • v ∧
      ∑ i, Complex.normSq (v i) = 1 ∧ ((D c).im = 0 → ∀ i, (v i).im = 0) := by
    intro c
    have h1 : ∃ v : Fin n → ℂ, v ≠ 0 ∧ (M.map fun x => (x : ℂ)) *ᵥ v = D c • v ∧
        ((D c).im = 0 → ∀ i, (v i).im = 0) := by
      have h0 : (D c • (1 : Matrix (Fin n) (Fin n) ℂ) - M.map fun x => (x : ℂ)).det = 0 := by
        rw [hD, Finset.prod_eq_zero (Finset.mem_univ c) (sub_self _)]
      by_cases him : (D c).im = 0
      · have hre : D c = ((D c).re : ℂ) := by apply Complex.ext <;> simp [him]
        rw [hre, map_ofReal_det] at h0
        obtain ⟨v, hv, e⟩ := exists_mulVec_eq_zero_iff.2 (Complex.ofReal_eq_zero.1 h0)
        rw [sub_mulVec, smul_mulVec, one_mulVec, sub_eq_zero] at e
        refine ⟨fun i => (v i : ℂ), ?_, ?_, fun _ i => Complex.ofReal_im _⟩
        · intro h2
          exact hv (funext fun i => Complex.ofReal_eq_zero.1 (congrFun h2 i))
        · rw [map_ofReal_mulVec, ← e, hre]
          funext i
          simp
      · obtain ⟨v, hv, e⟩ := exists_mulVec_eq_zero_iff.2 h0
        rw [sub_mulVec, smul_mulVec, one_mulVec, sub_eq_zero] at e
        exact ⟨v, hv, e.symm, fun h => absurd h him⟩
    obtain ⟨v, hv, e, hr⟩ := h1
    have hpos : 0 < ∑ i, Complex.normSq (v i) := by
      obtain ⟨i, hi⟩ := Function.ne_iff.1 hv
      exact Finset.sum_pos' (fun i _ => Complex.normSq_nonneg _)
        ⟨i, Finset.mem_univ i, Complex.normSq_pos.2 hi⟩
    set k : ℝ := (√(∑ i, Complex.normSq (v i)))⁻¹ with hk
    refine ⟨(k : ℂ) • v, ?_, ?_, fun h i => ?_⟩
    · rw [mulVec_smul, e, smul_comm]
    · simp only [Pi.smul_apply, smul_eq_mul, Complex.normSq_mul, Complex.normSq_ofReal,
        ← Finset.mul_sum]
      rw [hk, ← mul_inv, Real.mul_self_sqrt hpos.le, inv_mul_cancel₀ hpos.ne']
    · simp [hr h i]
  choose v h1 h2 h3 using h
  exact ⟨D, of fun i c => v c i, hD, h1, h2, h3⟩

/-- The real part of a column. -/
theorem eigenSystem_re {n : ℕ} {M : Matrix (Fin n) (Fin n) ℝ} {D : Fin n → ℂ}
    {V : Matrix (Fin n) (Fin n) ℂ} (h : IsEigenSystem M D V) {c : Fin n} (hc : (D c).im = 0) :
    (M *ᵥ fun i => (V i c).re) = (D c).re • (fun i => (V i c).re) ∧
      (fun i => (V i c).re) ⬝ᵥ (fun i => (V i c).re) = 1 := by
  constructor
  · funext i
    have e := congrArg Complex.re (congrFun (h.vectors c) i)
    simp only [mulVec, dotProduct, Matrix.map_apply, Complex.re_sum, Complex.mul_re,
      Complex.ofReal_re, Complex.ofReal_im, zero_mul, sub_zero, Pi.smul_apply, smul_eq_mul, hc] at e
    exact e
  · have e := h.unit c
    rw [← e]
    refine Finset.sum_congr rfl fun i _ => ?_
    rw [Complex.normSq_apply, h.real c hc i]
    simp

/-- The eigenvalues of a symmetric matrix are real. -/
theorem eigenSystem_symm {n : ℕ} {M : Matrix (Fin n) (Fin n) ℝ} {D : Fin n → ℂ}
    {V : Matrix (Fin n) (Fin n) ℂ} (h : IsEigenSystem M D V) (hM : M.transpose = M) (c : Fin n) :
    (D c).im = 0 := by
  set p : Fin n → ℝ := fun i => (V i c).re with hp
  set q : Fin n → ℝ := fun i => (V i c).im with hq
  have e1 : M *ᵥ p = (D c).re • p - (D c).im • q := by
    funext i
    have e := congrArg Complex.re (congrFun (h.vectors c) i)
    simp only [mulVec, dotProduct, Matrix.map_apply, Complex.re_sum, Complex.mul_re,
      Complex.ofReal_re, Complex.ofReal_im, zero_mul, sub_zero, Pi.smul_apply, smul_eq_mul] at e
    exact e
  have e2 : M *ᵥ q = (D c).re • q + (D c).im • p := by
    funext i
    have e := congrArg Complex.im (congrFun (h.vectors c) i)
    simp only [mulVec, dotProduct, Matrix.map_apply, Complex.im_sum, Complex.mul_im,
      Complex.ofReal_re, Complex.ofReal_im, zero_mul, add_zero, Pi.smul_apply, smul_eq_mul] at e
    exact e
  have e3 : q ⬝ᵥ (M *ᵥ p) = p ⬝ᵥ (M *ᵥ q) := by
    rw [dotProduct_mulVec, ← mulVec_transpose, hM, dotProduct_comm]
  rw [e1, e2, dotProduct_sub, dotProduct_add, dotProduct_smul, dotProduct_smul, dotProduct_smul,
    dotProduct_smul, dotProduct_comm q p] at e3
  have e4 : p ⬝ᵥ p + q ⬝ᵥ q = 1 := by
    rw [← h.unit c, dotProduct, dotProduct, ← Finset.sum_add_distrib]
    exact Finset.sum_congr rfl fun i _ => (Complex.normSq_apply _).symm
  simp only [smul_eq_mul] at e3
  have : (D c).im * (p ⬝ᵥ p + q ⬝ᵥ q) = 0 := by linarith
  rwa [e4, mul_one] at this

/-- Every real eigenvalue is listed. -/
theorem eigenvalues_mem {n : ℕ} {M : Matrix (Fin n) (Fin n) ℝ} {D : Fin n → ℂ}
    (h : IsEigenvalues M D) {x : ℝ} {v : Fin n → ℝ} (hv : v ≠ 0) (e : M *ᵥ v = x • v) :
    ∃ i, D i = x := by
  have h0 : (x • (1 : Matrix (Fin n) (Fin n) ℝ) - M).det = 0 :=
    exists_mulVec_eq_zero_iff.1 ⟨v, hv, by rw [sub_mulVec, smul_mulVec, one_mulVec, e, sub_self]⟩
  have h1 := h x
  rw [map_ofReal_det, h0, Complex.ofReal_zero] at h1
  obtain ⟨i, -, hi⟩ := Finset.prod_eq_zero_iff.1 h1.symm
  exact ⟨i, (sub_eq_zero.1 hi).symm⟩

/-- An order of decreasing values. -/
theorem exists_sort_desc {n : ℕ} (f : Fin n → ℝ) :
    ∃ π : Equiv.Perm (Fin n), ∀ i j, i ≤ j → f (π j) ≤ f (π i) := by
  refine ⟨Tuple.sort fun i => -f i, fun i j hij => ?_⟩
  have := Tuple.monotone_sort (fun i => -f i) hij
  simpa using this

end OpenGV
