import Verif.Model.SixptSac
import Verif.Proof.Arun
import Verif.Proof.EigenSystem
import Mathlib.LinearAlgebra.Matrix.Charpoly.Coeff
import Mathlib.LinearAlgebra.Matrix.DotProduct
import Mathlib.Algebra.Order.Star.Real

/-!
# Lemmas about the translation of the six point hypotheses
-/

namespace OpenGV

open Matrix Adapters Spec

/-- A translation in homogeneous coordinates. -/
def homog (t : Vec3) : Fin 4 → ℝ := ![t 0, t 1, t 2, 1]

theorem sixSkew_mulVec (t v : Vec3) : sixSkew t *ᵥ v = crossProduct t v := by
  apply ext3 <;> simp [sixSkew, mulVec3, cross_apply] <;> ring

theorem sixNormal_homog (o : RelObs) {R : Mat3} (hR : IsRot R) (t : Vec3) :
    sixNormal o R ⬝ᵥ homog t =
      crossProduct (o.rot1 *ᵥ o.f1) (R *ᵥ (o.rot2 *ᵥ o.f2)) ⬝ᵥ (t - o.off1 + R *ᵥ o.off2) := by
  have h : (o.rot1 *ᵥ o.f1) ᵥ* (sixSkew o.off1 * R - R * sixSkew o.off2) ⬝ᵥ (o.rot2 *ᵥ o.f2) =
      crossProduct (o.rot1 *ᵥ o.f1) (R *ᵥ (o.rot2 *ᵥ o.f2)) ⬝ᵥ (-o.off1 + R *ᵥ o.off2) := by
    rw [← dotProduct_mulVec, sub_mulVec, ← mulVec_mulVec, ← mulVec_mulVec, sixSkew_mulVec, sixSkew_mulVec,
      ← rot_cross hR]
    generalize R *ᵥ (o.rot2 *ᵥ o.f2) = g
    generalize R *ᵥ o.off2 = p
    generalize o.rot1 *ᵥ o.f1 = f
    simp only [dot3, cross_apply, Pi.sub_apply, Pi.add_apply, Pi.neg_apply, cons_val]
    ring
  have e : t - o.off1 + R *ᵥ o.off2 = t + (-o.off1 + R *ᵥ o.off2) := by abel
  rw [e, dotProduct_add, ← h, dot3]
  simp [sixNormal, homog, dotProduct, Fin.sum_univ_four]

theorem sixG_mulVec (obs : Fin 6 → RelObs) (R : Mat3) (x : Fin 4 → ℝ) :
    sixG obs R *ᵥ x = ∑ i, (sixNormal (obs i) R ⬝ᵥ x) • sixNormal (obs i) R := by
  unfold sixG
  rw [sum_mulVec]
  refine Finset.sum_congr rfl fun i _ => ?_
  funext k
  simp only [mulVec, dotProduct, vecMulVec_apply, Pi.smul_apply, smul_eq_mul, Finset.sum_mul]
  exact Finset.sum_congr rfl fun j _ => by ring

theorem sixG_quad (obs : Fin 6 → RelObs) (R : Mat3) (x : Fin 4 → ℝ) :
    x ⬝ᵥ (sixG obs R *ᵥ x) = ∑ i, (sixNormal (obs i) R ⬝ᵥ x) ^ 2 := by
  rw [sixG_mulVec, dotProduct_sum]
  refine Finset.sum_congr rfl fun i _ => ?_
  rw [dotProduct_smul, dotProduct_comm, smul_eq_mul, sq]

theorem sixG_symm (obs : Fin 6 → RelObs) (R : Mat3) : (sixG obs R)ᵀ = sixG obs R := by
  unfold sixG
  rw [transpose_sum]
  refine Finset.sum_congr rfl fun i _ => ?_
  rw [transpose_vecMulVec]

/-- A vector in the null space is orthogonal to all normals. -/
theorem sixG_ker {obs : Fin 6 → RelObs} {R : Mat3} {x : Fin 4 → ℝ} (h : sixG obs R *ᵥ x = 0) (i : Fin 6) :
    sixNormal (obs i) R ⬝ᵥ x = 0 := by
  have := sixG_quad obs R x
  rw [h, dotProduct_zero] at this
  have h2 := (Finset.sum_eq_zero_iff_of_nonneg (fun i _ => sq_nonneg _)).1 this.symm i (Finset.mem_univ _)
  exact pow_eq_zero_iff (two_ne_zero) |>.1 h2

/-- Reordering the results of the eigenvalue solver. -/
theorem isEigenSystem_perm {n : ℕ} {M : Matrix (Fin n) (Fin n) ℝ} {D : Fin n → ℂ}
    {V : Matrix (Fin n) (Fin n) ℂ} (h : IsEigenSystem M D V) (σ : Equiv.Perm (Fin n)) :
    IsEigenSystem M (D ∘ σ) (V.submatrix id σ) where
  values z := by rw [h.values z]; exact (Equiv.prod_comp σ fun i => z - D i).symm
  vectors c := h.vectors (σ c)
  unit c := h.unit (σ c)
  real c hc i := h.real (σ c) hc i

/-- A symmetric matrix with no eigenvalue except zero is zero. -/
theorem eq_zero_of_eigenvalues {n : ℕ} {M : Matrix (Fin n) (Fin n) ℝ} (hM : Mᵀ = M) {D : Fin n → ℂ}
    (h : IsEigenvalues M D) (h0 : ∀ i, D i = 0) : M = 0 := by
  have hp : M.charpoly = Polynomial.X ^ n := by
    apply Polynomial.funext
    intro x
    have hx := h x
    rw [map_ofReal_det] at hx
    simp only [h0, sub_zero, Finset.prod_const, Finset.card_univ, Fintype.card_fin] at hx
    rw [Matrix.eval_charpoly, Polynomial.eval_pow, Polynomial.eval_X]
    rw [show scalar (Fin n) x = x • (1 : Matrix (Fin n) (Fin n) ℝ) by
      rw [Matrix.smul_one_eq_diagonal]; rfl]
    exact_mod_cast hx
  have hn : M ^ n = 0 := by
    have := Matrix.aeval_self_charpoly M
    rwa [hp, map_pow, Polynomial.aeval_X] at this
  have key : ∀ k, M ^ (k + 1) = 0 → M = 0 := by
    intro k
    induction k using Nat.strong_induction_on with
    | _ k ih =>
      intro hk
      rcases Nat.eq_zero_or_pos k with rfl | hpos
      · simpa using hk
      · -- `M ^ k = 0`, since `(M ^ k)ᵀ * M ^ k = M ^ (2 k)`
        have h2 : (M ^ k)ᵀ * M ^ k = 0 := by
          rw [transpose_pow, hM, ← pow_add, show k + k = (k + 1) + (k - 1) by omega, pow_add, hk,
            Matrix.zero_mul]
        have h3 : M ^ k = 0 := by
          apply Matrix.conjTranspose_mul_self_eq_zero.1
          rw [Matrix.conjTranspose_eq_transpose_of_trivial]
          exact h2
        exact ih (k - 1) (by omega) (by rwa [Nat.sub_add_cancel hpos])
  rcases Nat.eq_zero_or_pos n with rfl | hpos
  · exact Matrix.ext fun i => i.elim0
  · exact key (n - 1) (by rwa [Nat.sub_add_cancel hpos])

/-- The real part of the first column, up to the factor, is the translation that is read. -/
theorem sixTranslation_some {V : Matrix (Fin 4) (Fin 4) ℂ} {t : Vec3} :
    sixTranslation V = some t ↔ (V 3 0).re ≠ 0 ∧ (fun i => (V i 0).re) = (V 3 0).re • homog t := by
  unfold sixTranslation
  simp only
  by_cases h : (V 3 0).re = 0
  · simp [h]
  rw [if_neg h]
  constructor
  · intro e
    obtain rfl := Option.some.inj e
    refine ⟨h, ?_⟩
    funext i
    fin_cases i <;> simp [homog] <;> field_simp
  · rintro ⟨-, e⟩
    congr 1
    funext i
    have h0 := congrFun e 0
    have h1 := congrFun e 1
    have h2 := congrFun e 2
    simp only [homog, Pi.smul_apply, smul_eq_mul, cons_val] at h0 h1 h2
    fin_cases i
    · simp [h0, h]
    · simp [h1, h]
    · simp [h2, h]

end OpenGV
