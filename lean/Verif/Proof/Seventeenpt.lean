import Verif.Model.Seventeenpt
import Verif.Spec.Plucker
import Verif.Proof.RelativePose

/-!
# Lemmas about `seventeenpt`
-/

namespace OpenGV.Seventeen

open Matrix Adapters Spec

/-- The contract of the decompositions. -/
structure SvdOk (D : SvdDeps) : Prop where
  svd9 : ∀ n, 9 ≤ n → ∀ A, IsThinSvd A (D.svd9 n A).1 (D.svd9 n A).2.1 (D.svd9 n A).2.2
  svdC : ∀ n A, ∃ σ, IsRightSvd A (D.svdC n A) σ
  svdE : ∀ E, ∃ σ, IsSvd E (D.svdE E).1 (D.svdE E).2 σ
  svd3 : ∀ n, 3 ≤ n → ∀ A, IsThinSvd A (D.svd3 n A).1 (D.svd3 n A).2.1 (D.svd3 n A).2.2

theorem rows_dot (F S : Mat3) (o : RelObs) :
    rowE o ⬝ᵥ vec9 F + rowR o ⬝ᵥ vec9 S = lineForm F S o := by
  have h1 : crossProduct o.off1 (o.rot1 *ᵥ o.f1) = mom1 o := rfl
  have h2 : crossProduct o.off2 (o.rot2 *ᵥ o.f2) = mom2 o := rfl
  have h3 : o.rot1 *ᵥ o.f1 = dir1 o := rfl
  have h4 : o.rot2 *ᵥ o.f2 = dir2 o := rfl
  simp only [lineForm, h1, h2]
  simp only [h3, h4, rowE, rowR]
  generalize mom1 o = m1
  generalize mom2 o = m2
  generalize dir1 o = d1
  generalize dir2 o = d2
  simp only [dotProduct, Fin.sum_univ_succ, Fin.sum_univ_zero, mulVec, vec9]
  simp
  ring

/-- The matrix of the bilinear form of a pose. -/
theorem lineForm_pose (R : Mat3) (t : Vec3) (o : RelObs) (hR : R.transpose * R = 1)
    (hd : R.det = 1) :
    lineForm (-(R.transpose * skew t)) R.transpose o =
      (R *ᵥ o.off2 + t - o.off1) ⬝ᵥ
        crossProduct (R *ᵥ (o.rot2 *ᵥ o.f2)) (o.rot1 *ᵥ o.f1) := by
  unfold lineForm
  simp only
  generalize o.rot1 *ᵥ o.f1 = d1
  generalize o.rot2 *ᵥ o.f2 = d2
  have key : ∀ a b : Vec3, a ⬝ᵥ (R.transpose *ᵥ b) = (R *ᵥ a) ⬝ᵥ b := by
    intro a b
    rw [dotProduct_mulVec, vecMul_transpose]
  rw [neg_mulVec, ← mulVec_mulVec, skew_mulVec, dotProduct_neg, key, key, key,
    ← rot_cross ⟨hR, hd⟩]
  generalize R *ᵥ d2 = a
  generalize R *ᵥ o.off2 = w
  generalize o.off1 = v
  simp only [dot3, cross_apply, Matrix.cons_val, Pi.add_apply, Pi.sub_apply]
  ring

theorem rowT_dot (R : Mat3) (hR : R.transpose * R = 1) (hd : R.det = 1) (s : Vec3) (o : RelObs) :
    rowT R o ⬝ᵥ s - rhsT R o = (R *ᵥ o.off2 + s - o.off1) ⬝ᵥ
      crossProduct (R *ᵥ (o.rot2 *ᵥ o.f2)) (o.rot1 *ᵥ o.f1) := by
  have e : rowT R o = crossProduct (R *ᵥ dir2 o) (dir1 o) := by
    unfold rowT
    generalize dir1 o = d1
    generalize dir2 o = d2
    apply ext3 <;> simp [cross_apply, mulVec3] <;> ring
  rw [e, rhsT, mom1, mom2, ← rot_cross ⟨hR, hd⟩]
  have h3 : o.rot1 *ᵥ o.f1 = dir1 o := rfl
  have h4 : o.rot2 *ᵥ o.f2 = dir2 o := rfl
  rw [h3, h4]
  generalize R *ᵥ dir2 o = a
  generalize dir1 o = d1
  generalize R *ᵥ o.off2 = w
  generalize o.off1 = v
  simp only [dot3, cross_apply, Matrix.cons_val, Pi.add_apply, Pi.sub_apply]
  ring

theorem mat_mulVec (F S : Mat3) (obs : List RelObs) :
    matE obs *ᵥ vec9 F + matR obs *ᵥ vec9 S = 0 ↔ ∀ o ∈ obs, lineForm F S o = 0 := by
  constructor
  · intro h o ho
    obtain ⟨i, hi, rfl⟩ := List.getElem_of_mem ho
    rw [← rows_dot]
    exact congrFun h ⟨i, hi⟩
  · intro h
    funext i
    have := h obs[i] (List.getElem_mem i.2)
    rw [← rows_dot] at this
    exact this

theorem matT_mulVec (R : Mat3) (hR : IsRot R) (s : Vec3) (obs : List RelObs) :
    matT R obs *ᵥ s = vecT R obs ↔ ∀ o ∈ obs, LinesCoplanar R s o := by
  constructor
  · intro h o ho
    obtain ⟨i, hi, rfl⟩ := List.getElem_of_mem ho
    rw [LinesCoplanar, ← rowT_dot R hR.1 hR.2, sub_eq_zero]
    exact congrFun h ⟨i, hi⟩
  · intro h
    funext i
    have := h obs[i] (List.getElem_mem i.2)
    rw [LinesCoplanar, ← rowT_dot R hR.1 hR.2, sub_eq_zero] at this
    exact this

theorem tolerance_nonneg {n : ℕ} {s : ℝ} (hs : 0 ≤ s) : 0 ≤ tolerance n s := by
  unfold tolerance machineEps
  positivity

/-- The computed matrix is a generalised inverse if no singular value is cut off. -/
theorem pinv_spec {n k : ℕ} {A U : Matrix (Fin n) (Fin k) ℝ} {σ : Fin k → ℝ}
    {V : Matrix (Fin k) (Fin k) ℝ} (h : IsThinSvd A U σ V) {tol : ℝ} (ht : 0 ≤ tol)
    (hg : ∀ i, σ i = 0 ∨ tol < σ i) : A * pinv tol U σ V * A = A := by
  have e : diagonal σ * diagonal (sigmaInverse tol σ) * diagonal σ = diagonal σ := by
    rw [diagonal_mul_diagonal, diagonal_mul_diagonal]
    congr 1
    funext i
    unfold sigmaInverse
    rcases hg i with h0 | h0
    · rw [h0]; simp
    · rw [if_pos h0]
      have : σ i ≠ 0 := (ht.trans_lt h0).ne'
      field_simp
  calc A * pinv tol U σ V * A
      = U * (diagonal σ * (V.transpose * V) * diagonal (sigmaInverse tol σ) *
          (U.transpose * U) * diagonal σ) * V.transpose := by
        rw [pinv]
        conv_lhs => rw [h.eq]
        simp only [Matrix.mul_assoc]
    _ = A := by
        rw [h.orthU, h.orthV, Matrix.mul_one, Matrix.mul_one, e, ← h.eq]

/-- A vector of the kernel of `C` solves the linear system together with some second part. -/
theorem kernel_of_matC {D : SvdDeps} {obs : List RelObs} {e : Fin 9 → ℝ}
    (h : matC D obs *ᵥ e = 0) : ∃ S, ∀ o ∈ obs, lineForm (unvec e) S o = 0 := by
  unfold matC at h
  simp only [← mulVec_mulVec, add_mulVec, neg_mulVec, one_mulVec] at h
  generalize pinv _ _ _ _ *ᵥ (matE obs *ᵥ e) = r at h
  refine ⟨unvec (-r), (mat_mulVec _ _ _).1 ?_⟩
  rw [vec9_unvec, vec9_unvec, mulVec_neg]
  rw [← neg_eq_zero] at h
  rw [← h]
  abel

theorem matC_kernel {D : SvdDeps} (hD : SvdOk D) {obs : List RelObs} (hn : 9 ≤ obs.length)
    (hg : ∀ i, (D.svd9 obs.length (matR obs)).2.1 i = 0 ∨
      tolerance obs.length ((D.svd9 obs.length (matR obs)).2.1 0) <
        (D.svd9 obs.length (matR obs)).2.1 i)
    {F S : Mat3} (h : ∀ o ∈ obs, lineForm F S o = 0) : matC D obs *ᵥ vec9 F = 0 := by
  have h1 := (mat_mulVec F S obs).2 h
  have hs := hD.svd9 obs.length hn (matR obs)
  have hp := pinv_spec hs (tolerance_nonneg (hs.nonneg 0)) hg
  have h2 : matE obs *ᵥ vec9 F = -(matR obs *ᵥ vec9 S) := eq_neg_of_add_eq_zero_left h1
  unfold matC
  simp only
  rw [← mulVec_mulVec, h2, add_mulVec, neg_mulVec, one_mulVec, mulVec_neg, neg_neg, mulVec_mulVec,
    hp, add_neg_cancel]

/-- The two rotations derived from a multiple of the essential matrix: one is the true one, the other
is not. -/
theorem rotations_spec {D : SvdDeps} (hD : SvdOk D) {R : Mat3} (hR : IsRot R) {t : Vec3} (ht : t ≠ 0)
    {c : ℝ} (hc : c ≠ 0) :
    let p := rotations D (c • (R.transpose * skew t))
    IsRot p.1 ∧ IsRot p.2 ∧ ((p.1 = R ∧ p.2 ≠ R) ∨ (p.2 = R ∧ p.1 ≠ R)) := by
  set t' : Vec3 := c • (R.transpose *ᵥ t) with ht'
  have hE : c • (R.transpose * skew t) = skew t' * R.transpose := by
    have h1 : skew (R.transpose *ᵥ t) = R.transpose * skew t * R := by
      have := skew_orth hR.transpose.1 t
      rw [hR.transpose.2, one_smul, transpose_transpose] at this
      exact this
    have h2 : skew t' = c • skew (R.transpose *ᵥ t) := by
      rw [ht']
      apply mat3_ext <;> simp [skew]
    rw [h2, h1, Matrix.smul_mul, Matrix.mul_assoc, rot_mul_transpose hR.1, Matrix.mul_one]
  have htne : t' ≠ 0 := by
    intro h
    rcases smul_eq_zero.1 h with h | h
    · exact hc h
    · apply ht
      rw [← one_mulVec t, ← rot_mul_transpose hR.1, ← mulVec_mulVec, h, mulVec_zero]
  obtain ⟨σ, hsvd⟩ := hD.svdE (c • (R.transpose * skew t))
  rw [hE] at hsvd ⊢
  intro p
  have hRt := hR.transpose
  obtain ⟨q1, q2⟩ := candidate_products hRt htne hsvd
  have hs0 := (essential_sigma hRt htne hsvd).1
  set U := (D.svdE (skew t' * R.transpose)).1 with hU
  set V := (D.svdE (skew t' * R.transpose)).2 with hV
  set Qa := fixSign (U * wMat * V.transpose) with hQa
  set Qb := fixSign (U * wMat.transpose * V.transpose) with hQb
  have hVt := orth_transpose hsvd.orthV
  have ra : IsRot Qa := fixSign_isRot (orth_mul (orth_mul hsvd.orthU wMat_orth) hVt)
  have rb : IsRot Qb :=
    fixSign_isRot (orth_mul (orth_mul hsvd.orthU (orth_transpose wMat_orth)) hVt)
  have hneg : ∀ v : Vec3, skew (-v) = -skew v := by
    intro v; apply mat3_ext <;> simp [skew]
  have hE0 : skew t' * R.transpose ≠ 0 := by
    intro h
    have h1 : skew t' = 0 := by
      rw [← Matrix.mul_one (skew t'), ← hR.1, ← Matrix.mul_assoc, h, Matrix.zero_mul]
    apply htne
    have a := congrFun (congrFun h1 2) 1
    have b := congrFun (congrFun h1 0) 2
    have c := congrFun (congrFun h1 1) 0
    simp [skew] at a b c
    apply ext3 <;> assumption
  -- the sign of the products with the true translation
  obtain ⟨k, hk, k1, k2⟩ : ∃ k : ℝ, (k = 1 ∨ k = -1) ∧
      skew t' * Qa = -k • (skew t' * R.transpose) ∧ skew t' * Qb = k • (skew t' * R.transpose) := by
    rcases essential_left_null hRt htne hsvd with e | e
    · rw [← hs0] at e
      rw [← e] at q1 q2
      exact ⟨V.det, orth_det hsvd.orthV, q1, q2⟩
    · rw [← hs0] at e
      have e' : (fun i => σ 0 * U i 2) = -t' := by rw [e, neg_neg]
      rw [e', hneg, Matrix.neg_mul] at q1 q2
      refine ⟨-V.det, ?_, ?_, ?_⟩
      · rcases orth_det hsvd.orthV with h | h <;> rw [h] <;> simp
      · rw [neg_neg, ← neg_neg (skew t' * Qa), q1]; module
      · rw [← neg_neg (skew t' * Qb), q2]; module
  have hno : ∀ Q : Mat3, skew t' * Q = -(skew t' * R.transpose) → Q.transpose ≠ R := by
    intro Q h e
    rw [← transpose_transpose Q, e] at h
    apply hE0
    have : (2 : ℝ) • (skew t' * R.transpose) = 0 := by
      rw [two_smul]
      nth_rewrite 1 [h]
      simp
    exact (smul_eq_zero.1 this).resolve_left (by norm_num)
  have hyes : ∀ Q : Mat3, IsRot Q → skew t' * Q = skew t' * R.transpose → Q.transpose = R := by
    intro Q hQ h
    rw [← essential_rot_unique hRt hQ htne h.symm, transpose_transpose]
  refine ⟨ra.transpose, rb.transpose, ?_⟩
  rcases hk with rfl | rfl
  · right
    rw [one_smul] at k2
    rw [neg_one_smul] at k1
    exact ⟨hyes _ rb k2, hno _ k1⟩
  · left
    rw [neg_neg, one_smul] at k1
    rw [neg_one_smul] at k2
    exact ⟨hyes _ ra k1, hno _ k2⟩

theorem fit_nonneg (D : SvdDeps) (R : Mat3) (obs : List RelObs) : 0 ≤ fit D R obs :=
  Real.sqrt_nonneg _

theorem fit_eq_zero {D : SvdDeps} {R : Mat3} {obs : List RelObs} :
    fit D R obs = 0 ↔ matT R obs *ᵥ translation D R obs = vecT R obs := by
  unfold fit
  simp only
  rw [Real.sqrt_eq_zero (by
    rw [dotProduct]
    exact Finset.sum_nonneg fun i _ => mul_self_nonneg _), dotProduct_self_eq_zero, sub_eq_zero]

theorem fit_of_solution {D : SvdDeps} (hD : SvdOk D) {R : Mat3} {obs : List RelObs}
    (hn : 3 ≤ obs.length)
    (hg : ∀ i, (D.svd3 obs.length (matT R obs)).2.1 i = 0 ∨
      tolerance obs.length ((D.svd3 obs.length (matT R obs)).2.1 0) <
        (D.svd3 obs.length (matT R obs)).2.1 i)
    {s : Vec3} (h : matT R obs *ᵥ s = vecT R obs) : fit D R obs = 0 := by
  rw [fit_eq_zero]
  have hs := hD.svd3 obs.length hn (matT R obs)
  have hp := pinv_spec hs (tolerance_nonneg (hs.nonneg 0)) hg
  unfold translation
  simp only
  rw [← h, mulVec_mulVec, mulVec_mulVec, hp]

end OpenGV.Seventeen
