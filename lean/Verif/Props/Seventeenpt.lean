import Verif.Proof.SeventeenptExample

/-!
# Properties of `seventeenpt`: C62
-/

namespace OpenGV.Props

open Matrix Adapters Spec Seventeen

/-- **C62 (the linear system).** A pair of matrices `(F, S)` solves the homogeneous linear system
built by `seventeenpt` exactly when the bilinear form of the viewing lines vanishes for every
correspondence; the pair made from a pose, `(-Rᵀ [t]ₓ, Rᵀ)`, solves it exactly when all pairs of
viewing lines are coplanar under that pose, in particular when they meet. -/
theorem C62_linear_system (obs : List RelObs) :
    (∀ F S : Mat3, matE obs *ᵥ vec9 F + matR obs *ᵥ vec9 S = 0 ↔ ∀ o ∈ obs, lineForm F S o = 0) ∧
    (∀ (R : Mat3) (t : Vec3), IsRot R →
      (matE obs *ᵥ vec9 (-(R.transpose * skew t)) + matR obs *ᵥ vec9 R.transpose = 0 ↔
        ∀ o ∈ obs, LinesCoplanar R t o)) ∧
    (∀ (R : Mat3) (t : Vec3) (o : RelObs), IsRot R →
      (∃ a b : ℝ, o.off1 + a • (o.rot1 *ᵥ o.f1) =
        R *ᵥ (o.off2 + b • (o.rot2 *ᵥ o.f2)) + t) → LinesCoplanar R t o) := by
  refine ⟨fun F S => mat_mulVec F S obs, fun R t hR => ?_, ?_⟩
  · rw [mat_mulVec]
    refine forall₂_congr fun o _ => ?_
    rw [lineForm_pose R t o hR.1 hR.2, LinesCoplanar]
  · rintro R t o hR ⟨a, b, h⟩
    unfold LinesCoplanar
    rw [mulVec_add, mulVec_smul] at h
    have e : R *ᵥ o.off2 + t - o.off1 = a • (o.rot1 *ᵥ o.f1) - b • (R *ᵥ (o.rot2 *ᵥ o.f2)) := by
      have := congrArg (fun v => v - o.off1 - b • (R *ᵥ (o.rot2 *ᵥ o.f2))) h
      rw [show o.off1 + a • (o.rot1 *ᵥ o.f1) - o.off1 - b • (R *ᵥ (o.rot2 *ᵥ o.f2)) =
        a • (o.rot1 *ᵥ o.f1) - b • (R *ᵥ (o.rot2 *ᵥ o.f2)) by abel] at this
      rw [this]
      abel
    rw [e]
    generalize R *ᵥ (o.rot2 *ᵥ o.f2) = x
    generalize o.rot1 *ᵥ o.f1 = y
    simp only [dot3, cross_apply, Matrix.cons_val, Pi.sub_apply, Pi.smul_apply, smul_eq_mul]
    ring

example : LinesCoplanar 1 ![1, 0, 0] ⟨![0, 0, 1], ![0, 1, 0], ![1, 1, -1], 1, 0, 1⟩ :=
  (C62_linear_system []).2.2 1 ![1, 0, 0] _ ⟨by simp, by simp⟩ ⟨1, 1, by
    apply ext3 <;> simp⟩

/-- **C62 (essential matrix).** If no singular value of the second matrix is cut off wrongly (each is
zero or above the tolerance), the kernel of the matrix `C` consists exactly of the first parts `F` of
the solutions `(F, S)` of the linear system. -/
theorem C62_elimination (D : SvdDeps) (hD : SvdOk D) (obs : List RelObs) (hn : 9 ≤ obs.length)
    (hg : ∀ i, (D.svd9 obs.length (matR obs)).2.1 i = 0 ∨
      tolerance obs.length ((D.svd9 obs.length (matR obs)).2.1 0) <
        (D.svd9 obs.length (matR obs)).2.1 i) (F : Mat3) :
    matC D obs *ᵥ vec9 F = 0 ↔ ∃ S, ∀ o ∈ obs, lineForm F S o = 0 := by
  constructor
  · intro h
    have := kernel_of_matC h
    rwa [unvec_vec9] at this
  · rintro ⟨S, h⟩
    exact matC_kernel hD hn hg h

/-- **C62 (rotations).** The two rotations derived from a multiple of the essential matrix of a pose
with a translation are proper, and exactly one of them is the rotation of the pose. -/
theorem C62_rotations (D : SvdDeps) (hD : SvdOk D) (R : Mat3) (hR : IsRot R) (t : Vec3) (ht : t ≠ 0)
    (c : ℝ) (hc : c ≠ 0) :
    let p := rotations D (c • (R.transpose * skew t))
    IsRot p.1 ∧ IsRot p.2 ∧ ((p.1 = R ∧ p.2 ≠ R) ∨ (p.2 = R ∧ p.1 ≠ R)) :=
  rotations_spec hD hR ht hc

example : ∃ D, SvdOk D := exists_svdDeps

/-- **C62 (exact data).** Let all pairs of viewing lines be coplanar under the pose `(t, R)` with
`t ≠ 0`. If the linear system determines the essential matrix up to scale, no other pose explains the
data, and no singular value is cut off wrongly, then `seventeenpt` returns `(t, R)`, including the
length of the translation. -/
theorem C62_exact (D : SvdDeps) (hD : SvdOk D) (obs : List RelObs) (hn : 9 ≤ obs.length)
    (R : Mat3) (hR : IsRot R) (t : Vec3) (ht : t ≠ 0)
    (hex : ∀ o ∈ obs, LinesCoplanar R t o)
    (huE : ∀ F S : Mat3, (∀ o ∈ obs, lineForm F S o = 0) → ∃ c : ℝ, F = c • (R.transpose * skew t))
    (huP : ∀ (Q : Mat3) (s : Vec3), IsRot Q → (∀ o ∈ obs, LinesCoplanar Q s o) → Q = R ∧ s = t)
    (hg : ∀ i, (D.svd9 obs.length (matR obs)).2.1 i = 0 ∨
      tolerance obs.length ((D.svd9 obs.length (matR obs)).2.1 0) <
        (D.svd9 obs.length (matR obs)).2.1 i)
    (hg3 : ∀ i, (D.svd3 obs.length (matT R obs)).2.1 i = 0 ∨
      tolerance obs.length ((D.svd3 obs.length (matT R obs)).2.1 0) <
        (D.svd3 obs.length (matT R obs)).2.1 i) :
    seventeenpt D obs = some (t, R) := by
  -- the essential matrix
  have hform : ∀ o ∈ obs, lineForm (-(R.transpose * skew t)) R.transpose o = 0 := by
    intro o ho
    rw [lineForm_pose R t o hR.1 hR.2]
    exact hex o ho
  have hker := matC_kernel hD hn hg hform
  have hE0 : -(R.transpose * skew t) ≠ 0 := by
    intro h
    have h1 : skew t = 0 := by
      rw [← Matrix.one_mul (skew t), ← rot_mul_transpose hR.1, Matrix.mul_assoc,
        neg_eq_zero.1 h, Matrix.mul_zero]
    apply ht
    have a := congrFun (congrFun h1 2) 1
    have b := congrFun (congrFun h1 0) 2
    have c := congrFun (congrFun h1 1) 0
    simp [skew] at a b c
    apply ext3 <;> assumption
  obtain ⟨σ, hsvd⟩ := hD.svdC obs.length (matC D obs)
  have hlast : matC D obs *ᵥ (fun i => D.svdC obs.length (matC D obs) i 8) = 0 :=
    svd_last_kernel hsvd (vec9_ne_zero hE0) hker
  obtain ⟨S, hS⟩ := kernel_of_matC hlast
  obtain ⟨c, hc⟩ := huE _ S hS
  have hc0 : c ≠ 0 := by
    intro h
    rw [h, zero_smul] at hc
    exact svd_col_ne_zero hsvd 8 (unvec_eq_zero hc)
  have hess : essential D obs = c • (R.transpose * skew t) := hc
  obtain ⟨ra, rb, hab⟩ := rotations_spec hD hR ht hc0
  rw [← hess] at ra rb hab
  -- the two fits
  have h3 : 3 ≤ obs.length := by omega
  have hfit : fit D R obs = 0 := fit_of_solution hD h3 hg3 ((matT_mulVec R hR t obs).2 hex)
  have htr : translation D R obs = t :=
    (huP R _ hR ((matT_mulVec R hR _ obs).1 (fit_eq_zero.1 hfit))).2
  have hother : ∀ Q, IsRot Q → Q ≠ R → 0 < fit D Q obs := by
    intro Q hQ hne
    rcases (fit_nonneg D Q obs).lt_or_eq with h | h
    · exact h
    · exact absurd (huP Q _ hQ ((matT_mulVec Q hQ _ obs).1 (fit_eq_zero.1 h.symm))).1 hne
  unfold seventeenpt
  rw [if_neg (by omega)]
  simp only
  rcases hab with ⟨ha, hb⟩ | ⟨hb, ha⟩
  · rw [if_pos (by rw [ha, hfit]; exact hother _ rb hb), ha, htr]
  · rw [if_neg (by rw [hb, hfit, not_lt]; exact fit_nonneg _ _ _), hb, htr]

/-- All hypotheses hold for seventeen concrete correspondences. -/
example : (∃ D, SvdOk D) ∧ ∀ D, SvdOk D → seventeenpt D exObs = some (![1, 0, 0], 1) := by
  refine ⟨exists_svdDeps, fun D hD => ?_⟩
  refine C62_exact D hD exObs (by rw [exObs_length]; norm_num) 1 ⟨by simp, by simp⟩ _ ?_
    exObs_coplanar ?_ (fun Q s hQ h => exObs_pose hQ h) ?_ ?_
  · intro h
    have := congrFun h 0
    simp at this
  · intro F S h
    refine ⟨-S 0 0, ?_⟩
    rw [transpose_one, Matrix.one_mul]
    conv_lhs => rw [(exObs_unique h).1]
    simp
  · exact fun i => .inr (exObs_svd9 (hD.svd9 17 (by norm_num) (matR exObs)) i)
  · exact fun i => .inr (exObs_svd3 (hD.svd3 17 (by norm_num) (matT 1 exObs)) i)

/-- **C62 (central cameras).** When all camera offsets are zero, the translation returned is zero for
every input, whatever the true motion, and the second of the two rotations is returned without
looking at the data. -/
theorem C62_central (D : SvdDeps) (obs : List RelObs) (hn : 9 ≤ obs.length)
    (h0 : ∀ o ∈ obs, o.off1 = 0 ∧ o.off2 = 0) :
    seventeenpt D obs = some (0, (rotations D (essential D obs)).2) := by
  have hv : ∀ R, vecT R obs = 0 := by
    intro R
    funext i
    obtain ⟨h1, h2⟩ := h0 obs[i] (List.getElem_mem i.2)
    have e1 : mom1 obs[i] = 0 := by rw [mom1, h1]; simp
    have e2 : mom2 obs[i] = 0 := by rw [mom2, h2]; simp
    show rhsT R obs[i] = 0
    rw [rhsT, e1, e2]
    simp
  have ht : ∀ R, translation D R obs = 0 := by
    intro R
    simp only [translation, hv, mulVec_zero]
  have hf : ∀ R, fit D R obs = 0 := by
    intro R
    rw [fit_eq_zero, ht, hv, mulVec_zero]
  unfold seventeenpt
  rw [if_neg (by omega)]
  simp only [hf, ht, lt_irrefl, if_false]

/-- Nine points seen by a central camera that moved along the x-axis. -/
example : ∃ obs : List RelObs, 9 ≤ obs.length ∧ (∀ o ∈ obs, o.off1 = 0 ∧ o.off2 = 0) ∧
    ∀ o ∈ obs, LinesCoplanar 1 ![1, 0, 0] o :=
  ⟨List.replicate 9 ⟨![1, 0, 1], ![0, 0, 1], 0, 1, 0, 1⟩, by simp, by simp, by
    intro o ho
    rw [List.eq_of_mem_replicate ho]
    simp [LinesCoplanar, cross_apply]⟩

end OpenGV.Props
