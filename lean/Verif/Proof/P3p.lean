import Verif.Model.P3p
import Verif.Proof.Arun
import Verif.Proof.SacProblems
import Verif.Proof.Triangulation
import Mathlib.Tactic.LinearCombination

/-!
# Helper lemmas for P2P and P3P
-/

namespace OpenGV

open Matrix

/-! ### Frames -/

theorem rows_isRot {a e : Vec3} (ha : a ⬝ᵥ a = 1) (he : e ⬝ᵥ e = 1) (hae : a ⬝ᵥ e = 0) :
    IsRot (Matrix.of ![a, crossProduct e a, e]) := by
  have h1 : crossProduct e a ⬝ᵥ crossProduct e a = 1 := by
    rw [← lagrange, ha, he, dotProduct_comm, hae]; ring
  have hT : (Matrix.of ![a, crossProduct e a, e] : Mat3) *
      (Matrix.of ![a, crossProduct e a, e] : Mat3).transpose = 1 := by
    rw [dot3] at ha he hae h1
    simp only [cross_apply, Matrix.cons_val] at h1
    apply mat3_ext <;> rw [mul3] <;> simp [cross_apply]
    all_goals linarith
  refine ⟨mul_eq_one_comm.1 hT, ?_⟩
  rw [det_fin_three]
  rw [← lagrange] at h1
  rw [dot3] at ha he hae
  simp only [of_apply, cons_val, cross_apply]
  have e1 : e 0 ^ 2 + e 1 ^ 2 + e 2 ^ 2 = 1 := by linarith
  have a1 : a 0 ^ 2 + a 1 ^ 2 + a 2 ^ 2 = 1 := by linarith
  linear_combination (e 0 ^ 2 + e 1 ^ 2 + e 2 ^ 2) * a1 + e1 -
    (a 0 * e 0 + a 1 * e 1 + a 2 * e 2) * hae

structure FrameSpec (a b : Vec3) (T : Mat3) : Prop where
  rot : IsRot T
  ne : crossProduct a b ≠ 0
  row0 : T 0 = a
  row2 : T 2 = (norm3 (crossProduct a b))⁻¹ • crossProduct a b
  fst : T *ᵥ a = ![1, 0, 0]
  snd : T *ᵥ b = ![a ⬝ᵥ b, norm3 (crossProduct a b), 0]

theorem frameOf_spec {a b : Vec3} {T : Mat3} (ha : a ⬝ᵥ a = 1) (h : frameOf a b = some T) :
    FrameSpec a b T := by
  unfold frameOf at h
  obtain ⟨e, he, hT⟩ := Option.map_eq_some_iff.1 h
  obtain ⟨hne, he', he1⟩ := normalize3_eq_some he
  have hn := (norm3_pos hne).ne'
  have hae : a ⬝ᵥ e = 0 := by
    rw [he', dotProduct_smul, dot_self_cross, smul_zero]
  have hbe : b ⬝ᵥ e = 0 := by
    rw [he', dotProduct_smul, dot_cross_self, smul_zero]
  have hsec : crossProduct e a ⬝ᵥ b = norm3 (crossProduct a b) := by
    have h1 : crossProduct e a ⬝ᵥ b = e ⬝ᵥ crossProduct a b := by
      simp only [dot3, cross_apply, cons_val]; ring
    rw [h1, he', smul_dotProduct, ← norm3_sq, smul_eq_mul]
    field_simp
  have hrot := rows_isRot ha he1 hae
  rw [hT] at hrot
  refine ⟨hrot, hne, by rw [← hT]; rfl, by rw [← hT]; exact he', ?_, ?_⟩
  · rw [← hT]
    apply ext3
    · exact ha
    · show crossProduct e a ⬝ᵥ a = 0
      rw [dotProduct_comm, dot_cross_self]
    · show e ⬝ᵥ a = 0
      rw [dotProduct_comm]; exact hae
  · rw [← hT]
    apply ext3
    · rfl
    · exact hsec
    · show e ⬝ᵥ b = 0
      rw [dotProduct_comm]; exact hbe

theorem frameOf_some {a b : Vec3} (h : crossProduct a b ≠ 0) : ∃ T, frameOf a b = some T := by
  obtain ⟨r, hr⟩ := normalize3_isSome h
  exact ⟨_, by rw [frameOf, hr]; rfl⟩

theorem norm_cross_unit {a b : Vec3} (ha : a ⬝ᵥ a = 1) (hb : b ⬝ᵥ b = 1) :
    norm3 (crossProduct a b) ^ 2 = 1 - (a ⬝ᵥ b) ^ 2 := by
  rw [norm3_sq, ← lagrange, ha, hb, one_mul]

theorem cotOf_mul {a b : Vec3} (ha : a ⬝ᵥ a = 1) (hb : b ⬝ᵥ b = 1)
    (hne : crossProduct a b ≠ 0) : norm3 (crossProduct a b) * cotOf (a ⬝ᵥ b) = a ⬝ᵥ b := by
  have hs := norm3_pos hne
  have h2 := norm_cross_unit ha hb
  set s := norm3 (crossProduct a b)
  set c := a ⬝ᵥ b
  have hb : 1 / (1 - c ^ 2) - 1 = (c / s) ^ 2 := by
    rw [← h2]; field_simp; linarith
  unfold cotOf
  simp only [hb]
  split
  · rename_i hc
    rw [Real.sqrt_sq_eq_abs, abs_div, abs_of_neg hc, abs_of_pos hs]
    field_simp
  · rename_i hc
    rw [Real.sqrt_sq_eq_abs, abs_div, abs_of_nonneg (not_lt.1 hc), abs_of_pos hs]
    field_simp

/-! ### P2P -/

theorem rot_mulVec_transpose {R : Mat3} (hR : R.transpose * R = 1) (v : Vec3) :
    R *ᵥ (R.transpose *ᵥ v) = v := by
  rw [mulVec_mulVec, rot_mul_transpose hR, one_mulVec]

theorem rot_transpose_mulVec {R : Mat3} (hR : R.transpose * R = 1) (v : Vec3) :
    R.transpose *ᵥ (R *ᵥ v) = v := by
  rw [mulVec_mulVec, hR, one_mulVec]

theorem p2pNormal_spec {n v : Vec3} (h : p2pNormal n = some v) : n ⬝ᵥ v = 0 ∧ v ≠ 0 := by
  unfold p2pNormal at h
  split_ifs at h with h1 h2 h3
  · have h0 : n 0 ≠ 0 := fun e => by
      have := h1.1; rw [e, abs_zero] at this; exact absurd this (not_lt.2 (abs_nonneg _))
    cases h
    refine ⟨?_, fun e => by simpa using congrFun e 1⟩
    rw [dot3]; simp; field_simp; ring
  · have h0 : n 1 ≠ 0 := fun e => by
      have := h2.1; rw [e, abs_zero] at this; exact absurd this (not_lt.2 (abs_nonneg _))
    cases h
    refine ⟨?_, fun e => by simpa using congrFun e 2⟩
    rw [dot3]; simp; field_simp; ring
  · cases h
    refine ⟨?_, fun e => by simpa using congrFun e 0⟩
    rw [dot3]; simp; field_simp; ring

/-- The tie on which `p2p` divides by zero. -/
theorem p2pNormal_none {n : Vec3} : p2pNormal n = none ↔ |n 0| = |n 1| ∧ n 2 = 0 := by
  unfold p2pNormal
  split_ifs with h1 h2 h3
  · simp only [false_iff]
    rintro ⟨e, -⟩
    exact absurd h1.1 (by rw [e]; exact lt_irrefl _)
  · simp only [false_iff]
    rintro ⟨e, -⟩
    exact absurd h2.1 (by rw [e]; exact lt_irrefl _)
  · simp only [true_iff, h3, and_true, abs_zero] at h1 h2 ⊢
    by_contra hne
    rcases lt_or_gt_of_ne hne with h | h
    · exact h2 ⟨h, (abs_nonneg _).trans_lt h⟩
    · exact h1 ⟨h, (abs_nonneg _).trans_lt h⟩
  · simp [h3]

theorem p2pNormal_smul {n : Vec3} {c : ℝ} (hc : 0 < c) :
    p2pNormal (c • n) = none ↔ p2pNormal n = none := by
  rw [p2pNormal_none, p2pNormal_none]
  simp [abs_mul, hc.ne', abs_of_pos hc]

theorem p2pRaw_exact {R : Mat3} (hR : IsRot R) {f0 f1 P0 P1 t : Vec3} {l0 l1 : ℝ}
    (h0 : f0 ⬝ᵥ f0 = 1) (h1 : f1 ⬝ᵥ f1 = 1) (hne : crossProduct f0 f1 ≠ 0)
    (e0 : P0 = t + l0 • (R *ᵥ f0)) (e1 : P1 = t + l1 • (R *ᵥ f1)) (hP : P0 ≠ P1)
    (htie : ¬(|(P1 - P0) 0| = |(P1 - P0) 1| ∧ (P1 - P0) 2 = 0)) :
    p2pRaw R f0 f1 P0 P1 = some t := by
  obtain ⟨T, hT⟩ := frameOf_some hne
  have sT := frameOf_spec h0 hT
  have hd : P1 - P0 ≠ 0 := sub_ne_zero.2 hP.symm
  obtain ⟨n1, hn1⟩ := normalize3_isSome hd
  obtain ⟨-, en1, un1⟩ := normalize3_eq_some hn1
  have hdpos := norm3_pos hd
  obtain ⟨v, hv⟩ : ∃ v, p2pNormal n1 = some v := by
    rw [← Option.ne_none_iff_exists']
    rw [en1]
    intro h
    rw [p2pNormal_smul (inv_pos.2 hdpos), p2pNormal_none] at h
    exact htie h
  obtain ⟨hv0, hv1⟩ := p2pNormal_spec hv
  obtain ⟨n3, hn3⟩ := normalize3_isSome hv1
  obtain ⟨-, en3, un3⟩ := normalize3_eq_some hn3
  have hn13 : n1 ⬝ᵥ n3 = 0 := by rw [en3, dotProduct_smul, hv0, smul_zero]
  have hN := rows_isRot un1 un3 hn13
  have hc : ¬(1 - (f0 ⬝ᵥ f1) ^ 2 < 0) := by
    rw [← norm_cross_unit h0 h1]; exact not_lt.2 (sq_nonneg _)
  unfold p2pRaw
  simp only [hT, hn1, hv, hn3, Option.bind_eq_bind, Option.bind_some, if_neg hc]
  set N : Mat3 := Matrix.of ![n1, crossProduct n3 n1, n3] with eN
  set Q : Mat3 := T * R.transpose * N.transpose with eQ
  -- the first row of `Q` is the first bearing vector in the frame of the points
  have hQ0 : N.transpose *ᵥ Q 0 = R *ᵥ f0 := by
    have a1 : Q 0 = N *ᵥ (R *ᵥ f0) := by
      have a2 : Q = (N * R * T.transpose).transpose := by
        rw [eQ, transpose_mul, transpose_mul, transpose_transpose, Matrix.mul_assoc]
      funext i
      have : Q 0 i = (N * R * T.transpose) i 0 := by rw [a2]; rfl
      rw [this, mul3]
      have : ∀ j, T.transpose j 0 = f0 j := fun j => by rw [transpose_apply, sT.row0]
      rw [this, this, this, mulVec_mulVec, mulVec3]
    rw [a1, rot_transpose_mulVec hN.1]
  have hcol : ∀ i, Q i 0 = (T *ᵥ (R.transpose *ᵥ n1)) i := by
    intro i
    rw [eQ, mul3, mulVec_mulVec, mulVec3]
    rfl
  have hd1 : norm3 (P1 - P0) • n1 = P1 - P0 := by
    rw [en1, smul_smul, mul_inv_cancel₀ hdpos.ne', one_smul]
  have hRn : norm3 (P1 - P0) • (T *ᵥ (R.transpose *ᵥ n1)) =
      l1 • (T *ᵥ f1) - l0 • (T *ᵥ f0) := by
    rw [← mulVec_smul, ← mulVec_smul, hd1, e0, e1]
    have : t + l1 • R *ᵥ f1 - (t + l0 • R *ᵥ f0) = R *ᵥ (l1 • f1 - l0 • f0) := by
      rw [mulVec_sub, mulVec_smul, mulVec_smul]; abel
    rw [this, rot_transpose_mulVec hR.1, mulVec_sub, mulVec_smul, mulVec_smul]
  rw [sT.fst, sT.snd] at hRn
  have hr0 := congrFun hRn 0
  have hr1 := congrFun hRn 1
  simp only [Pi.smul_apply, Pi.sub_apply, smul_eq_mul, cons_val, mul_one, mul_zero, sub_zero] at hr0 hr1
  have hcot := cotOf_mul h0 h1 hne
  have htemp : norm3 (P1 - P0) * (Q 1 0 * cotOf (f0 ⬝ᵥ f1) - Q 0 0) = l0 := by
    rw [hcol, hcol]
    linear_combination cotOf (f0 ⬝ᵥ f1) * hr1 - hr0 + l1 * hcot
  rw [htemp, mulVec_smul, hQ0, e0]
  simp

end OpenGV
