import Verif.Proof.SevenPointExample
import Verif.Props.SacProblems

/-!
# Properties of the linear relative pose solvers (C33-C36) and of the central relative pose
problem (C53)

`skew t * R` is the essential matrix of the relative pose `(t, R)`.
-/

namespace OpenGV.Props

open Matrix OpenGV.Spec

/-! ## Two correspondences, known rotation -/

/-- **C33 (any input).** The result is undefined exactly when the two normals are dependent; a
result has unit length, is orthogonal to both normals, and does not point against the flow of the
first correspondence. -/
theorem C33_any_input (R : Mat3) (c d : Vec3 × Vec3) :
    (twopt R true c d = none ↔
      crossProduct (crossProduct c.1 (R *ᵥ c.2)) (crossProduct d.1 (R *ᵥ d.2)) = 0) ∧
    (∀ t, twopt R true c d = some t → t ⬝ᵥ t = 1 ∧
      t ⬝ᵥ crossProduct c.1 (R *ᵥ c.2) = 0 ∧ t ⬝ᵥ crossProduct d.1 (R *ᵥ d.2) = 0 ∧
      0 ≤ (c.1 - R *ᵥ c.2) ⬝ᵥ t) ∧
    twopt R false (c.1, R *ᵥ c.2) (d.1, R *ᵥ d.2) = twopt R true c d := by
  refine ⟨?_, ?_, by simp [twopt]⟩
  · unfold twopt
    simp only [if_true]
    cases h : normalize3 (crossProduct (crossProduct c.1 (R *ᵥ c.2))
        (crossProduct d.1 (R *ᵥ d.2))) with
    | none =>
      simp only [true_iff]
      by_contra hne
      obtain ⟨r, hr⟩ := normalize3_isSome hne
      rw [h] at hr
      simp at hr
    | some r => simp [(normalize3_eq_some h).1]
  · intro t ht
    unfold twopt at ht
    simp only [if_true] at ht
    cases h : normalize3 (crossProduct (crossProduct c.1 (R *ᵥ c.2))
        (crossProduct d.1 (R *ᵥ d.2))) with
    | none => simp [h] at ht
    | some r =>
      simp only [h, Option.some.injEq] at ht
      obtain ⟨_, hr, hu⟩ := normalize3_eq_some h
      have o1 : r ⬝ᵥ crossProduct c.1 (R *ᵥ c.2) = 0 := by
        rw [hr, smul_dotProduct, dotProduct_comm, dot_self_cross, smul_zero]
      have o2 : r ⬝ᵥ crossProduct d.1 (R *ᵥ d.2) = 0 := by
        rw [hr, smul_dotProduct, dotProduct_comm, dot_cross_self, smul_zero]
      subst ht
      split
      · rename_i hneg
        refine ⟨by simpa using hu, by simp [o1], by simp [o2], ?_⟩
        rw [dotProduct_neg]; linarith
      · rename_i hneg
        exact ⟨hu, o1, o2, not_lt.1 hneg⟩

/-- **C33 (exact recovery).** For two points seen in front of both frames, with unit bearing vectors
and independent epipolar planes, the result is the direction of the true translation, including
its sign. -/
theorem C33_exact_recovery (R : Mat3) (t : Vec3) (c d : Vec3 × Vec3) (a b a' b' : ℝ)
    (hR : R.transpose * R = 1) (hc1 : c.1 ⬝ᵥ c.1 = 1) (hc2 : c.2 ⬝ᵥ c.2 = 1)
    (ha : 0 < a) (hb : 0 < b) (hb' : 0 < b')
    (hc : a • c.1 = t + b • (R *ᵥ c.2)) (hd : a' • d.1 = t + b' • (R *ᵥ d.2))
    (hn : crossProduct (crossProduct t c.1) (crossProduct t d.1) ≠ 0) :
    twopt R true c d = some ((norm3 t)⁻¹ • t) := by
  have ht : t ≠ 0 := by rintro rfl; simp at hn
  have n1 : crossProduct c.1 (R *ᵥ c.2) = b⁻¹ • crossProduct t c.1 := by
    have e : t = a • c.1 - b • (R *ᵥ c.2) := by rw [hc]; abel
    rw [e]
    simp only [map_sub, map_smul, LinearMap.sub_apply, LinearMap.smul_apply, cross_self, smul_zero,
      zero_sub, ← smul_neg, cross_anticomm]
    rw [smul_smul, inv_mul_cancel₀ hb.ne', one_smul]
  have n2 : crossProduct d.1 (R *ᵥ d.2) = b'⁻¹ • crossProduct t d.1 := by
    have e : t = a' • d.1 - b' • (R *ᵥ d.2) := by rw [hd]; abel
    rw [e]
    simp only [map_sub, map_smul, LinearMap.sub_apply, LinearMap.smul_apply, cross_self, smul_zero,
      zero_sub, ← smul_neg, cross_anticomm]
    rw [smul_smul, inv_mul_cancel₀ hb'.ne', one_smul]
  rw [cross_cross_left] at hn
  set κ := t ⬝ᵥ crossProduct c.1 d.1 with hκ
  have hκ0 : κ ≠ 0 := by rintro e; rw [e, zero_smul] at hn; exact hn rfl
  have nn : crossProduct (crossProduct c.1 (R *ᵥ c.2)) (crossProduct d.1 (R *ᵥ d.2)) =
      (b⁻¹ * b'⁻¹ * κ) • t := by
    rw [n1, n2]
    simp only [map_smul, LinearMap.smul_apply, cross_cross_left, smul_smul]
    rw [← hκ]; congr 1; ring
  have hg : (R *ᵥ c.2) ⬝ᵥ (R *ᵥ c.2) = 1 := by rw [rot_dot hR, hc2]
  have hflow := flow_dot hc1 hg hc
  have hlt : c.1 ⬝ᵥ (R *ᵥ c.2) < 1 := by
    refine lt_of_le_of_ne (unit_dot_bounds hc1 hg).2 fun e => ?_
    have := (unit_dot_eq_one hc1 hg).1 e
    rw [← this, cross_self] at nn
    have h0 : (b⁻¹ * b'⁻¹ * κ) • t = 0 := by rw [← nn]; simp
    rcases smul_eq_zero.1 h0 with h0 | h0
    · exact mul_ne_zero (mul_ne_zero (inv_ne_zero hb.ne') (inv_ne_zero hb'.ne')) hκ0 h0
    · exact ht h0
  have hpos : 0 < (c.1 - R *ᵥ c.2) ⬝ᵥ t := by
    rw [hflow]; exact mul_pos (by linarith) (by linarith)
  have hcoef : b⁻¹ * b'⁻¹ * κ ≠ 0 :=
    mul_ne_zero (mul_ne_zero (inv_ne_zero hb.ne') (inv_ne_zero hb'.ne')) hκ0
  have hnt := norm3_pos ht
  unfold twopt
  simp only [if_true]
  rw [nn, normalize3_smul_of_neg hcoef ht]
  simp only
  rcases lt_or_gt_of_ne hcoef with hs | hs
  · rw [abs_of_neg hs, inv_neg, neg_mul, inv_mul_cancel₀ hcoef, neg_one_smul, dotProduct_neg,
      dotProduct_smul, smul_eq_mul, if_pos (by
        have := mul_pos (inv_pos.2 hnt) hpos
        linarith), neg_neg]
  · rw [abs_of_pos hs, inv_mul_cancel₀ hcoef, one_smul, dotProduct_smul, smul_eq_mul, if_neg (by
        have := mul_pos (inv_pos.2 hnt) hpos
        linarith)]

/- Points `(0,0,1)` and `(0,1,0)`, the second camera at `(1,0,0)`. -/
example : ∃ (t : Vec3) (c d : Vec3 × Vec3) (a b a' b' : ℝ), c.1 ⬝ᵥ c.1 = 1 ∧ c.2 ⬝ᵥ c.2 = 1 ∧
    0 < a ∧ 0 < b ∧ 0 < b' ∧ a • c.1 = t + b • ((1 : Mat3) *ᵥ c.2) ∧
    a' • d.1 = t + b' • ((1 : Mat3) *ᵥ d.2) ∧
    crossProduct (crossProduct t c.1) (crossProduct t d.1) ≠ 0 := by
  refine ⟨![3, 0, 0], (![0, 0, 1], ![-(3/5), 0, 4/5]), (![0, 1, 0], ![-3, 1, 0]), 4, 5, 1, 1,
    by simp, by simp [dot3]; norm_num, by norm_num, by norm_num, by norm_num, ?_, ?_, ?_⟩
  · apply ext3 <;> simp <;> norm_num
  · apply ext3 <;> simp
  · intro h
    have := congrFun h 0
    simp [cross_apply] at this

/-! ## Decomposition of an essential matrix -/

/-- **C34 (rotations).** Whatever matrix is decomposed, all four candidates have proper rotation
matrices. -/
theorem C34_rotations (svd : Mat3 → Mat3 × Mat3 × Vec3) (E : Mat3)
    (h : IsSvd E (svd E).1 (svd E).2.1 (svd E).2.2) : ∀ P ∈ candidates svd E, IsRot P.2 := by
  have o1 := fixSign_isRot (orth_mul (orth_mul h.orthU wMat_orth) (orth_transpose h.orthV))
  have o2 := fixSign_isRot
    (orth_mul (orth_mul h.orthU (orth_transpose wMat_orth)) (orth_transpose h.orthV))
  intro P hP
  simp only [candidates, List.mem_cons, List.not_mem_nil, or_false] at hP
  rcases hP with rfl | rfl | rfl | rfl <;> assumption

/-- **C34 (essential matrices).** For the essential matrix of a relative pose `(t, R)` with non-zero
translation, and every singular value decomposition of it, all four candidates have the true
translation up to sign and the same essential matrix up to sign, and the true pose is one of them. -/
theorem C34_true_pose_among (svd : Mat3 → Mat3 × Mat3 × Vec3) (t : Vec3) (R : Mat3) (hR : IsRot R)
    (ht : t ≠ 0)
    (h : IsSvd (skew t * R) (svd (skew t * R)).1 (svd (skew t * R)).2.1 (svd (skew t * R)).2.2) :
    (t, R) ∈ candidates svd (skew t * R) ∧ (-t, R) ∈ candidates svd (skew t * R) ∧
    ∀ P ∈ candidates svd (skew t * R), (P.1 = t ∨ P.1 = -t) ∧ IsRot P.2 ∧
      (skew P.1 * P.2 = skew t * R ∨ skew P.1 * P.2 = -(skew t * R)) := by
  have hrot := C34_rotations svd (skew t * R) h
  obtain ⟨p1, p2⟩ := candidate_products hR ht h
  obtain ⟨s0, s1, s2⟩ := essential_sigma hR ht h
  have hnull := essential_left_null hR ht h
  have hc := candidates_eq svd (skew t * R)
  generalize hU : (svd (skew t * R)).1 = U at *
  generalize hV : (svd (skew t * R)).2.1 = V at *
  generalize hσ : (svd (skew t * R)).2.2 = σ at *
  rw [s0] at hc p1 p2
  set ta : Vec3 := fun i => norm3 t * U i 2 with hta
  set Ra := fixSign (U * wMat * V.transpose) with hRa
  set Rb := fixSign (U * wMat.transpose * V.transpose) with hRb
  have ra : IsRot Ra := hrot (ta, Ra) (by rw [hc]; simp)
  have rb : IsRot Rb := hrot (ta, Rb) (by rw [hc]; simp)
  have hmem : ∀ (x : Vec3) (Q : Mat3), (x = ta ∨ x = -ta) → (Q = Ra ∨ Q = Rb) →
      (x, Q) ∈ candidates svd (skew t * R) := by
    intro x Q hx hQ
    rw [hc]
    rcases hx with rfl | rfl <;> rcases hQ with rfl | rfl <;> simp
  have htm : t = ta ∨ t = -ta := hnull
  have htm' : -t = ta ∨ -t = -ta := by
    rcases htm with e | e
    · right; rw [e]
    · left; rw [e, neg_neg]
  have hQ : R = Ra ∨ R = Rb := by
    have hd := orth_det h.orthV
    have ea : skew t * Ra = skew t * R ∨ skew t * Rb = skew t * R := by
      rcases htm with e | e <;> rcases hd with d | d
      · right; rw [d, one_smul, ← e] at p2; exact p2
      · left; rw [d, neg_neg, one_smul, ← e] at p1; exact p1
      · left
        rw [d, neg_one_smul] at p1
        have : skew t * Ra = -(skew ta * Ra) := by
          conv_lhs => rw [e]
          rw [skew_neg, Matrix.neg_mul]
        rw [this, p1, neg_neg]
      · right
        rw [d, neg_one_smul] at p2
        have : skew t * Rb = -(skew ta * Rb) := by
          conv_lhs => rw [e]
          rw [skew_neg, Matrix.neg_mul]
        rw [this, p2, neg_neg]
    rcases ea with e | e
    · left; exact essential_rot_unique hR ra ht e.symm
    · right; exact essential_rot_unique hR rb ht e.symm
  refine ⟨hmem t R htm hQ, hmem (-t) R htm' hQ, fun P hP => ?_⟩
  have hp : (skew ta * Ra = skew t * R ∨ skew ta * Ra = -(skew t * R)) ∧
      (skew ta * Rb = skew t * R ∨ skew ta * Rb = -(skew t * R)) := by
    rcases orth_det h.orthV with d | d
    · rw [d] at p1 p2
      exact ⟨.inr (by rw [p1, neg_one_smul]), .inl (by rw [p2, one_smul])⟩
    · rw [d] at p1 p2
      exact ⟨.inl (by rw [p1, neg_neg, one_smul]), .inr (by rw [p2, neg_one_smul])⟩
  have hta' : ta = t ∨ ta = -t := by
    rcases htm with e | e
    · left; exact e.symm
    · right; rw [e, neg_neg]
  have hneg : -ta = t ∨ -ta = -t := by
    rcases htm with e | e
    · right; rw [e]
    · left; exact e.symm
  have flip : ∀ Q : Mat3, (skew ta * Q = skew t * R ∨ skew ta * Q = -(skew t * R)) →
      (skew (-ta) * Q = skew t * R ∨ skew (-ta) * Q = -(skew t * R)) := by
    intro Q hQ
    rw [skew_neg, Matrix.neg_mul]
    rcases hQ with e | e
    · right; rw [e]
    · left; rw [e, neg_neg]
  rw [hc] at hP
  simp only [List.mem_cons, List.not_mem_nil, or_false] at hP
  rcases hP with rfl | rfl | rfl | rfl
  · exact ⟨hta', ra, hp.1⟩
  · exact ⟨hta', rb, hp.2⟩
  · exact ⟨hneg, ra, flip _ hp.1⟩
  · exact ⟨hneg, rb, flip _ hp.2⟩

/- The contract on the decomposition can be met for all matrices at once. -/
example : ∃ svd : Mat3 → Mat3 × Mat3 × Vec3, ∀ E, IsSvd E (svd E).1 (svd E).2.1 (svd E).2.2 :=
  exists_svd3

example : IsRot (1 : Mat3) ∧ (![1, 0, 0] : Vec3) ≠ 0 :=
  ⟨⟨by simp, by simp⟩, fun h => by simpa using congrFun h 0⟩

/-! ## Eight points -/

/-- **C35 (rank).** The returned matrix is singular, for any input. -/
theorem C35_singular (V : Matrix (Fin 9) (Fin 9) ℝ) (svd : Mat3 → Mat3 × Mat3 × Vec3) :
    (eightpt V svd).det = 0 := by
  unfold eightpt
  simp only [det_mul]
  rw [det_fin_three (!![_, _, _; _, _, _; _, _, _])]
  simp

/-- **C35 (exact recovery).** If the true essential matrix satisfies all constraints and every other
matrix that does is a multiple of it, the result is a non-zero multiple of it, for every choice of
the singular vectors. -/
theorem C35_exact_recovery (cs : List (Vec3 × Vec3)) (t : Vec3) (R : Mat3) (hR : IsRot R)
    (ht : t ≠ 0) (V : Matrix (Fin 9) (Fin 9) ℝ) (σ : Fin 9 → ℝ)
    (svd : Mat3 → Mat3 × Mat3 × Vec3)
    (hV : IsRightSvd (epipolarA cs) V σ)
    (hsvd : ∀ E, IsSvd E (svd E).1 (svd E).2.1 (svd E).2.2)
    (hE : ∀ c ∈ cs, c.1 ⬝ᵥ ((skew t * R) *ᵥ c.2) = 0)
    (hker : ∀ F : Mat3, (∀ c ∈ cs, c.1 ⬝ᵥ (F *ᵥ c.2) = 0) → ∃ k : ℝ, F = k • (skew t * R)) :
    ∃ k : ℝ, k ≠ 0 ∧ eightpt V svd = k • (skew t * R) := by
  have hE0 : skew t * R ≠ 0 := by
    intro e
    apply ht
    have e2 : skew t = 0 := by
      have := congrArg (fun M => M * R.transpose) e
      simpa only [Matrix.mul_assoc, rot_mul_transpose hR.1, Matrix.mul_one, Matrix.zero_mul]
        using this
    have a0 := congrFun (congrFun e2 2) 1
    have a1 := congrFun (congrFun e2 0) 2
    have a2 := congrFun (congrFun e2 1) 0
    simp [skew] at a0 a1 a2
    apply ext3 <;> simp [a0, a1, a2]
  have k1 : epipolarA cs *ᵥ vec9 (skew t * R) = 0 := by
    rw [epipolarA_mulVec, unvec_vec9]; exact hE
  have k2 := svd_last_kernel hV (vec9_ne_zero hE0) k1
  have hcol := svd_col_ne_zero hV (Fin.last 8)
  rw [show (Fin.last 8 : Fin 9) = 8 from rfl] at k2 hcol
  rw [epipolarA_mulVec] at k2
  obtain ⟨k, hk⟩ := hker _ k2
  have hk0 : k ≠ 0 := by
    rintro rfl
    rw [zero_smul] at hk
    exact hcol (unvec_eq_zero hk)
  refine ⟨k, hk0, ?_⟩
  have hdet : (unvec fun i => V i 8).det = 0 := by
    rw [hk, det_smul, det_mul]
    have : (skew t).det = 0 := by
      rw [det_fin_three]; simp [skew]; ring
    rw [this]; simp
  have hs := hsvd (unvec fun i => V i 8)
  have s2 := svd_sigma2_of_det hs hdet
  unfold eightpt
  simp only
  rw [← hk]
  conv_rhs => rw [hs.eq]
  congr 2
  apply mat3_ext <;> simp [s2]

/-- Eight points seen from the origin and from `(1, 0, 0)`, without rotation. -/
def eightExample : List (Vec3 × Vec3) :=
  [![0, 1, 0], ![0, -1, 0], ![0, 0, 1], ![0, 0, -1], ![0, 1, 1], ![1, 1, 0], ![1, 0, 1],
    ![2, 0, 1]].map fun p => (p, p - ![1, 0, 0])

/- The hypotheses of C35 are met by these correspondences. -/
example : (∀ c ∈ eightExample, c.1 ⬝ᵥ ((skew ![1, 0, 0] * 1) *ᵥ c.2) = 0) ∧
    ∀ F : Mat3, (∀ c ∈ eightExample, c.1 ⬝ᵥ (F *ᵥ c.2) = 0) →
      ∃ k : ℝ, F = k • (skew ![1, 0, 0] * 1) := by
  constructor
  · simp [eightExample, skew, dot3, mulVec3]
  · intro F h
    simp [eightExample, dot3, mulVec3] at h
    obtain ⟨h1, h2, h3, h4, h5, h6, h7, h8⟩ := h
    refine ⟨F 2 1, ?_⟩
    rw [Matrix.mul_one]
    apply mat3_ext <;> simp [skew] <;> linarith

/-! ## Seven points -/

/-- **C36 (constraints).** Every matrix returned for seven correspondences satisfies all seven
epipolar constraints. One or three matrices are returned. -/
theorem C36_constraints (cs : List (Vec3 × Vec3)) (hcs : cs.length = 7)
    (V : Matrix (Fin 9) (Fin 9) ℝ) (σ : Fin 9 → ℝ) (eig : Mat3 → Fin 3 → ℂ)
    (hV : IsRightSvd (epipolarA cs) V σ) (Es : List Mat3)
    (h : sevenpt cs.length V eig = some Es) :
    (Es.length = 1 ∨ Es.length = 3) ∧ ∀ E ∈ Es, ∀ c ∈ cs, c.1 ⬝ᵥ (E *ᵥ c.2) = 0 := by
  have k8 : ∀ c ∈ cs, c.1 ⬝ᵥ ((unvec fun i => V i 8) *ᵥ c.2) = 0 :=
    (epipolarA_mulVec cs _).1 (svd_kernel_wide hV 8 (by rw [hcs]; decide))
  have k7 : ∀ c ∈ cs, c.1 ⬝ᵥ ((unvec fun i => V i 7) *ᵥ c.2) = 0 :=
    (epipolarA_mulVec cs _).1 (svd_kernel_wide hV 7 (by rw [hcs]; decide))
  have comb : ∀ x : ℝ, ∀ c ∈ cs,
      c.1 ⬝ᵥ (((unvec fun i => V i 8) - x • (unvec fun i => V i 7)) *ᵥ c.2) = 0 := by
    intro x c hc
    rw [sub_mulVec, smul_mulVec, dotProduct_sub, dotProduct_smul, k8 c hc, k7 c hc]
    simp
  unfold sevenpt sevenptFrom at h
  split at h
  · cases h; simpa using k8
  · split at h
    · cases h
    · simp only at h
      split at h
      · cases h
        refine ⟨.inr rfl, ?_⟩
        intro E hE
        simp only [List.mem_cons, List.not_mem_nil, or_false] at hE
        rcases hE with rfl | rfl | rfl <;> exact comb _
      · cases h
        refine ⟨.inl rfl, ?_⟩
        intro E hE
        simp only [List.mem_cons, List.not_mem_nil, or_false] at hE
        rcases hE with rfl
        exact comb _

/-- **C36 (singular).** Unless the shortcut for a (nearly) singular first matrix is taken, every
returned matrix is singular, when every non-real root of the determinant of the pencil has an
imaginary part of at least the tolerance. -/
theorem C36_singular (n : ℕ) (V : Matrix (Fin 9) (Fin 9) ℝ) (eig : Mat3 → Fin 3 → ℂ)
    (heig : ∀ M, IsEigenvalues M (eig M)) (hn : n ≤ 7)
    (hF1 : (1 / 100000000 : ℝ) ≤ |(unvec fun i => V i 8).det|)
    (him : ∀ z : ℂ, ((unvec fun i => V i 8).map (fun x => (x : ℂ)) -
      z • (unvec fun i => V i 7).map (fun x => (x : ℂ))).det = 0 →
        z.im = 0 ∨ (1 / 100000000 : ℝ) ≤ |z.im|)
    (Es : List Mat3) (h : sevenpt n V eig = some Es) : ∀ E ∈ Es, E.det = 0 := by
  unfold sevenpt sevenptFrom at h
  rw [if_neg (by rw [not_or, sevenEps, not_lt]; exact ⟨hF1, by omega⟩)] at h
  split at h
  · cases h
  · rename_i h2
    simp only at h
    generalize (unvec fun i => V i 8) = F1 at *
    generalize (unvec fun i => V i 7) = F2 at *
    have he := heig (((F2.det)⁻¹ • F2.adjugate) * F1)
    have hi : ∀ i, (eig (((F2.det)⁻¹ • F2.adjugate) * F1) i).im = 0 ∨
        (1 / 100000000 : ℝ) ≤ |(eig (((F2.det)⁻¹ • F2.adjugate) * F1) i).im| := by
      intro i
      apply him
      rw [pencil_det_complex h2, he, Finset.prod_eq_zero (Finset.mem_univ i) (sub_self _), mul_zero]
    have hdet : ∀ i, (eig (((F2.det)⁻¹ • F2.adjugate) * F1) i).im = 0 →
        (F1 - (eig (((F2.det)⁻¹ • F2.adjugate) * F1) i).re • F2).det = 0 := by
      intro i h0
      rw [pencil_det h2, (eigen_real he _).2 ⟨i, Complex.ext rfl (by simpa using h0)⟩, mul_zero]
    generalize eig (((F2.det)⁻¹ • F2.adjugate) * F1) = D at *
    split at h
    · rename_i hsm
      have hall : ∀ i, (D i).im = 0 := by
        intro i
        rcases hi i with hi | hi
        · exact hi
        · exfalso
          simp only [sevenEps] at hsm
          fin_cases i
          · exact absurd hsm.1 (not_lt.2 hi)
          · exact absurd hsm.2.1 (not_lt.2 hi)
          · exact absurd hsm.2.2 (not_lt.2 hi)
      cases h
      intro E hE
      simp only [List.mem_cons, List.not_mem_nil, or_false] at hE
      rcases hE with rfl | rfl | rfl <;> exact hdet _ (hall _)
    · cases h
      intro E hE
      simp only [List.mem_cons, List.not_mem_nil, or_false] at hE
      subst hE
      apply hdet
      obtain ⟨i, hi0⟩ := eigen_exists_real he
      have hmin := sevenpt_minIndex (fun i => |(D i).im|) i
      simp only [hi0, abs_zero] at hmin
      exact abs_nonpos_iff.1 hmin

/-- **C36 (completeness).** Suppose the space of matrices satisfying the seven constraints has
dimension at most two, and the shortcut is not taken. Then every singular matrix satisfying the
constraints is returned up to scale, unless it is a multiple of the second null space matrix. -/
theorem C36_complete (cs : List (Vec3 × Vec3)) (hcs : cs.length = 7)
    (V : Matrix (Fin 9) (Fin 9) ℝ) (σ : Fin 9 → ℝ) (eig : Mat3 → Fin 3 → ℂ)
    (hV : IsRightSvd (epipolarA cs) V σ) (heig : ∀ M, IsEigenvalues M (eig M))
    (hF1 : (1 / 100000000 : ℝ) ≤ |(unvec fun i => V i 8).det|)
    (hdim : ∃ N1 N2 : Mat3, ∀ F : Mat3, (∀ c ∈ cs, c.1 ⬝ᵥ (F *ᵥ c.2) = 0) →
      ∃ a b : ℝ, F = a • N1 + b • N2)
    (E : Mat3) (hE : ∀ c ∈ cs, c.1 ⬝ᵥ (E *ᵥ c.2) = 0) (hEd : E.det = 0)
    (hE2 : ¬ ∃ b : ℝ, E = b • (unvec fun i => V i 7)) (Es : List Mat3)
    (h : sevenpt cs.length V eig = some Es) : ∃ k : ℝ, k ≠ 0 ∧ k • E ∈ Es := by
  have k8 : ∀ c ∈ cs, c.1 ⬝ᵥ ((unvec fun i => V i 8) *ᵥ c.2) = 0 :=
    (epipolarA_mulVec cs _).1 (svd_kernel_wide hV 8 (by rw [hcs]; decide))
  have k7 : ∀ c ∈ cs, c.1 ⬝ᵥ ((unvec fun i => V i 7) *ᵥ c.2) = 0 :=
    (epipolarA_mulVec cs _).1 (svd_kernel_wide hV 7 (by rw [hcs]; decide))
  obtain ⟨N1, N2, hN⟩ := hdim
  have hind : ∀ a b : ℝ, a • (unvec fun i => V i 8) + b • (unvec fun i => V i 7) = 0 →
      a = 0 ∧ b = 0 := by
    intro a b hab
    have hv : a • (fun i => V i 8) + b • (fun i => V i 7) = 0 := by
      apply unvec_eq_zero
      rw [← hab]
      apply mat3_ext <;> simp [unvec]
    have o : ∀ j l : Fin 9, (fun i => V i j) ⬝ᵥ (fun i => V i l) = (1 : Matrix _ _ ℝ) j l := by
      intro j l
      rw [← hV.orth]; rfl
    have e8 := congrArg (fun w => (fun i => V i 8) ⬝ᵥ w) hv
    have e7 := congrArg (fun w => (fun i => V i 7) ⬝ᵥ w) hv
    simp only [dotProduct_add, dotProduct_smul, o, dotProduct_zero] at e8 e7
    simp [Matrix.one_apply] at e8 e7
    exact ⟨e8, e7⟩
  obtain ⟨p, q, hE12⟩ : ∃ p q : ℝ, E = p • (unvec fun i => V i 8) + q • (unvec fun i => V i 7) := by
    obtain ⟨a1, b1, e1⟩ := hN _ k8
    obtain ⟨a2, b2, e2⟩ := hN _ k7
    obtain ⟨a, b, e⟩ := hN _ hE
    have hd : a1 * b2 - a2 * b1 ≠ 0 := by
      intro hd
      have h1 := hind b2 (-b1) (by
        rw [e1, e2]
        have : b2 • (a1 • N1 + b1 • N2) + -b1 • (a2 • N1 + b2 • N2) =
          (a1 * b2 - a2 * b1) • N1 := by module
        rw [this, hd, zero_smul])
      have h2 := hind a2 (-a1) (by
        rw [e1, e2]
        have : a2 • (a1 • N1 + b1 • N2) + -a1 • (a2 • N1 + b2 • N2) =
          -(a1 * b2 - a2 * b1) • N2 := by module
        rw [this, hd, neg_zero, zero_smul])
      have h3 := hind 1 0 (by
        rw [e1, show a1 = 0 by linarith [h2.2], show b1 = 0 by linarith [h1.2]]; simp)
      exact one_ne_zero h3.1
    refine ⟨(a * b2 - b * a2) / (a1 * b2 - a2 * b1), (a1 * b - b1 * a) / (a1 * b2 - a2 * b1), ?_⟩
    rw [e1, e2, e]
    have ha : a = (a * b2 - b * a2) / (a1 * b2 - a2 * b1) * a1 +
        (a1 * b - b1 * a) / (a1 * b2 - a2 * b1) * a2 := by
      rw [div_mul_eq_mul_div, div_mul_eq_mul_div, ← add_div, eq_div_iff hd]; ring
    have hb : b = (a * b2 - b * a2) / (a1 * b2 - a2 * b1) * b1 +
        (a1 * b - b1 * a) / (a1 * b2 - a2 * b1) * b2 := by
      rw [div_mul_eq_mul_div, div_mul_eq_mul_div, ← add_div, eq_div_iff hd]; ring
    conv_lhs => rw [ha, hb]
    module
  have hp : p ≠ 0 := by
    rintro rfl
    exact hE2 ⟨q, by rw [hE12]; simp⟩
  refine ⟨p⁻¹, inv_ne_zero hp, ?_⟩
  have hEp : p⁻¹ • E = (unvec fun i => V i 8) - (-(q / p)) • (unvec fun i => V i 7) := by
    rw [hE12, smul_add, smul_smul, smul_smul, inv_mul_cancel₀ hp, one_smul, neg_smul, sub_neg_eq_add]
    congr 2
    field_simp
  unfold sevenpt sevenptFrom at h
  rw [if_neg (by rw [not_or, sevenEps, not_lt]; exact ⟨hF1, by omega⟩)] at h
  split at h
  · cases h
  · rename_i h2
    simp only at h
    clear hind k7 k8 hE12 hE2
    generalize (unvec fun i => V i 8) = F1 at *
    generalize (unvec fun i => V i 7) = F2 at *
    have he := heig (((F2.det)⁻¹ • F2.adjugate) * F1)
    have hd : (F1 - (-(q / p)) • F2).det = 0 := by
      rw [← hEp, det_smul, hEd, mul_zero]
    rw [pencil_det h2] at hd
    obtain ⟨i, hi⟩ := (eigen_real he _).1
      ((mul_eq_zero.1 hd).resolve_left (neg_ne_zero.2 h2))
    generalize eig (((F2.det)⁻¹ • F2.adjugate) * F1) = D at *
    have hre : (D i).re = -(q / p) := by rw [hi]; simp
    have him : (D i).im = 0 := by rw [hi]; simp
    rw [hEp, ← hre]
    split at h
    · cases h
      fin_cases i <;> simp
    · rename_i hsm
      cases h
      have hmin := sevenpt_minIndex (fun i => |(D i).im|) i
      simp only [him, abs_zero] at hmin
      have hm0 := abs_nonpos_iff.1 hmin
      obtain ⟨j, hj⟩ : ∃ j, (D j).im ≠ 0 := by
        by_contra hcon
        simp only [not_exists, not_not] at hcon
        apply hsm
        simp [hcon, sevenEps]
      rw [eigen_unique_real he hj him hm0]
      simp

/- The contract of `EigenSolver` can be met for all matrices at once. -/
example : ∃ eig : Mat3 → Fin 3 → ℂ, ∀ M, IsEigenvalues M (eig M) := exists_eigenvalues_fun 3

/- The hypotheses of C36 are met by seven correspondences. -/
example : ∃ (cs : List (Vec3 × Vec3)) (V : Matrix (Fin 9) (Fin 9) ℝ) (σ : Fin 9 → ℝ) (E : Mat3),
    cs.length = 7 ∧ IsRightSvd (epipolarA cs) V σ ∧
    (1 / 100000000 : ℝ) ≤ |(unvec fun i => V i 8).det| ∧ (unvec fun i => V i 7).det ≠ 0 ∧
    (∀ z : ℂ, ((unvec fun i => V i 8).map (fun x => (x : ℂ)) -
      z • (unvec fun i => V i 7).map (fun x => (x : ℂ))).det = 0 →
        z.im = 0 ∨ (1 / 100000000 : ℝ) ≤ |z.im|) ∧
    (∃ N1 N2 : Mat3, ∀ F : Mat3, (∀ c ∈ cs, c.1 ⬝ᵥ (F *ᵥ c.2) = 0) →
      ∃ a b : ℝ, F = a • N1 + b • N2) ∧
    (∀ c ∈ cs, c.1 ⬝ᵥ (E *ᵥ c.2) = 0) ∧ E.det = 0 ∧
    ¬ ∃ b : ℝ, E = b • (unvec fun i => V i 7) := by
  obtain ⟨V, σ, h1, h8, h7⟩ := sevenExample_svd 1 2 5 (-4) (by norm_num) (by norm_num) (by norm_num)
  refine ⟨sevenExample, V, σ, diagonal ![1, -1, 0], rfl, h1, ?_, ?_, ?_, ?_, ?_, ?_, ?_⟩
  · rw [h8, det_smul, det_diagonal, Fin.prod_univ_three, abs_mul, abs_pow]
    have hs : |(√(1 ^ 2 + 2 ^ 2 + (1 + 2) ^ 2 : ℝ))⁻¹| ≥ 1 / 10 := by
      rw [abs_of_pos (by positivity), ge_iff_le, one_div]
      apply inv_anti₀ (by positivity)
      rw [Real.sqrt_le_left (by norm_num)]
      norm_num
    calc (1 / 100000000 : ℝ) ≤ (1 / 10) ^ 3 * 6 := by norm_num
      _ ≤ _ := by
        apply mul_le_mul _ _ (by norm_num) (by positivity)
        · rw [Fintype.card_fin]
          exact pow_le_pow_left₀ (by norm_num) hs 3
        · simp; norm_num
  · rw [h7, det_smul, det_diagonal, Fin.prod_univ_three]
    refine mul_ne_zero (pow_ne_zero _ (inv_ne_zero (by positivity))) ?_
    simp; norm_num
  · intro z hz
    left
    obtain ⟨n2, hn2, e2⟩ : ∃ n2 : ℝ, n2 ≠ 0 ∧ (√(5 ^ 2 + (-4) ^ 2 + (5 + -4) ^ 2 : ℝ))⁻¹ = n2 :=
      ⟨_, inv_ne_zero (by positivity), rfl⟩
    obtain ⟨n1, e1⟩ : ∃ n1 : ℝ, (√(1 ^ 2 + 2 ^ 2 + (1 + 2) ^ 2 : ℝ))⁻¹ = n1 := ⟨_, rfl⟩
    rw [h8, h7, det_fin_three, e1, e2] at hz
    simp only [Matrix.sub_apply, Matrix.smul_apply, Matrix.map_apply, diagonal_apply] at hz
    simp at hz
    rcases hz with (hz | hz) | hz
    · have := congrArg Complex.im hz
      simp at this
      exact this.resolve_right hn2
    · have := congrArg Complex.im hz
      simp at this
      exact this.resolve_right hn2
    · have := congrArg Complex.im hz
      simp at this
      rcases this with h | h | h
      · exact h
      · exact absurd h hn2
      · norm_num at h
  · exact ⟨diagonal ![1, 0, -1], diagonal ![0, 1, -1], sevenExample_kernel⟩
  · exact sevenExample_sol _ (by simp)
  · simp [det_diagonal, Fin.prod_univ_three]
  · rintro ⟨b, hb⟩
    rw [h7] at hb
    have e2 := congrFun (congrFun hb 2) 2
    have e0 := congrFun (congrFun hb 0) 0
    simp at e2 e0
    rcases e2 with e | e
    · rw [e] at e0; simp at e0
    · norm_num at e

/-- **C36 (lost solutions).** With the shortcut, the true essential matrix can be missing: for some
seven correspondences and some choice of the singular vectors, an essential matrix satisfies all
constraints, but the only returned matrix is not a multiple of it. -/
theorem C36_shortcut_loses_solutions :
    ∃ (cs : List (Vec3 × Vec3)) (V : Matrix (Fin 9) (Fin 9) ℝ) (σ : Fin 9 → ℝ) (t : Vec3)
      (R F : Mat3), cs.length = 7 ∧ IsRightSvd (epipolarA cs) V σ ∧ IsRot R ∧ t ≠ 0 ∧
      (∀ c ∈ cs, c.1 ⬝ᵥ ((skew t * R) *ᵥ c.2) = 0) ∧
      (∀ eig, sevenpt cs.length V eig = some [F]) ∧ ¬ ∃ k : ℝ, skew t * R = k • F := by
  obtain ⟨V, σ, h1, h8, h7⟩ := sevenExample_svd 1 (-1) 1 1 (by norm_num) (by norm_num) (by norm_num)
  refine ⟨sevenExample, V, σ, ![0, -1, 0], !![0, 0, 1; 0, -1, 0; 1, 0, 0], unvec fun i => V i 8,
    rfl, h1, ?_, ?_, ?_, ?_, ?_⟩
  · constructor
    · apply mat3_ext <;> simp [mul3]
    · simp [det_fin_three]
  · intro h; simpa using congrFun h 1
  · have e : skew ![0, -1, 0] * !![0, 0, 1; 0, -1, 0; 1, 0, 0] = diagonal ![-1, 0, 1] := by
      apply mat3_ext <;> simp [mul3, skew]
    rw [e]
    exact sevenExample_sol _ (by simp)
  · intro eig
    unfold sevenpt sevenptFrom
    rw [if_pos]
    left
    rw [h8, det_smul, det_diagonal, Fin.prod_univ_three]
    simp [sevenEps]
  · rintro ⟨k, hk⟩
    rw [h8] at hk
    have e := congrFun (congrFun hk 2) 2
    simp [mul3, skew] at e

/-! ## The central relative pose problem -/

/-- A correspondence that agrees with the pose `(t, R)`: unit bearing vectors, independent viewing
directions, and the rays meet in front of both cameras. -/
def Explains (P : Pose) (c : Vec3 × Vec3) : Prop :=
  c.1 ⬝ᵥ c.1 = 1 ∧ c.2 ⬝ᵥ c.2 = 1 ∧
  (¬ ∃ a b : ℝ, (a ≠ 0 ∨ b ≠ 0) ∧ a • c.1 = b • (P.2 *ᵥ c.2)) ∧
  ∃ a b : ℝ, 0 < a ∧ 0 < b ∧ a • c.1 = P.1 + b • (P.2 *ᵥ c.2)

/-- **C53 (success).** If some matrix in the list is a non-zero multiple of the true essential
matrix, and the sample agrees with the true pose, then the problem returns a pose with a proper
rotation, and the whole sample agrees with the returned pose. -/
theorem C53_explains_sample (svd : Mat3 → Mat3 × Mat3 × Vec3)
    (hsvd : ∀ E, IsSvd E (svd E).1 (svd E).2.1 (svd E).2.2) (sample : List (Vec3 × Vec3))
    (Es : List Mat3) (t : Vec3) (R : Mat3) (k : ℝ) (hR : IsRot R) (ht : t ≠ 0) (hk : k ≠ 0)
    (hE : k • (skew t * R) ∈ Es) (hs : ∀ c ∈ sample, Explains (t, R) c) :
    ∃ P, centralModel svd sample Es = some P ∧ (∃ E ∈ Es, P ∈ candidates svd E) ∧ IsRot P.2 ∧
      ∀ c ∈ sample, Explains P c := by
  -- the true pose is a candidate of quality zero
  have hkt : |k| • t ≠ 0 := smul_ne_zero (abs_ne_zero.2 hk) ht
  have hmem : (|k| • t, R) ∈ Es.flatMap (candidates svd) := by
    refine List.mem_flatMap.2 ⟨_, hE, ?_⟩
    have e : k • (skew t * R) = skew (k • t) * R := by rw [skew_smul, Matrix.smul_mul]
    rw [e]
    obtain ⟨h1, h2, _⟩ := C34_true_pose_among svd (k • t) R hR (smul_ne_zero hk ht) (hsvd _)
    rcases abs_choice k with h | h
    · rw [h]; exact h1
    · rw [h, neg_smul]; exact h2
  have hq : candQuality sample (|k| • t, R) = some 0 := by
    apply quality_zero
    intro i hi
    have hi' := List.mem_range.1 hi
    rw [List.getElem?_eq_getElem hi', Option.bind_some]
    obtain ⟨u1, u2, hn, a, b, ha, hb, e⟩ := hs _ (List.getElem_mem hi')
    have hkp := abs_pos.2 hk
    refine (C50_two_view (|k| • t) R _ _ hR.1 u1 u2).2.2 ⟨hn, |k| * a, |k| * b,
      mul_pos hkp ha, mul_pos hkp hb, ?_⟩
    rw [mul_smul, e, smul_add, smul_smul]
  -- all scores are non-negative
  have hrotall : ∀ P ∈ Es.flatMap (candidates svd), IsRot P.2 := by
    intro P hP
    obtain ⟨E, _, hPE⟩ := List.mem_flatMap.1 hP
    exact C34_rotations svd E (hsvd E) P hPE
  have hnn : ∀ P ∈ Es.flatMap (candidates svd), ∀ (i : ℕ) (s : ℝ),
      ((sample[i]?).bind fun c : Vec3 × Vec3 => relScore P.1 P.2 c.1 c.2) = some s → 0 ≤ s := by
    intro P hP i s h
    cases hc : sample[i]? with
    | none => simp [hc] at h
    | some c =>
      rw [hc, Option.bind_some] at h
      obtain ⟨u1, u2, _⟩ := hs c (List.mem_of_getElem? hc)
      exact ((C50_two_view P.1 P.2 c.1 c.2 (hrotall P hP).1 u1 u2).1 s h).1
  rw [centralModel_eq]
  rcases minLoop_spec ((Es.flatMap (candidates svd)).map (candQuality sample)) 0 initialScore none
    with ⟨_, h2⟩ | ⟨j, s, h1, h2, h3, h4, h5⟩
  · have := h2 0 (List.mem_map.2 ⟨_, hmem, hq⟩)
    norm_num [initialScore] at this
  · rw [h1, Option.bind_some, Nat.zero_add]
    rw [List.getElem?_map] at h2
    cases hP : (Es.flatMap (candidates svd))[j]? with
    | none => simp [hP] at h2
    | some P =>
      simp only [hP, Option.map_some, Option.some.injEq] at h2
      have hPm := List.mem_of_getElem? hP
      have hs0 : s ≤ 0 := h4 0 (List.mem_map.2 ⟨_, hmem, hq⟩)
      obtain ⟨q1, q2⟩ := quality_nonneg (hnn P hPm) _ s h2
      have hzero := q2 (le_antisymm hs0 q1)
      obtain ⟨E, hE1, hE2⟩ := List.mem_flatMap.1 hPm
      refine ⟨P, rfl, ⟨E, hE1, hE2⟩, hrotall P hPm, fun c hc => ?_⟩
      obtain ⟨i, hi, rfl⟩ := List.getElem_of_mem hc
      have := hzero i (List.mem_range.2 hi)
      rw [List.getElem?_eq_getElem hi, Option.bind_some] at this
      obtain ⟨u1, u2, _⟩ := hs _ hc
      obtain ⟨g1, g2⟩ := (C50_two_view P.1 P.2 _ _ (hrotall P hPm).1 u1 u2).2.1 this
      exact ⟨u1, u2, g1, g2⟩

/-- **C53 (exact recovery).** If the only essential matrix is a non-zero multiple `k [t]ₓ R` of the
true one and the sample is not empty and agrees with the true pose, the returned pose is exactly
`(|k| t, R)`: the true rotation and the true direction of translation. -/
theorem C53_exact_recovery (svd : Mat3 → Mat3 × Mat3 × Vec3)
    (hsvd : ∀ E, IsSvd E (svd E).1 (svd E).2.1 (svd E).2.2) (sample : List (Vec3 × Vec3))
    (t : Vec3) (R : Mat3) (k : ℝ) (hR : IsRot R) (ht : t ≠ 0) (hk : k ≠ 0)
    (hne : sample ≠ []) (hs : ∀ c ∈ sample, Explains (t, R) c) :
    centralModel svd sample [k • (skew t * R)] = some (|k| • t, R) := by
  obtain ⟨P, hP, ⟨E, hE, hPE⟩, _, hex⟩ :=
    C53_explains_sample svd hsvd sample [k • (skew t * R)] t R k hR ht hk (by simp) hs
  rw [hP]
  simp only [List.mem_cons, List.not_mem_nil, or_false] at hE
  subst hE
  have e : k • (skew t * R) = skew (k • t) * R := by rw [skew_smul, Matrix.smul_mul]
  rw [e] at hPE
  obtain ⟨_, _, h3⟩ := C34_true_pose_among svd (k • t) R hR (smul_ne_zero hk ht) (hsvd _)
  obtain ⟨ht', hrot, hess⟩ := h3 P hPE
  obtain ⟨t', Q⟩ := P
  simp only at ht' hrot hess
  obtain ⟨c, hc⟩ := List.exists_mem_of_ne_nil sample hne
  obtain ⟨_, _, hn, a, b, ha, hb, h1⟩ := hs c hc
  obtain ⟨_, _, _, a', b', ha', hb', h2⟩ := hex c hc
  simp only at hn h1 h2
  have hkp := abs_pos.2 hk
  -- the sign of the translation
  have hsign : t' = |k| • t ∨ t' = -(|k| • t) := by
    rcases abs_choice k with h | h
    · rw [h]; exact ht'
    · rw [h, neg_smul, neg_neg]; exact ht'.symm
  have hskew : skew t * Q = skew t * R ∨ skew t * Q = -(skew t * R) := by
    have h0 : ∀ X : Mat3, k • (skew t * Q) = k • X → skew t * Q = X :=
      fun X h => smul_right_injective _ hk h
    have e2 : k • (skew t * Q) = skew (k • t) * Q := by rw [skew_smul, Matrix.smul_mul]
    rcases ht' with rfl | rfl <;> rcases hess with h | h
    · left; apply h0; rw [e2, e, h]
    · right; apply h0; rw [smul_neg, e2, e, h]
    · right; apply h0
      rw [skew_neg, Matrix.neg_mul] at h
      rw [smul_neg, e2, e, ← h, neg_neg]
    · left; apply h0
      rw [skew_neg, Matrix.neg_mul, neg_inj] at h
      rw [e2, e, h]
  rcases hskew with hq | hq
  · have hQ := essential_rot_unique hrot hR ht hq
    subst hQ
    rcases hsign with rfl | rfl
    · rfl
    · exfalso
      apply hn
      refine ⟨a' + |k| * a, b' + |k| * b, .inl (by positivity), ?_⟩
      rw [add_smul, add_smul, mul_smul, mul_smul, h1, h2]
      module
  · exfalso
    -- the twisted pair
    obtain ⟨m, hm⟩ : ∃ m : ℝ, Q *ᵥ c.2 + R *ᵥ c.2 = m • t := by
      have hx : crossProduct t (Q *ᵥ c.2 + R *ᵥ c.2) = 0 := by
        rw [map_add, ← skew_mulVec, ← skew_mulVec, mulVec_mulVec, mulVec_mulVec, hq, neg_mulVec]
        abel
      obtain ⟨x, y, hxy, hd⟩ := (cross_eq_zero_iff _ _).1 hx
      have hy : y ≠ 0 := by
        rintro rfl
        rw [zero_smul] at hd
        rcases hxy with h | h
        · exact ht ((smul_eq_zero.1 hd).resolve_left h)
        · exact h rfl
      exact ⟨y⁻¹ * x, by rw [mul_smul, hd, smul_smul, inv_mul_cancel₀ hy, one_smul]⟩
    have hg : Q *ᵥ c.2 = m • t - R *ᵥ c.2 := by rw [← hm]; abel
    obtain ⟨l, hl⟩ : ∃ l : ℝ, a' • c.1 + b' • (R *ᵥ c.2) = l • t := by
      rcases hsign with rfl | rfl
      · exact ⟨|k| + b' * m, by rw [h2, hg]; module⟩
      · exact ⟨-|k| + b' * m, by rw [h2, hg]; module⟩
    have htt : t = a • c.1 - b • (R *ᵥ c.2) := by rw [h1]; abel
    have hlin : (a' - l * a) • c.1 = (-(b' + l * b)) • (R *ᵥ c.2) := by
      have : a' • c.1 + b' • (R *ᵥ c.2) = l • (a • c.1 - b • (R *ᵥ c.2)) := by rw [hl, ← htt]
      have h3 : a' • c.1 = l • (a • c.1 - b • (R *ᵥ c.2)) - b' • (R *ᵥ c.2) := by
        rw [← this]; abel
      rw [sub_smul, h3]
      module
    have hl1 : a' - l * a = 0 := by
      by_contra h
      exact hn ⟨_, _, .inl h, hlin⟩
    have hl2 : -(b' + l * b) = 0 := by
      by_contra h
      exact hn ⟨_, _, .inr h, hlin⟩
    have p1 : 0 < l := by
      by_contra h
      have := mul_nonneg (neg_nonneg.2 (not_lt.1 h)) ha.le
      linarith
    have := mul_pos p1 hb
    linarith

/-- **C53 (eight points, end to end).** The eight-point solver followed by the selection returns the
true rotation and a positive multiple of the true translation, for noise-free correspondences
whose linear constraints determine the essential matrix up to scale. -/
theorem C53_eightpt_pipeline (svd : Mat3 → Mat3 × Mat3 × Vec3)
    (hsvd : ∀ E, IsSvd E (svd E).1 (svd E).2.1 (svd E).2.2)
    (V : Matrix (Fin 9) (Fin 9) ℝ) (σ : Fin 9 → ℝ) (cs sample : List (Vec3 × Vec3))
    (t : Vec3) (R : Mat3) (hR : IsRot R) (ht : t ≠ 0)
    (hV : IsRightSvd (epipolarA cs) V σ) (hcs : ∀ c ∈ cs, Explains (t, R) c)
    (hne : sample ≠ []) (hs : ∀ c ∈ sample, Explains (t, R) c)
    (hker : ∀ F : Mat3, (∀ c ∈ cs, c.1 ⬝ᵥ (F *ᵥ c.2) = 0) → ∃ k : ℝ, F = k • (skew t * R)) :
    ∃ k : ℝ, 0 < k ∧ centralModel svd sample [eightpt V svd] = some (k • t, R) := by
  have hE : ∀ c ∈ cs, c.1 ⬝ᵥ ((skew t * R) *ᵥ c.2) = 0 := by
    intro c hc
    obtain ⟨_, _, _, a, b, ha, hb, e⟩ := hcs c hc
    simp only at e
    have e2 : R *ᵥ c.2 = b⁻¹ • (a • c.1 - t) := by
      rw [e, add_sub_cancel_left, smul_smul, inv_mul_cancel₀ hb.ne', one_smul]
    rw [← mulVec_mulVec, skew_mulVec, e2]
    simp only [map_smul, map_sub, cross_self, sub_zero, dotProduct_smul]
    rw [dot_cross_self]
    simp
  obtain ⟨k, hk, hk2⟩ := C35_exact_recovery cs t R hR ht V σ svd hV hsvd hE hker
  refine ⟨|k|, abs_pos.2 hk, ?_⟩
  rw [hk2]
  exact C53_exact_recovery svd hsvd sample t R k hR ht hk hne hs

/- The hypotheses of the pipeline theorem are met by the eight points of `eightExample` with
normalised bearing vectors. -/
example : (∀ c ∈ eightExample.map fun c => ((norm3 c.1)⁻¹ • c.1, (norm3 c.2)⁻¹ • c.2),
      Explains (![1, 0, 0], 1) c) ∧
    ∀ F : Mat3, (∀ c ∈ eightExample.map fun c => ((norm3 c.1)⁻¹ • c.1, (norm3 c.2)⁻¹ • c.2),
      c.1 ⬝ᵥ (F *ᵥ c.2) = 0) → ∃ k : ℝ, F = k • (skew ![1, 0, 0] * 1) := by
  have hcr : ∀ c ∈ eightExample, crossProduct c.1 c.2 ≠ 0 ∧ c.1 = ![1, 0, 0] + c.2 := by
    simp only [eightExample, List.map_cons, List.map_nil, List.forall_mem_cons, List.not_mem_nil,
      false_imp_iff, implies_true, and_true, add_sub_cancel]
    refine ⟨?_, ?_, ?_, ?_, ?_, ?_, ?_, ?_⟩ <;> intro h <;>
      first
      | (have := congrFun h 2; simp [cross_apply] at this; done)
      | (have := congrFun h 1; simp [cross_apply] at this; done)
  have hne : ∀ c ∈ eightExample, 0 < norm3 c.1 ∧ 0 < norm3 c.2 := by
    intro c hc
    refine ⟨norm3_pos fun e => (hcr c hc).1 (by rw [e]; simp), norm3_pos fun e =>
      (hcr c hc).1 (by rw [e]; simp)⟩
  constructor
  · intro c hc
    obtain ⟨d, hd, rfl⟩ := List.mem_map.1 hc
    obtain ⟨n1, n2⟩ := hne d hd
    have u : ∀ v : Vec3, 0 < norm3 v → ((norm3 v)⁻¹ • v) ⬝ᵥ ((norm3 v)⁻¹ • v) = 1 := by
      intro v hv
      rw [smul_dotProduct, dotProduct_smul, ← norm3_sq, smul_eq_mul, smul_eq_mul]
      field_simp
    refine ⟨u _ n1, u _ n2, ?_, norm3 d.1, norm3 d.2, n1, n2, ?_⟩
    · simp only [one_mulVec]
      rw [← cross_eq_zero_iff]
      simp only [map_smul, LinearMap.smul_apply]
      exact smul_ne_zero (inv_ne_zero n2.ne') (smul_ne_zero (inv_ne_zero n1.ne') (hcr d hd).1)
    · simp only [one_mulVec]
      rw [smul_smul, smul_smul, mul_inv_cancel₀ n1.ne', mul_inv_cancel₀ n2.ne', one_smul, one_smul]
      exact (hcr d hd).2
  · intro F h
    have h' : ∀ c ∈ eightExample, c.1 ⬝ᵥ (F *ᵥ c.2) = 0 := by
      intro c hc
      obtain ⟨n1, n2⟩ := hne c hc
      have := h _ (List.mem_map.2 ⟨c, hc, rfl⟩)
      simp only [smul_dotProduct, mulVec_smul, dotProduct_smul, smul_eq_mul] at this
      exact ((mul_eq_zero.1 this).resolve_left (inv_ne_zero n2.ne') |> mul_eq_zero.1).resolve_left
        (inv_ne_zero n1.ne')
    simp [eightExample, dot3, mulVec3] at h'
    obtain ⟨h1, h2, h3, h4, h5, h6, h7, h8⟩ := h'
    refine ⟨F 2 1, ?_⟩
    rw [Matrix.mul_one]
    apply mat3_ext <;> simp [skew] <;> linarith

/- A correspondence that agrees with the pose `((3,0,0), 1)`: the point `(0,0,4)`. -/
example : Explains (![3, 0, 0], 1) (![0, 0, 1], ![-(3/5), 0, 4/5]) := by
  refine ⟨by simp, by simp; norm_num, ?_, 4, 5, by norm_num, by norm_num, ?_⟩
  · rw [← cross_eq_zero_iff]
    intro h
    have := congrFun h 1
    simp [cross_apply] at this
  · apply ext3 <;> simp <;> norm_num

end OpenGV.Props
