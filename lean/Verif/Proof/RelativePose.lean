import Verif.Model.RelativePose
import Verif.Proof.Arun
import Verif.Proof.SvdExists
import Verif.Proof.SacProblems

namespace OpenGV

open Matrix Spec

/-! ### Cross products -/

theorem skew_mulVec (t x : Vec3) : skew t *ᵥ x = crossProduct t x := by
  apply ext3 <;> simp [mulVec3, skew, cross_apply] <;> ring

theorem skew_smul (c : ℝ) (t : Vec3) : skew (c • t) = c • skew t := by
  apply mat3_ext <;> simp [skew]

theorem skew_neg (t : Vec3) : skew (-t) = -skew t := by
  apply mat3_ext <;> simp [skew]

theorem mat3_ext_mulVec {A B : Mat3} (h : ∀ v : Vec3, A *ᵥ v = B *ᵥ v) : A = B := by
  have e0 := h ![1, 0, 0]
  have e1 := h ![0, 1, 0]
  have e2 := h ![0, 0, 1]
  have f := fun i => congrFun e0 i
  have g := fun i => congrFun e1 i
  have k := fun i => congrFun e2 i
  simp [mulVec3] at f g k
  apply mat3_ext <;> simp [f, g, k]

theorem cross_cross_left (t a b : Vec3) :
    crossProduct (crossProduct t a) (crossProduct t b) = (t ⬝ᵥ crossProduct a b) • t := by
  apply ext3 <;> simp only [cross_apply, dot3, Pi.smul_apply, smul_eq_mul, Matrix.cons_val] <;> ring

/-- Conjugation of a cross product matrix by an orthogonal matrix. -/
theorem skew_orth {U : Mat3} (hU : U.transpose * U = 1) (v : Vec3) :
    skew (U *ᵥ v) = U.det • (U * skew v * U.transpose) := by
  have key : ∀ W : Mat3, IsRot W → skew (W *ᵥ v) = W * skew v * W.transpose := by
    intro W hW
    apply mat3_ext_mulVec
    intro x
    have hx : x = W *ᵥ (W.transpose *ᵥ x) := by
      rw [mulVec_mulVec, rot_mul_transpose hW.1, one_mulVec]
    rw [← mulVec_mulVec, ← mulVec_mulVec, skew_mulVec, skew_mulVec, ← rot_cross hW, ← hx]
  rcases orth_det hU with h | h
  · rw [h, one_smul, key U ⟨hU, h⟩]
  · have := key (-U) ⟨by rw [transpose_neg, Matrix.neg_mul, Matrix.mul_neg, neg_neg, hU], by
      rw [det_neg, h]; norm_num⟩
    rw [neg_mulVec, skew_neg] at this
    rw [h, neg_one_smul, neg_eq_iff_eq_neg.1 this]
    simp

/-! ### Two-point solver -/

/-- The flow of a point seen in front of both frames points along the translation. -/
theorem flow_dot {t f g : Vec3} {a b : ℝ} (hf : f ⬝ᵥ f = 1) (hg : g ⬝ᵥ g = 1)
    (h : a • f = t + b • g) : (f - g) ⬝ᵥ t = (a + b) * (1 - f ⬝ᵥ g) := by
  have e : t = a • f - b • g := by rw [h]; abel
  rw [e, sub_dotProduct, dotProduct_sub, dotProduct_sub]
  simp only [dotProduct_smul, smul_eq_mul, hf, hg, dotProduct_comm g f]
  ring

theorem normalize3_smul_of_neg {v : Vec3} {c : ℝ} (hc : c ≠ 0) (hv : v ≠ 0) :
    normalize3 (c • v) = some ((|c|⁻¹ * c) • ((norm3 v)⁻¹ • v)) := by
  have hn : norm3 (c • v) ≠ 0 := by
    rw [norm3_smul]; exact mul_ne_zero (abs_ne_zero.2 hc) (norm3_pos hv).ne'
  rw [normalize3, if_neg hn, norm3_smul, smul_smul, smul_smul, mul_inv]
  congr 2
  ring

/-! ### Epipolar rows -/

theorem epipolarRow_dot (c : Vec3 × Vec3) (f : Fin 9 → ℝ) :
    epipolarRow c ⬝ᵥ f = c.1 ⬝ᵥ (unvec f *ᵥ c.2) := by
  simp only [dotProduct, epipolarRow, unvec, Fin.sum_univ_succ, mulVec, Matrix.transpose_apply,
    Fin.sum_univ_zero]
  simp
  ring

theorem epipolarA_mulVec (cs : List (Vec3 × Vec3)) (f : Fin 9 → ℝ) :
    epipolarA cs *ᵥ f = 0 ↔ ∀ c ∈ cs, c.1 ⬝ᵥ (unvec f *ᵥ c.2) = 0 := by
  constructor
  · intro h c hc
    obtain ⟨i, hi, rfl⟩ := List.getElem_of_mem hc
    have := congrFun h ⟨i, hi⟩
    rw [mulVec] at this
    rw [← epipolarRow_dot]
    exact this
  · intro h
    funext i
    have := h cs[i] (List.getElem_mem i.2)
    rw [← epipolarRow_dot] at this
    exact this

/-- The 9-vector of a matrix. -/
def vec9 (F : Mat3) : Fin 9 → ℝ :=
  ![F 0 0, F 0 1, F 0 2, F 1 0, F 1 1, F 1 2, F 2 0, F 2 1, F 2 2]

theorem unvec_vec9 (F : Mat3) : unvec (vec9 F) = F := by
  apply mat3_ext <;> simp [unvec, vec9]

theorem vec9_unvec (f : Fin 9 → ℝ) : vec9 (unvec f) = f := by
  funext i
  fin_cases i <;> simp [unvec, vec9]

theorem unvec_smul (c : ℝ) (f : Fin 9 → ℝ) : unvec (c • f) = c • unvec f := by
  apply mat3_ext <;> simp [unvec]

theorem unvec_eq_zero {f : Fin 9 → ℝ} (h : unvec f = 0) : f = 0 := by
  rw [← vec9_unvec f, h]
  funext i
  fin_cases i <;> simp [vec9]

theorem vec9_ne_zero {F : Mat3} (h : F ≠ 0) : vec9 F ≠ 0 := by
  intro e
  apply h
  rw [← unvec_vec9 F, e]
  apply mat3_ext <;> simp [unvec]

/-- If a 3x3 matrix is singular, its smallest singular value is zero. -/
theorem svd_sigma2_of_det {A U V : Mat3} {σ : Vec3} (h : IsSvd A U V σ) (hd : A.det = 0) :
    σ 2 = 0 := by
  have e : A.det = U.det * (σ 0 * σ 1 * σ 2) * V.det := by
    rw [h.eq, det_mul, det_mul, det_diagonal, det_transpose, Fin.prod_univ_three]
  have hU : U.det ≠ 0 := by rcases orth_det h.orthU with e | e <;> rw [e] <;> norm_num
  have hV : V.det ≠ 0 := by rcases orth_det h.orthV with e | e <;> rw [e] <;> norm_num
  rw [e] at hd
  have h0 := h.anti 0 1 (by decide)
  have h1 := h.anti 1 2 (by decide)
  have h2 := h.nonneg 2
  rcases mul_eq_zero.1 hd with hd | hd
  · rcases mul_eq_zero.1 hd with hd | hd
    · exact absurd hd hU
    · rcases mul_eq_zero.1 hd with hd | hd
      · rcases mul_eq_zero.1 hd with hd | hd <;> linarith
      · exact hd
  · exact absurd hd hV

/-! ### Decomposition of an essential matrix -/

theorem orth_mul {A B : Mat3} (hA : A.transpose * A = 1) (hB : B.transpose * B = 1) :
    (A * B).transpose * (A * B) = 1 := by
  rw [transpose_mul, Matrix.mul_assoc, ← Matrix.mul_assoc A.transpose, hA, Matrix.one_mul, hB]

theorem orth_transpose {A : Mat3} (hA : A.transpose * A = 1) :
    A.transpose.transpose * A.transpose = 1 := by
  rw [transpose_transpose, rot_mul_transpose hA]

theorem wMat_orth : wMat.transpose * wMat = 1 := by
  apply mat3_ext <;> simp [mul3, wMat]

theorem wMat_det : wMat.det = 1 := by
  simp [wMat, det_fin_three]

theorem fixSign_isRot {R : Mat3} (h : R.transpose * R = 1) : IsRot (fixSign R) := by
  unfold fixSign
  rcases orth_det h with e | e
  · rw [if_neg (by rw [e]; norm_num)]; exact ⟨h, e⟩
  · rw [if_pos (by rw [e]; norm_num)]
    exact ⟨by rw [transpose_neg, Matrix.neg_mul, Matrix.mul_neg, neg_neg, h], by
      rw [det_neg, e]; norm_num⟩

theorem fixSign_eq {R : Mat3} (h : R.transpose * R = 1) : fixSign R = R.det • R := by
  unfold fixSign
  rcases orth_det h with e | e
  · rw [if_neg (by rw [e]; norm_num), e, one_smul]
  · rw [if_pos (by rw [e]; norm_num), e, neg_one_smul]

/-- The singular values of `[t]ₓ R`. -/
theorem essential_sigma {t : Vec3} {R U V : Mat3} {σ : Vec3} (hR : IsRot R) (ht : t ≠ 0)
    (h : IsSvd (skew t * R) U V σ) : σ 0 = norm3 t ∧ σ 1 = norm3 t ∧ σ 2 = 0 := by
  set P : Mat3 := skew t * (skew t).transpose with hP
  have hRR := rot_mul_transpose hR.1
  have e1 : P = (skew t * R) * (skew t * R).transpose := by
    rw [transpose_mul, Matrix.mul_assoc, ← Matrix.mul_assoc R, hRR, Matrix.one_mul]
  have e2 : P = U * diagonal (fun i => σ i ^ 2) * U.transpose := by
    rw [e1, h.eq, transpose_mul, transpose_mul, transpose_transpose, diagonal_transpose]
    rw [show U * diagonal σ * V.transpose * (V * (diagonal σ * U.transpose)) =
      U * (diagonal σ * (V.transpose * V) * diagonal σ) * U.transpose by
        simp only [Matrix.mul_assoc]]
    rw [h.orthV, Matrix.mul_one, diagonal_mul_diagonal]
    congr 3
    funext i; ring
  have e3 : U.transpose * P * U = diagonal (fun i => σ i ^ 2) := by
    rw [e2, show U.transpose * (U * diagonal (fun i => σ i ^ 2) * U.transpose) * U =
      (U.transpose * U) * diagonal (fun i => σ i ^ 2) * (U.transpose * U) by
        simp only [Matrix.mul_assoc], h.orthU, Matrix.one_mul, Matrix.mul_one]
  have e4 : P * P = (t ⬝ᵥ t) • P := by
    apply mat3_ext <;> simp only [hP, mul3, skew, Matrix.smul_apply, smul_eq_mul, dot3,
      Matrix.transpose_apply, Matrix.of_apply, Matrix.cons_val] <;> ring
  have e5 : diagonal (fun i => σ i ^ 2) * diagonal (fun i => σ i ^ 2) =
      (t ⬝ᵥ t) • diagonal (fun i => σ i ^ 2) := by
    rw [← e3, show U.transpose * P * U * (U.transpose * P * U) =
      U.transpose * (P * (U * U.transpose) * P) * U by simp only [Matrix.mul_assoc],
      rot_mul_transpose h.orthU, Matrix.mul_one, e4]
    simp
  have e6 : P.trace = 2 * (t ⬝ᵥ t) := by
    simp only [hP, Matrix.trace_fin_three, mul3, skew, dot3, Matrix.transpose_apply,
      Matrix.of_apply, Matrix.cons_val]
    ring
  have e7 : σ 0 ^ 2 + σ 1 ^ 2 + σ 2 ^ 2 = 2 * (t ⬝ᵥ t) := by
    rw [← e6, e2, Matrix.trace_mul_comm, ← Matrix.mul_assoc, h.orthU, Matrix.one_mul,
      Matrix.trace_fin_three]
    simp
  have e8 : ∀ i, σ i = 0 ∨ σ i ^ 2 = t ⬝ᵥ t := by
    intro i
    have := congrFun (congrFun e5 i) i
    rw [diagonal_mul_diagonal, diagonal_apply_eq, Matrix.smul_apply, diagonal_apply_eq,
      smul_eq_mul] at this
    by_cases hi : σ i = 0
    · exact .inl hi
    · right
      exact mul_right_cancel₀ (pow_ne_zero 2 hi) this
  have htt : 0 < t ⬝ᵥ t := by
    rcases (dot_self_nonneg3 t).lt_or_eq with h | h
    · exact h
    · exact absurd (dot_self_eq_zero3.1 h.symm) ht
  have a0 := h.anti 0 1 (by decide)
  have a1 := h.anti 1 2 (by decide)
  have n0 := h.nonneg 0
  have n1 := h.nonneg 1
  have n2 := h.nonneg 2
  have hs2 : σ 2 = 0 := by
    rcases e8 2 with h2 | h2
    · exact h2
    · exfalso
      have b1 : σ 2 ^ 2 ≤ σ 1 ^ 2 := by gcongr
      have b0 : σ 1 ^ 2 ≤ σ 0 ^ 2 := by gcongr
      linarith
  have hs1 : σ 1 ^ 2 = t ⬝ᵥ t := by
    rcases e8 1 with h1 | h1
    · exfalso
      rw [h1, hs2] at e7
      rcases e8 0 with h0 | h0
      · rw [h0] at e7; linarith
      · rw [h0] at e7; linarith
    · exact h1
  have hs0 : σ 0 ^ 2 = t ⬝ᵥ t := by rw [hs2, hs1] at e7; linarith
  refine ⟨?_, ?_, hs2⟩
  · rw [norm3, ← hs0, Real.sqrt_sq n0]
  · rw [norm3, ← hs1, Real.sqrt_sq n1]

/-- A vector annihilated by the transpose of an essential matrix is a multiple of the last left
singular vector. -/
theorem essential_left_null {t : Vec3} {R U V : Mat3} {σ : Vec3} (hR : IsRot R) (ht : t ≠ 0)
    (h : IsSvd (skew t * R) U V σ) : t = (fun i => norm3 t * U i 2) ∨ t = -fun i => norm3 t * U i 2 := by
  obtain ⟨h0, h1, h2⟩ := essential_sigma hR ht h
  have hn := norm3_pos ht
  have hUU := rot_mul_transpose h.orthU
  have e1 : (skew t * R).transpose *ᵥ t = 0 := by
    rw [transpose_mul, ← mulVec_mulVec, skew_transpose, neg_mulVec, skew_mulVec, cross_self]
    simp
  set y := U.transpose *ᵥ t with hy
  have hty : U *ᵥ y = t := by rw [hy, mulVec_mulVec, hUU, one_mulVec]
  have e2 : diagonal σ *ᵥ y = 0 := by
    rw [h.eq, transpose_mul, transpose_mul, transpose_transpose, diagonal_transpose,
      ← mulVec_mulVec, ← mulVec_mulVec] at e1
    have := congrArg (fun v => V.transpose *ᵥ v) e1
    simp only [mulVec_mulVec, mulVec_zero] at this
    rw [← Matrix.mul_assoc, h.orthV, Matrix.one_mul] at this
    rw [hy, mulVec_mulVec]
    exact this
  have y0 : y 0 = 0 := by
    have := congrFun e2 0
    rw [mulVec_diagonal, h0] at this
    exact (mul_eq_zero.1 this).resolve_left hn.ne'
  have y1 : y 1 = 0 := by
    have := congrFun e2 1
    rw [mulVec_diagonal, h1] at this
    exact (mul_eq_zero.1 this).resolve_left hn.ne'
  have yy : y 2 ^ 2 = norm3 t ^ 2 := by
    have : y ⬝ᵥ y = t ⬝ᵥ t := by rw [← hty, rot_dot h.orthU]
    rw [norm3_sq, ← this, dot3, y0, y1]; ring
  have et : ∀ i, t i = y 2 * U i 2 := by
    intro i
    rw [← hty, mulVec3, y0, y1]; ring
  rcases sq_eq_sq_iff_eq_or_eq_neg.1 yy with e | e
  · left; funext i; rw [et, e]
  · right; funext i; rw [et, e]; simp

theorem essential_rot_unique {t : Vec3} {R Q : Mat3} (hR : IsRot R) (hQ : IsRot Q) (ht : t ≠ 0)
    (h : skew t * R = skew t * Q) : R = Q := by
  have h1 : ∀ x : Vec3, R.transpose *ᵥ crossProduct t x = Q.transpose *ᵥ crossProduct t x := by
    intro x
    have := congrArg transpose h
    rw [transpose_mul, transpose_mul, skew_transpose, Matrix.mul_neg, Matrix.mul_neg,
      neg_inj] at this
    rw [← skew_mulVec, mulVec_mulVec, mulVec_mulVec, this]
  obtain ⟨a, b, hab⟩ : ∃ a b : Vec3, crossProduct (crossProduct t a) (crossProduct t b) ≠ 0 := by
    by_contra hcon
    simp only [not_exists, not_not] at hcon
    apply ht
    have k : ∀ a b : Vec3, t ⬝ᵥ crossProduct a b = 0 := by
      intro a b
      have := hcon a b
      rw [cross_cross_left] at this
      exact (smul_eq_zero.1 this).resolve_right ht
    apply ext3
    · have := k ![0, 1, 0] ![0, 0, 1]
      simp only [dot3, cross_apply, Matrix.cons_val] at this
      simpa using this
    · have := k ![0, 0, 1] ![1, 0, 0]
      simp only [dot3, cross_apply, Matrix.cons_val] at this
      simpa using this
    · have := k ![1, 0, 0] ![0, 1, 0]
      simp only [dot3, cross_apply, Matrix.cons_val] at this
      simpa using this
  have := rot_eq_of_two hR.transpose hQ.transpose hab (h1 a) (h1 b)
  rw [← transpose_transpose R, this, transpose_transpose]

/-- The two products of the derived translation and rotations. -/
theorem candidate_products {t : Vec3} {R U V : Mat3} {σ : Vec3} (hR : IsRot R) (ht : t ≠ 0)
    (h : IsSvd (skew t * R) U V σ) :
    skew (fun i => σ 0 * U i 2) * fixSign (U * wMat * V.transpose) = -V.det • (skew t * R) ∧
    skew (fun i => σ 0 * U i 2) * fixSign (U * wMat.transpose * V.transpose) =
      V.det • (skew t * R) := by
  obtain ⟨h0, h1, h2⟩ := essential_sigma hR ht h
  have hVt := orth_transpose h.orthV
  have hWt := orth_transpose wMat_orth
  have o1 := orth_mul (orth_mul h.orthU wMat_orth) hVt
  have o2 := orth_mul (orth_mul h.orthU hWt) hVt
  have hU2 : (fun i => σ 0 * U i 2) = U *ᵥ ![0, 0, σ 0] := by
    funext i; rw [mulVec3]; simp; ring
  have hUU : U.det * U.det = 1 := by rcases orth_det h.orthU with e | e <;> rw [e] <;> norm_num
  have hE : skew t * R = U * diagonal ![σ 0, σ 0, 0] * V.transpose := by
    rw [h.eq]
    congr 3
    apply ext3 <;> simp [h0, h1, h2]
  have p1 : skew ![0, 0, σ 0] * wMat = -diagonal ![σ 0, σ 0, 0] := by
    apply mat3_ext <;> simp [mul3, skew, wMat]
  have p2 : skew ![0, 0, σ 0] * wMat.transpose = diagonal ![σ 0, σ 0, 0] := by
    apply mat3_ext <;> simp [mul3, skew, wMat]
  have q : ∀ X : Mat3, U * skew ![0, 0, σ 0] * U.transpose * (U * X * V.transpose) =
      U * (skew ![0, 0, σ 0] * X) * V.transpose := by
    intro X
    rw [show U * skew ![0, 0, σ 0] * U.transpose * (U * X * V.transpose) =
      U * skew ![0, 0, σ 0] * (U.transpose * U) * X * V.transpose by simp only [Matrix.mul_assoc],
      h.orthU, Matrix.mul_one]
    simp only [Matrix.mul_assoc]
  rw [fixSign_eq o1, fixSign_eq o2, hU2, skew_orth h.orthU]
  simp only [det_mul, det_transpose, wMat_det, mul_one]
  rw [Matrix.smul_mul, Matrix.mul_smul, Matrix.smul_mul, Matrix.mul_smul, q, q, p1, p2, hE]
  simp only [Matrix.mul_neg, Matrix.neg_mul, smul_neg, smul_smul, neg_smul]
  rw [show U.det * (U.det * V.det) = V.det by rw [← mul_assoc, hUU, one_mul]]
  exact ⟨rfl, rfl⟩

theorem candidates_eq (svd : Mat3 → Mat3 × Mat3 × Vec3) (E : Mat3) : candidates svd E =
    [(fun i => (svd E).2.2 0 * (svd E).1 i 2, fixSign ((svd E).1 * wMat * (svd E).2.1.transpose)),
      (fun i => (svd E).2.2 0 * (svd E).1 i 2,
        fixSign ((svd E).1 * wMat.transpose * (svd E).2.1.transpose)),
      (-fun i => (svd E).2.2 0 * (svd E).1 i 2,
        fixSign ((svd E).1 * wMat * (svd E).2.1.transpose)),
      (-fun i => (svd E).2.2 0 * (svd E).1 i 2,
        fixSign ((svd E).1 * wMat.transpose * (svd E).2.1.transpose))] := rfl

theorem exists_svd3 : ∃ svd : Mat3 → Mat3 × Mat3 × Vec3,
    ∀ E, IsSvd E (svd E).1 (svd E).2.1 (svd E).2.2 :=
  ⟨fun E => ((exists_svd E).choose, (exists_svd E).choose_spec.choose,
    (exists_svd E).choose_spec.choose_spec.choose),
    fun E => (exists_svd E).choose_spec.choose_spec.choose_spec⟩

/-! ### The search over candidates -/

theorem flatMap_four {α β : Type} (f : α → List β) (hf : ∀ a, (f a).length = 4) :
    ∀ (l : List α) (k : ℕ), (l.flatMap f)[k]? = (l[k / 4]?).bind fun a => (f a)[k % 4]? := by
  intro l
  induction l with
  | nil => intro k; simp
  | cons a l ih =>
    intro k
    rw [List.flatMap_cons]
    by_cases hk : k < 4
    · rw [List.getElem?_append_left (by rw [hf]; exact hk)]
      rw [Nat.div_eq_of_lt hk, Nat.mod_eq_of_lt hk]
      simp
    · rw [List.getElem?_append_right (by rw [hf]; omega), hf, ih]
      have e1 : k / 4 = (k - 4) / 4 + 1 := by omega
      have e2 : k % 4 = (k - 4) % 4 := by omega
      rw [e1, e2]
      simp

theorem rederive_eq (svd : Mat3 → Mat3 × Mat3 × Vec3) (E : Mat3) (j : ℕ) :
    rederive svd E j = (candidates svd E)[j]? := by
  match j with
  | 0 => rfl
  | 1 => rfl
  | 2 =>
    simp only [rederive, candidates, List.getElem?_cons_succ, List.getElem?_cons_zero]
    congr 2
    funext i; simp
  | 3 =>
    simp only [rederive, candidates, List.getElem?_cons_succ, List.getElem?_cons_zero]
    congr 2
    funext i; simp
  | k + 4 => simp [rederive, candidates]

theorem centralModel_eq (svd : Mat3 → Mat3 × Mat3 × Vec3) (sample : List (Vec3 × Vec3))
    (Es : List Mat3) : centralModel svd sample Es =
      (minLoop ((Es.flatMap (candidates svd)).map (candQuality sample)) 0 initialScore none).bind
        fun k => (Es.flatMap (candidates svd))[k]? := by
  unfold centralModel
  cases minLoop ((Es.flatMap (candidates svd)).map (candQuality sample)) 0 initialScore none with
  | none => rfl
  | some k =>
    rw [Option.bind_some, flatMap_four _ (fun _ => rfl)]
    simp only
    cases Es[k / 4]? with
    | none => rfl
    | some E => exact rederive_eq svd E _

theorem quality_nonneg {score : ℕ → Option ℝ} (hs : ∀ k s, score k = some s → 0 ≤ s) :
    ∀ (l : List ℕ) (q : ℝ), quality score l = some q → 0 ≤ q ∧
      (q = 0 → ∀ k ∈ l, score k = some 0) := by
  intro l
  induction l with
  | nil => intro q h; simp [quality] at h; subst h; simp
  | cons k ks ih =>
    intro q h
    rw [quality] at h
    cases h1 : score k with
    | none => simp [h1] at h
    | some s =>
      cases h2 : quality score ks with
      | none => simp [h1, h2] at h
      | some q' =>
        simp only [h1, h2, Option.some.injEq] at h
        obtain ⟨i1, i2⟩ := ih q' h2
        have := hs k s h1
        refine ⟨by linarith, fun hq => ?_⟩
        have hs0 : s = 0 := by linarith
        have hq0 : q' = 0 := by linarith
        intro j hj
        rcases List.mem_cons.1 hj with rfl | hj
        · rw [h1, hs0]
        · exact i2 hq0 j hj

theorem quality_zero {score : ℕ → Option ℝ} : ∀ l : List ℕ, (∀ k ∈ l, score k = some 0) →
    quality score l = some 0 := by
  intro l
  induction l with
  | nil => intro _; rfl
  | cons k ks ih =>
    intro h
    rw [quality, h k (by simp), ih (fun j hj => h j (by simp [hj]))]
    simp

end OpenGV
