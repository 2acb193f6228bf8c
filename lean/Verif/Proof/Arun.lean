import Verif.Model.Arun
import Verif.Proof.Quaternion

namespace OpenGV

open Matrix Spec

/-! ### Rotations and cross products -/

theorem rot_cross {R : Mat3} (h : IsRot R) (a b : Vec3) :
    crossProduct (R *ᵥ a) (R *ᵥ b) = R *ᵥ crossProduct a b := by
  obtain ⟨c00, c01, c02, c10, c11, c12, c20, c21, c22⟩ := rot_cof h
  apply ext3
  · rw [mulVec3]
    simp only [cross_apply, mulVec3, Matrix.cons_val]
    linear_combination -(a 1 * b 2 - a 2 * b 1) * c00 - (a 2 * b 0 - a 0 * b 2) * c01 -
      (a 0 * b 1 - a 1 * b 0) * c02
  · rw [mulVec3]
    simp only [cross_apply, mulVec3, Matrix.cons_val]
    linear_combination -(a 1 * b 2 - a 2 * b 1) * c10 - (a 2 * b 0 - a 0 * b 2) * c11 -
      (a 0 * b 1 - a 1 * b 0) * c12
  · rw [mulVec3]
    simp only [cross_apply, mulVec3, Matrix.cons_val]
    linear_combination -(a 1 * b 2 - a 2 * b 1) * c20 - (a 2 * b 0 - a 0 * b 2) * c21 -
      (a 0 * b 1 - a 1 * b 0) * c22

/-- A matrix fixing three vectors with non-zero triple product is the identity. -/
theorem fix_three {Z : Mat3} {a b c : Vec3} (hdet : crossProduct a b ⬝ᵥ c ≠ 0) (ha : Z *ᵥ a = a)
    (hb : Z *ᵥ b = b) (hc : Z *ᵥ c = c) : Z = 1 := by
  set M : Mat3 := Matrix.of fun i => ![a i, b i, c i] with hM
  have hMd : M.det ≠ 0 := by
    intro h
    apply hdet
    rw [← h, det_fin_three, dot3]
    simp [hM, cross_apply]
    ring
  apply mul_right_cancel_det hMd
  have e := fun i => congrFun ha i
  have f := fun i => congrFun hb i
  have g := fun i => congrFun hc i
  rw [Matrix.one_mul]
  apply mat3_ext <;> rw [mul3] <;> simp only [hM, Matrix.of_apply, Matrix.cons_val]
  · have := e 0; rwa [mulVec3] at this
  · have := f 0; rwa [mulVec3] at this
  · have := g 0; rwa [mulVec3] at this
  · have := e 1; rwa [mulVec3] at this
  · have := f 1; rwa [mulVec3] at this
  · have := g 1; rwa [mulVec3] at this
  · have := e 2; rwa [mulVec3] at this
  · have := f 2; rwa [mulVec3] at this
  · have := g 2; rwa [mulVec3] at this

/-- A rotation fixing two independent vectors is the identity. -/
theorem rot_fix_two {Z : Mat3} (hZ : IsRot Z) {a b : Vec3} (hab : crossProduct a b ≠ 0)
    (ha : Z *ᵥ a = a) (hb : Z *ᵥ b = b) : Z = 1 :=
  fix_three (c := crossProduct a b) (fun h => hab (dot_self_eq_zero3.1 h)) ha hb
    (by rw [← rot_cross hZ, ha, hb])

/-! ### The maximum of the trace -/

theorem orth_diag_le {Z : Mat3} (h : Z.transpose * Z = 1) (i : Fin 3) : Z i i ≤ 1 := by
  obtain ⟨k0, k1, k2, _⟩ := rot_cols h
  fin_cases i
  · show Z 0 0 ≤ 1; nlinarith [sq_nonneg (Z 1 0), sq_nonneg (Z 2 0)]
  · show Z 1 1 ≤ 1; nlinarith [sq_nonneg (Z 0 1), sq_nonneg (Z 2 1)]
  · show Z 2 2 ≤ 1; nlinarith [sq_nonneg (Z 0 2), sq_nonneg (Z 1 2)]

/-- The trace of a reflection is at most one. -/
theorem reflection_trace_le {Z : Mat3} (h : Z.transpose * Z = 1) (hd : Z.det = -1) :
    Z.trace ≤ 1 := by
  have hr : IsRot (-Z) := by
    refine ⟨by simpa using h, ?_⟩
    rw [det_neg, hd]
    simp
    norm_num
  obtain ⟨q, hq, e⟩ := exists_quaternion hr
  have ht : (-Z).trace = 4 * q 0 ^ 2 - 1 := by
    rw [← e]
    simp [Matrix.trace, Fin.sum_univ_three, quaternion2rot]
    linarith
  rw [trace_neg] at ht
  nlinarith [sq_nonneg (q 0)]

theorem orth_det {Z : Mat3} (h : Z.transpose * Z = 1) : Z.det = 1 ∨ Z.det = -1 := by
  have := congrArg Matrix.det h
  rw [det_mul, det_transpose, det_one] at this
  exact mul_self_eq_one_iff.1 this

/-- `tr(Q U diag(σ) Vᵀ)` in terms of the diagonal of `Vᵀ Q U`. -/
theorem trace_svd (Q U V : Mat3) (σ : Vec3) :
    (Q * (U * Matrix.diagonal σ * V.transpose)).trace =
      σ 0 * (V.transpose * Q * U) 0 0 + σ 1 * (V.transpose * Q * U) 1 1 +
        σ 2 * (V.transpose * Q * U) 2 2 := by
  have e : (Q * (U * Matrix.diagonal σ * V.transpose)).trace =
      ((V.transpose * Q * U) * Matrix.diagonal σ).trace := by
    rw [← Matrix.mul_assoc, trace_mul_comm, ← Matrix.mul_assoc, ← Matrix.mul_assoc]
  rw [e]
  simp only [Matrix.trace, Fin.sum_univ_three, diag_apply, mul_diagonal]
  ring

theorem negCol_mul (V W : Mat3) :
    (Matrix.of fun i => ![V i 0, V i 1, -V i 2] : Mat3) * W =
      V * (Matrix.diagonal ![1, 1, -1] * W) := by
  have : (Matrix.of fun i => ![V i 0, V i 1, -V i 2] : Mat3) = V * Matrix.diagonal ![1, 1, -1] := by
    apply mat3_ext <;> simp [mul_diagonal]
  rw [this, Matrix.mul_assoc]

/-- `arun`'s rotation is a rotation that maximises `tr(Q H)`. -/
theorem arun_spec {H U V : Mat3} {σ : Vec3} (h : IsSvd H U V σ) :
    IsRot (arunR U V) ∧ ∀ Q : Mat3, IsRot Q → (Q * H).trace ≤ (arunR U V * H).trace := by
  have hUU := rot_mul_transpose h.orthU
  have hVV := rot_mul_transpose h.orthV
  have hsig : 0 ≤ σ 2 ∧ σ 2 ≤ σ 1 ∧ σ 1 ≤ σ 0 := ⟨h.nonneg 2, h.anti 1 2 (by decide),
    h.anti 0 1 (by decide)⟩
  have hZ : ∀ Q : Mat3, IsRot Q → (V.transpose * Q * U).transpose * (V.transpose * Q * U) = 1 ∧
      (V.transpose * Q * U).det = (V * U.transpose).det := by
    intro Q hQ
    constructor
    · simp only [transpose_mul, transpose_transpose]
      calc U.transpose * (Q.transpose * V) * (V.transpose * Q * U)
          = U.transpose * (Q.transpose * ((V * V.transpose) * Q)) * U := by
            simp only [Matrix.mul_assoc]
        _ = 1 := by rw [hVV, Matrix.one_mul, hQ.1, Matrix.mul_one, h.orthU]
    · simp only [det_mul, det_transpose, hQ.2]
      ring
  have horth : (V * U.transpose).transpose * (V * U.transpose) = 1 := by
    simp only [transpose_mul, transpose_transpose]
    rw [Matrix.mul_assoc, ← Matrix.mul_assoc V.transpose, h.orthV, Matrix.one_mul, hUU]
  unfold arunR
  simp only
  split
  · rename_i hneg
    have hdet : (V * U.transpose).det = -1 := by
      rcases orth_det horth with e | e
      · rw [e] at hneg; norm_num at hneg
      · exact e
    rw [negCol_mul]
    have hD : (Matrix.diagonal ![1, 1, -1] : Mat3).transpose * Matrix.diagonal ![1, 1, -1] = 1 := by
      rw [diagonal_transpose, diagonal_mul_diagonal]
      apply mat3_ext <;> simp
    refine ⟨⟨?_, ?_⟩, ?_⟩
    · simp only [transpose_mul, transpose_transpose]
      calc U * (Matrix.diagonal ![1, 1, -1]).transpose * V.transpose *
            (V * (Matrix.diagonal ![1, 1, -1] * U.transpose))
          = U * (Matrix.diagonal ![1, 1, -1]).transpose * (V.transpose * V) *
            Matrix.diagonal ![1, 1, -1] * U.transpose := by simp only [Matrix.mul_assoc]
        _ = U * ((Matrix.diagonal ![1, 1, -1]).transpose * Matrix.diagonal ![1, 1, -1]) *
            U.transpose := by rw [h.orthV]; simp only [Matrix.mul_assoc, Matrix.one_mul]
        _ = 1 := by rw [hD, Matrix.mul_one, hUU]
    · rw [det_mul, det_mul, det_diagonal]
      rw [det_mul] at hdet
      simp [Fin.prod_univ_three]
      rw [det_transpose] at hdet
      linarith
    · intro Q hQ
      rw [h.eq, trace_svd, trace_svd]
      have hR : V.transpose * (V * (Matrix.diagonal ![1, 1, -1] * U.transpose)) * U =
          Matrix.diagonal ![1, 1, -1] := by
        calc V.transpose * (V * (Matrix.diagonal ![1, 1, -1] * U.transpose)) * U
            = (V.transpose * V) * Matrix.diagonal ![1, 1, -1] * (U.transpose * U) := by
              simp only [Matrix.mul_assoc]
          _ = _ := by rw [h.orthV, h.orthU, Matrix.one_mul, Matrix.mul_one]
      rw [hR]
      obtain ⟨z1, z2⟩ := hZ Q hQ
      generalize V.transpose * Q * U = Z at z1 z2
      have ht := reflection_trace_le z1 (by rw [z2, hdet])
      have d0 := orth_diag_le z1 0
      have d1 := orth_diag_le z1 1
      rw [Matrix.trace, Fin.sum_univ_three] at ht
      simp only [diag_apply] at ht
      simp
      nlinarith [mul_nonneg hsig.1 (sub_nonneg.2 ht),
        mul_nonneg (sub_nonneg.2 (hsig.2.1.trans hsig.2.2)) (sub_nonneg.2 d0),
        mul_nonneg (sub_nonneg.2 hsig.2.1) (sub_nonneg.2 d1)]
  · rename_i hneg
    have hdet : (V * U.transpose).det = 1 := by
      rcases orth_det horth with e | e
      · exact e
      · rw [e] at hneg; norm_num at hneg
    refine ⟨⟨horth, hdet⟩, ?_⟩
    intro Q hQ
    rw [h.eq, trace_svd, trace_svd]
    have hR : V.transpose * (V * U.transpose) * U = 1 := by
      calc V.transpose * (V * U.transpose) * U = (V.transpose * V) * (U.transpose * U) := by
            simp only [Matrix.mul_assoc]
        _ = 1 := by rw [h.orthV, h.orthU, Matrix.one_mul]
    rw [hR]
    obtain ⟨z1, _⟩ := hZ Q hQ
    generalize V.transpose * Q * U = Z at z1
    have d0 := orth_diag_le z1 0
    have d1 := orth_diag_le z1 1
    have d2 := orth_diag_le z1 2
    simp
    nlinarith [mul_nonneg (h.nonneg 0) (sub_nonneg.2 d0), mul_nonneg (h.nonneg 1) (sub_nonneg.2 d1),
      mul_nonneg (h.nonneg 2) (sub_nonneg.2 d2)]

/-! ### Sums over correspondences -/

theorem sumLoop_eq : ∀ (ps : List (Vec3 × Vec3)) (acc : Vec3 × Vec3),
    sumLoop ps acc = (acc.1 + (ps.map Prod.fst).sum, acc.2 + (ps.map Prod.snd).sum) := by
  intro ps
  induction ps with
  | nil => intro acc; simp [sumLoop]
  | cons p ps ih => intro acc; simp [sumLoop, ih, add_assoc]

theorem hcrossLoop_eq (c1 c2 : Vec3) : ∀ (ps : List (Vec3 × Vec3)) (H : Mat3),
    hcrossLoop c1 c2 ps H =
      H + (ps.map (fun p => vecMulVec (p.2 - c2) (p.1 - c1))).sum := by
  intro ps
  induction ps with
  | nil => intro H; simp [hcrossLoop]
  | cons p ps ih => intro H; simp [hcrossLoop, ih, add_assoc]

theorem trace_vecMulVec (Q : Mat3) (a b : Vec3) : (Q * vecMulVec a b).trace = b ⬝ᵥ (Q *ᵥ a) := by
  rw [mul_vecMulVec, Matrix.trace_vecMulVec, dotProduct_comm]

/-- `tr(Q H)` is the correlation of the centred points. -/
theorem trace_hcross (Q : Mat3) (c1 c2 : Vec3) (ps : List (Vec3 × Vec3)) :
    (Q * hcross c1 c2 ps).trace =
      (ps.map (fun p => (p.1 - c1) ⬝ᵥ (Q *ᵥ (p.2 - c2)))).sum := by
  rw [hcross, hcrossLoop_eq, zero_add]
  induction ps with
  | nil => simp
  | cons p ps ih =>
    simp only [List.map_cons, List.sum_cons, Matrix.mul_add, trace_add, trace_vecMulVec, ih]

theorem centers_eq {ps : List (Vec3 × Vec3)} {c : Vec3 × Vec3} (h : centers ps = some c) :
    (0 : ℝ) < ps.length ∧ (ps.map Prod.fst).sum = (ps.length : ℝ) • c.1 ∧
      (ps.map Prod.snd).sum = (ps.length : ℝ) • c.2 := by
  unfold centers at h
  split at h
  · simp at h
  · rename_i hn
    have hn' : (0 : ℝ) < ps.length := by exact_mod_cast Nat.pos_of_ne_zero hn
    have := Option.some.inj h
    rw [sumLoop_eq] at this
    simp only [zero_add] at this
    rw [← this]
    simp only [smul_smul, mul_inv_cancel₀ hn'.ne', one_smul]
    exact ⟨hn', trivial, trivial⟩

/-- Splitting the residuals into a centred part and a constant part. -/
theorem residual_split (c1 c2 : Vec3) (Q : Mat3) (w : Vec3) : ∀ ps : List (Vec3 × Vec3),
    (ps.map (fun p => ((p.1 - c1) - Q *ᵥ (p.2 - c2) + w) ⬝ᵥ
      ((p.1 - c1) - Q *ᵥ (p.2 - c2) + w))).sum =
    (ps.map (fun p => ((p.1 - c1) - Q *ᵥ (p.2 - c2)) ⬝ᵥ ((p.1 - c1) - Q *ᵥ (p.2 - c2)))).sum +
      2 * (w ⬝ᵥ (((ps.map Prod.fst).sum - (ps.length : ℝ) • c1) -
        Q *ᵥ ((ps.map Prod.snd).sum - (ps.length : ℝ) • c2))) + ps.length * (w ⬝ᵥ w) := by
  intro ps
  induction ps with
  | nil => simp
  | cons p ps ih =>
    simp only [List.map_cons, List.sum_cons, ih, List.length_cons, Nat.cast_add, Nat.cast_one]
    simp only [add_dotProduct, dotProduct_add, sub_dotProduct, dotProduct_sub, mulVec_sub,
      mulVec_add, mulVec_smul, add_smul, one_smul, dotProduct_comm w]
    ring

/-- Expansion of the centred residuals for an orthogonal matrix. -/
theorem residual_expand (c1 c2 : Vec3) (Q : Mat3) (hQ : Q.transpose * Q = 1) :
    ∀ ps : List (Vec3 × Vec3),
    (ps.map (fun p => ((p.1 - c1) - Q *ᵥ (p.2 - c2)) ⬝ᵥ ((p.1 - c1) - Q *ᵥ (p.2 - c2)))).sum =
    (ps.map (fun p => (p.1 - c1) ⬝ᵥ (p.1 - c1) + (p.2 - c2) ⬝ᵥ (p.2 - c2))).sum -
      2 * (ps.map (fun p => (p.1 - c1) ⬝ᵥ (Q *ᵥ (p.2 - c2)))).sum := by
  intro ps
  induction ps with
  | nil => simp
  | cons p ps ih =>
    simp only [List.map_cons, List.sum_cons, ih]
    have e : (Q *ᵥ (p.2 - c2)) ⬝ᵥ (Q *ᵥ (p.2 - c2)) = (p.2 - c2) ⬝ᵥ (p.2 - c2) := rot_dot hQ _ _
    rw [sub_dotProduct (p.1 - c1), dotProduct_sub (p.1 - c1), dotProduct_sub (Q *ᵥ (p.2 - c2)), e,
      dotProduct_comm (Q *ᵥ (p.2 - c2)) (p.1 - c1)]
    ring

/-- Equality in Cauchy-Schwarz, summed: if the correlations of `Z f` with `f` add up to at least
the squared lengths then `Z` fixes every `f`. -/
theorem fix_of_trace {Z : Mat3} (hZ : Z.transpose * Z = 1) (fs : List Vec3)
    (h : (fs.map (fun f => f ⬝ᵥ f)).sum ≤ (fs.map (fun f => f ⬝ᵥ (Z *ᵥ f))).sum) :
    ∀ f ∈ fs, Z *ᵥ f = f := by
  have hle : ∀ f : Vec3, f ⬝ᵥ (Z *ᵥ f) ≤ f ⬝ᵥ f := by
    intro f
    have h1 := cauchy3 f (Z *ᵥ f)
    rw [rot_dot hZ] at h1
    nlinarith [dot_self_nonneg3 f]
  have heq : ∀ f : Vec3, f ⬝ᵥ f ≤ f ⬝ᵥ (Z *ᵥ f) → Z *ᵥ f = f := by
    intro f hf
    have h1 : (Z *ᵥ f - f) ⬝ᵥ (Z *ᵥ f - f) = 2 * (f ⬝ᵥ f) - 2 * (f ⬝ᵥ (Z *ᵥ f)) := by
      rw [sub_dotProduct, dotProduct_sub, dotProduct_sub, rot_dot hZ, dotProduct_comm (Z *ᵥ f) f]
      ring
    have h2 := dot_self_nonneg3 (Z *ᵥ f - f)
    exact sub_eq_zero.1 (dot_self_eq_zero3.1 (le_antisymm (by linarith) h2))
  have hsum : ∀ fs : List Vec3, (fs.map (fun f => f ⬝ᵥ (Z *ᵥ f))).sum ≤
      (fs.map (fun f => f ⬝ᵥ f)).sum := by
    intro fs
    induction fs with
    | nil => simp
    | cons f fs ih =>
      simp only [List.map_cons, List.sum_cons]
      linarith [hle f]
  induction fs with
  | nil => simp
  | cons f fs ih =>
    simp only [List.map_cons, List.sum_cons] at h
    intro g hg
    rcases List.mem_cons.1 hg with rfl | hg
    · exact heq g (by linarith [hsum fs])
    · exact ih (by linarith [hle f]) g hg

theorem sum_nonpos_zero {α : Type} (f : α → ℝ) (hf : ∀ a, 0 ≤ f a) : ∀ l : List α,
    (l.map f).sum ≤ 0 → ∀ a ∈ l, f a = 0 := by
  have hnn : ∀ l : List α, 0 ≤ (l.map f).sum := by
    intro l
    induction l with
    | nil => simp
    | cons a l ih => simp only [List.map_cons, List.sum_cons]; linarith [hf a]
  intro l
  induction l with
  | nil => simp
  | cons a l ih =>
    intro h b hb
    simp only [List.map_cons, List.sum_cons] at h
    rcases List.mem_cons.1 hb with rfl | hb
    · linarith [hf b, hnn l]
    · exact ih (by linarith [hf a]) b hb

/-- Two rotations that agree on two independent vectors are equal. -/
theorem rot_eq_of_two {Q R : Mat3} (hQ : IsRot Q) (hR : IsRot R) {a b : Vec3}
    (hab : crossProduct a b ≠ 0) (ha : Q *ᵥ a = R *ᵥ a) (hb : Q *ᵥ b = R *ᵥ b) : Q = R := by
  have h1 : R.transpose * Q = 1 := by
    apply rot_fix_two (hR.transpose.mul hQ) hab
    · rw [← mulVec_mulVec, ha, mulVec_mulVec, hR.1, one_mulVec]
    · rw [← mulVec_mulVec, hb, mulVec_mulVec, hR.1, one_mulVec]
  calc Q = (R * R.transpose) * Q := by rw [rot_mul_transpose hR.1, Matrix.one_mul]
    _ = R := by rw [Matrix.mul_assoc, h1, Matrix.mul_one]

/-- Exact recovery of a rotation, for any choice of the subtracted point. -/
theorem arun_exact {U V R : Mat3} {σ c : Vec3} {qs : List Vec3} {ps : List (Vec3 × Vec3)}
    (h : IsSvd (hcross (R *ᵥ c) c ps) U V σ)
    (hR : IsRot R) (hps : ps = qs.map fun q => (R *ᵥ q, q)) {a b : Vec3}
    (ha : ∀ Z : Mat3, (∀ q ∈ qs, Z *ᵥ (q - c) = q - c) → Z *ᵥ a = a)
    (hb : ∀ Z : Mat3, (∀ q ∈ qs, Z *ᵥ (q - c) = q - c) → Z *ᵥ b = b)
    (hab : crossProduct a b ≠ 0) : arunR U V = R := by
  obtain ⟨hA, hopt⟩ := arun_spec h
  have h1 := hopt R hR
  rw [trace_hcross, trace_hcross, hps] at h1
  set Z := R.transpose * arunR U V with hZ
  have hZr : IsRot Z := hR.transpose.mul hA
  have hfix : ∀ f ∈ qs.map (fun q => q - c), Z *ᵥ f = f := by
    apply fix_of_trace hZr.1
    simp only [List.map_map, Function.comp_def] at h1 ⊢
    have e1 : (fun q : Vec3 => (R *ᵥ q - R *ᵥ c) ⬝ᵥ (R *ᵥ (q - c))) =
        fun q => (q - c) ⬝ᵥ (q - c) := by
      funext q
      rw [← mulVec_sub, rot_dot hR.1]
    have e2 : (fun q : Vec3 => (R *ᵥ q - R *ᵥ c) ⬝ᵥ (arunR U V *ᵥ (q - c))) =
        fun q => (q - c) ⬝ᵥ (Z *ᵥ (q - c)) := by
      funext q
      rw [← mulVec_sub, hZ, ← mulVec_mulVec]
      conv_rhs => rw [← rot_dot hR.1, mulVec_mulVec, rot_mul_transpose hR.1, one_mulVec]
    rw [e1, e2] at h1
    exact h1
  have hfix' : ∀ q ∈ qs, Z *ᵥ (q - c) = q - c := fun q hq =>
    hfix _ (List.mem_map.2 ⟨q, hq, rfl⟩)
  have hZ1 := rot_fix_two hZr hab (ha Z hfix') (hb Z hfix')
  calc arunR U V = (R * R.transpose) * arunR U V := by
        rw [rot_mul_transpose hR.1, Matrix.one_mul]
    _ = R := by rw [Matrix.mul_assoc, ← hZ, hZ1, Matrix.mul_one]

/-- Three different points of the unit sphere are not on a line. -/
theorem sphere_not_collinear {a b c : Vec3} (ha : a ⬝ᵥ a = 1) (hb : b ⬝ᵥ b = 1) (hc : c ⬝ᵥ c = 1)
    (hab : a ≠ b) (hac : a ≠ c) (hbc : b ≠ c) : crossProduct (b - a) (c - a) ≠ 0 := by
  intro h
  have hd : b - a ≠ 0 := sub_ne_zero.2 hab.symm
  have hd2 : (b - a) ⬝ᵥ (b - a) ≠ 0 := fun h0 => hd (dot_self_eq_zero3.1 h0)
  obtain ⟨k, hk⟩ : ∃ k : ℝ, c - a = k • (b - a) := by
    refine ⟨((b - a) ⬝ᵥ (c - a)) / ((b - a) ⬝ᵥ (b - a)), ?_⟩
    have h0 := congrFun h 0
    have h1 := congrFun h 1
    have h2 := congrFun h 2
    generalize c - a = v at *
    generalize b - a = u at *
    simp [cross_apply] at h0 h1 h2
    have key : (u ⬝ᵥ u) • v = (u ⬝ᵥ v) • u := by
      apply ext3 <;> simp only [Pi.smul_apply, smul_eq_mul, dot3]
      · linear_combination -u 1 * h2 + u 2 * h1
      · linear_combination u 0 * h2 - u 2 * h0
      · linear_combination -u 0 * h1 + u 1 * h0
    rw [div_eq_inv_mul, mul_smul, ← key, smul_smul, inv_mul_cancel₀ hd2, one_smul]
  have hc' : c = a + k • (b - a) := by rw [← hk]; abel
  have e1 : 2 * (a ⬝ᵥ (b - a)) + (b - a) ⬝ᵥ (b - a) = 0 := by
    have : b = a + (b - a) := by abel
    rw [this] at hb
    generalize b - a = u at *
    rw [add_dotProduct, dotProduct_add, dotProduct_add, dotProduct_comm u a] at hb
    linarith
  have e2 : 2 * k * (a ⬝ᵥ (b - a)) + k ^ 2 * ((b - a) ⬝ᵥ (b - a)) = 0 := by
    rw [hc'] at hc
    generalize b - a = u at *
    rw [add_dotProduct, dotProduct_add, dotProduct_add, dotProduct_smul, smul_dotProduct,
      smul_dotProduct, dotProduct_smul, dotProduct_comm u a] at hc
    simp only [smul_eq_mul] at hc
    linarith
  have e3 : k * (k - 1) * ((b - a) ⬝ᵥ (b - a)) = 0 := by linear_combination e2 - k * e1
  rcases mul_eq_zero.1 e3 with h4 | h4
  · rcases mul_eq_zero.1 h4 with h5 | h5
    · rw [h5, zero_smul, add_zero] at hc'
      exact hac hc'.symm
    · have : k = 1 := by linarith
      rw [this, one_smul] at hc'
      apply hbc
      rw [hc']; abel
  · exact hd2 h4

end OpenGV
