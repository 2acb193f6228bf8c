import Verif.Proof.EpnpExact
import Verif.Proof.SvdExists
import Mathlib.LinearAlgebra.Matrix.Rank

/-!
# A data set for EPnP

The eight corners of a cube seen by a camera with all of them in front of it.
-/

namespace OpenGV

open Matrix Spec

/-! ### Singular vectors and bounds -/

section
variable {M U V : Matrix (Fin 12) (Fin 12) ℝ} {σ : Fin 12 → ℝ}

theorem orth_dot {U : Matrix (Fin 12) (Fin 12) ℝ} (h : U.transpose * U = 1) (y : Fin 12 → ℝ) :
    (U.transpose *ᵥ y) ⬝ᵥ (U.transpose *ᵥ y) = y ⬝ᵥ y := by
  have h' : U * U.transpose = 1 := mul_eq_one_comm.1 h
  rw [dotProduct_mulVec, vecMul_transpose, mulVec_mulVec, h', one_mulVec]

theorem svd12_image_sq (h : IsSvd M U V σ) (hs : M.transpose = M) (y : Fin 12 → ℝ) :
    (M *ᵥ y) ⬝ᵥ (M *ᵥ y) = ∑ i, σ i ^ 2 * (U.transpose *ᵥ y) i ^ 2 := by
  have h2 : M = V * diagonal σ * U.transpose := hs ▸ (isSvd_transpose h).eq
  have h3 : V.transpose *ᵥ (M *ᵥ y) = diagonal σ *ᵥ (U.transpose *ᵥ y) := by
    conv_lhs => rw [h2]
    rw [mulVec_mulVec, Matrix.mul_assoc, ← Matrix.mul_assoc, h.orthV, Matrix.one_mul, mulVec_mulVec]
  rw [← orth_dot h.orthV, h3]
  apply Finset.sum_congr rfl
  intro i _
  rw [mulVec_diagonal]
  ring

/-- A subspace of dimension four on which the matrix is small bounds the fourth smallest singular
value. -/
theorem svd_bound (h : IsSvd M U V σ) (hs : M.transpose = M) (K : ℝ) (W : Matrix (Fin 12) (Fin 4) ℝ)
    (hW : ∀ w, w ≠ 0 → (M *ᵥ (W *ᵥ w)) ⬝ᵥ (M *ᵥ (W *ᵥ w)) < K * ((W *ᵥ w) ⬝ᵥ (W *ᵥ w))) :
    σ 8 ^ 2 < K := by
  obtain ⟨B, hB⟩ : ∃ B : Matrix (Fin 4) (Fin 4) ℝ, B = of ![(U.transpose * W) 9, (U.transpose * W) 10,
    (U.transpose * W) 11, 0] := ⟨_, rfl⟩
  have hdet : B.det = 0 := det_eq_zero_of_row_eq_zero 3 fun j => by rw [hB]; rfl
  obtain ⟨w, hw, hBw⟩ := Matrix.exists_mulVec_eq_zero_iff.2 hdet
  obtain ⟨y, hy⟩ : ∃ y, y = W *ᵥ w := ⟨_, rfl⟩
  have hz : ∀ i, U.transpose *ᵥ y = (U.transpose * W) *ᵥ w → (U.transpose *ᵥ y) i =
      ((U.transpose * W) i) ⬝ᵥ w := fun i e => by rw [e]; rfl
  have he : U.transpose *ᵥ y = (U.transpose * W) *ᵥ w := by rw [hy, mulVec_mulVec]
  have h9 : (U.transpose *ᵥ y) 9 = 0 := by
    rw [hz 9 he]
    have := congrFun hBw 0
    rw [hB] at this
    exact this
  have h10 : (U.transpose *ᵥ y) 10 = 0 := by
    rw [hz 10 he]
    have := congrFun hBw 1
    rw [hB] at this
    exact this
  have h11 : (U.transpose *ᵥ y) 11 = 0 := by
    rw [hz 11 he]
    have := congrFun hBw 2
    rw [hB] at this
    exact this
  have h1 := hW w hw
  rw [← hy] at h1
  have h2 : σ 8 ^ 2 * (y ⬝ᵥ y) ≤ (M *ᵥ y) ⬝ᵥ (M *ᵥ y) := by
    rw [svd12_image_sq h hs, ← orth_dot h.orthU]
    unfold dotProduct
    rw [Finset.mul_sum]
    apply Finset.sum_le_sum
    intro i _
    by_cases hi : i.val ≤ 8
    · have h3 : σ 8 ≤ σ i := h.anti i 8 hi
      have h4 : σ 8 ^ 2 ≤ σ i ^ 2 := pow_le_pow_left₀ (h.nonneg 8) h3 2
      rw [← sq]
      exact mul_le_mul_of_nonneg_right h4 (sq_nonneg _)
    · have hi' : i = 9 ∨ i = 10 ∨ i = 11 := by
        have := i.isLt
        rcases i with ⟨i, _⟩
        simp only [Fin.ext_iff] at hi ⊢
        simp
        omega
      rcases hi' with rfl | rfl | rfl
      · rw [h9]; simp
      · rw [h10]; simp
      · rw [h11]; simp
  have h5 : 0 ≤ y ⬝ᵥ y := Finset.sum_nonneg fun i _ => mul_self_nonneg _
  have h6 : 0 ≤ (M *ᵥ y) ⬝ᵥ (M *ᵥ y) := Finset.sum_nonneg fun i _ => mul_self_nonneg _
  rcases h5.eq_or_lt with h0 | h0
  · rw [← h0] at h1
    linarith
  · exact lt_of_mul_lt_mul_right (h2.trans_lt h1) h5

/-- On the last four singular vectors the matrix is small. -/
theorem svd_small (h : IsSvd M U V σ) (hs : M.transpose = M) (z : Fin 12 → ℝ)
    (hz : ∀ i : Fin 12, i.val < 8 → z i = 0) :
    (M *ᵥ (U *ᵥ z)) ⬝ᵥ (M *ᵥ (U *ᵥ z)) ≤ σ 8 ^ 2 * (z ⬝ᵥ z) := by
  rw [svd12_image_sq h hs, mulVec_mulVec, h.orthU, one_mulVec]
  unfold dotProduct
  rw [Finset.mul_sum]
  apply Finset.sum_le_sum
  intro i _
  by_cases hi : i.val < 8
  · rw [hz i hi]
    simp
  · have h3 : σ i ≤ σ 8 := h.anti 8 i (not_lt.1 hi)
    have h4 : σ i ^ 2 ≤ σ 8 ^ 2 := pow_le_pow_left₀ (h.nonneg i) h3 2
    rw [← sq]
    exact mul_le_mul_of_nonneg_right h4 (sq_nonneg _)

end

/-- The criterion for `L_6x4` to have independent columns: vectors that keep the six distances to
first order are stretched more than the last four singular vectors are. -/
theorem epnpL4_inj {M U V : Matrix (Fin 12) (Fin 12) ℝ} {σ : Fin 12 → ℝ} (h : IsSvd M U V σ)
    (hs : M.transpose = M) (K : ℝ) (hK : σ 8 ^ 2 < K) (c : Fin 4 → Vec3) {k : ℝ} (hk : k ≠ 0)
    (hv : ∀ j k', U (idx12 j k') 11 = k * c j k')
    (hy : ∀ y : Fin 12 → ℝ, (∀ i : Fin 6, (c (epnpPair i).1 - c (epnpPair i).2) ⬝ᵥ
      (fun k' => y (idx12 (epnpPair i).1 k') - y (idx12 (epnpPair i).2 k')) = 0) →
      K * (y ⬝ᵥ y) ≤ (M *ᵥ y) ⬝ᵥ (M *ᵥ y)) :
    ∀ d, epnpL4 (epnpL U) *ᵥ d = 0 → d = 0 := by
  intro d hd
  obtain ⟨z, hz⟩ : ∃ z : Fin 12 → ℝ, z = ![0, 0, 0, 0, 0, 0, 0, 0, 2 * d 3, 2 * d 2, 2 * d 1, d 0] :=
    ⟨_, rfl⟩
  have hUz : ∀ i, (U *ᵥ z) i = d 0 * epnpV U 0 i + 2 * d 1 * epnpV U 1 i + 2 * d 2 * epnpV U 2 i +
      2 * d 3 * epnpV U 3 i := by
    intro i
    unfold mulVec dotProduct
    rw [sum12, hz]
    show U i 0 * 0 + U i 1 * 0 + U i 2 * 0 + U i 3 * 0 + U i 4 * 0 + U i 5 * 0 + U i 6 * 0 + U i 7 * 0 +
      U i 8 * (2 * d 3) + U i 9 * (2 * d 2) + U i 10 * (2 * d 1) + U i 11 * d 0 =
      d 0 * U i 11 + 2 * d 1 * U i 10 + 2 * d 2 * U i 9 + 2 * d 3 * U i 8
    ring
  have h1 := hy (U *ᵥ z) fun i => by
    have hr := congrFun hd i
    rw [epnpL4_mulVec] at hr
    have l0 : epnpL U i 0 = epnpDv U 0 i ⬝ᵥ epnpDv U 0 i := rfl
    have l1 : epnpL U i 1 = 2 * (epnpDv U 0 i ⬝ᵥ epnpDv U 1 i) := rfl
    have l3 : epnpL U i 3 = 2 * (epnpDv U 0 i ⬝ᵥ epnpDv U 2 i) := rfl
    have l6 : epnpL U i 6 = 2 * (epnpDv U 0 i ⬝ᵥ epnpDv U 3 i) := rfl
    rw [l0, l1, l3, l6] at hr
    have hdv : epnpDv U 0 i = k • (c (epnpPair i).1 - c (epnpPair i).2) := by
      funext m
      have e : ∀ j, epnpV U 0 (idx12 j m) = k * c j m := fun j => hv j m
      simp only [epnpDv, e, Pi.smul_apply, Pi.sub_apply, smul_eq_mul]
      ring
    have hdiff : (fun k' => (U *ᵥ z) (idx12 (epnpPair i).1 k') - (U *ᵥ z) (idx12 (epnpPair i).2 k')) =
        d 0 • epnpDv U 0 i + (2 * d 1) • epnpDv U 1 i + (2 * d 2) • epnpDv U 2 i +
          (2 * d 3) • epnpDv U 3 i := by
      funext m
      simp only [hUz, epnpDv, Pi.add_apply, Pi.smul_apply, smul_eq_mul]
      ring
    have h2 : k * ((c (epnpPair i).1 - c (epnpPair i).2) ⬝ᵥ (d 0 • epnpDv U 0 i +
        (2 * d 1) • epnpDv U 1 i + (2 * d 2) • epnpDv U 2 i + (2 * d 3) • epnpDv U 3 i)) = 0 := by
      rw [← smul_eq_mul, ← smul_dotProduct, ← hdv]
      simp only [dotProduct_add, dotProduct_smul, smul_eq_mul]
      have : (0 : Fin 6 → ℝ) i = 0 := rfl
      rw [this] at hr
      linarith
    rw [hdiff]
    exact (mul_eq_zero.1 h2).resolve_left hk
  have h2 := svd_small h hs z (by
    intro i hi
    rw [hz]
    rcases i with ⟨i, hi'⟩
    simp only at hi
    interval_cases i <;> rfl)
  have h3 : (U *ᵥ z) ⬝ᵥ (U *ᵥ z) = z ⬝ᵥ z := by
    have := orth_dot (U := U) h.orthU (U *ᵥ z)
    rw [mulVec_mulVec, h.orthU, one_mulVec] at this
    exact this.symm
  rw [h3] at h1
  have h4 : 0 ≤ z ⬝ᵥ z := Finset.sum_nonneg fun i _ => mul_self_nonneg _
  have h5 : z ⬝ᵥ z = 0 := by nlinarith
  have h6 : z = 0 := dotProduct_self_eq_zero.1 h5
  have e0 : d 0 = 0 := by
    have := congrFun h6 11
    rw [hz] at this
    exact this
  have e1 : 2 * d 1 = 0 := by
    have := congrFun h6 10
    rw [hz] at this
    exact this
  have e2 : 2 * d 2 = 0 := by
    have := congrFun h6 9
    rw [hz] at this
    exact this
  have e3 : 2 * d 3 = 0 := by
    have := congrFun h6 8
    rw [hz] at this
    exact this
  funext i
  fin_cases i
  · exact e0
  · show d 1 = 0; linarith
  · show d 2 = 0; linarith
  · show d 3 = 0; linarith

/-! ### Least squares -/

theorem exists_leastSquares {m n : ℕ} (A : Matrix (Fin m) (Fin n) ℝ) (b : Fin m → ℝ) :
    ∃ x, IsLeastSquares A b x := by
  have hr : LinearMap.range (A.transpose * A).mulVecLin = LinearMap.range A.transpose.mulVecLin := by
    apply Submodule.eq_of_le_of_finrank_eq
    · rintro _ ⟨y, rfl⟩
      exact ⟨A *ᵥ y, by simp⟩
    · have h1 := Matrix.rank_transpose_mul_self A
      have h2 := Matrix.rank_transpose A
      unfold Matrix.rank at h1 h2
      rw [h1, h2]
  have hm : A.transpose *ᵥ b ∈ LinearMap.range A.transpose.mulVecLin := ⟨b, rfl⟩
  rw [← hr] at hm
  obtain ⟨x, hx⟩ := hm
  refine ⟨x, fun j => ?_⟩
  have h1 : (A.transpose *ᵥ (b - A *ᵥ x)) j = 0 := by
    rw [mulVec_sub, mulVec_mulVec]
    have : (A.transpose * A) *ᵥ x = A.transpose *ᵥ b := hx
    rw [this, sub_self]
    rfl
  exact h1

/-! ### The data -/

/-- The corners of a cube and their bearing vectors for the camera `X ↦ R X + t` with
`R X = (X 1, X 2, X 0)` and `t = (4, 4, 4)`. -/
noncomputable def epnpExampleObs : List (Vec3 × Vec3) :=
  [(![1, 1, 1], ![5, 5, 5]), (![1, 1, -1], ![5, 3, 5]),
   (![1, -1, 1], ![3, 5, 5]), (![1, -1, -1], ![3, 3, 5]),
   (![-1, 1, 1], ![5, 5, 3]), (![-1, 1, -1], ![5, 3, 3]),
   (![-1, -1, 1], ![3, 5, 3]), (![-1, -1, -1], ![3, 3, 3])]

/-- The correspondences of the data. -/
noncomputable def epnpExampleCs : List EpnpCorr :=
  [⟨![1, 1, 1], 5 / 5, 5 / 5, 1⟩, ⟨![1, 1, -1], 5 / 5, 3 / 5, 1⟩,
   ⟨![1, -1, 1], 3 / 5, 5 / 5, 1⟩, ⟨![1, -1, -1], 3 / 5, 3 / 5, 1⟩,
   ⟨![-1, 1, 1], 5 / 3, 5 / 3, 1⟩, ⟨![-1, 1, -1], 5 / 3, 3 / 3, 1⟩,
   ⟨![-1, -1, 1], 3 / 3, 5 / 3, 1⟩, ⟨![-1, -1, -1], 3 / 3, 3 / 3, 1⟩]

/-- The rotation of the data. -/
def epnpExampleR : Mat3 := !![0, 1, 0; 0, 0, 1; 1, 0, 0]

theorem epnpExample_mapM : (epnpExampleObs.mapM fun o => epnpAdd o.1 o.2) = some epnpExampleCs := by
  have h : ∀ (P : Vec3) (x y z : ℝ), 0 < z → epnpAdd P ![x, y, z] = some ⟨P, x / z, y / z, 1⟩ := by
    intro P x y z hz
    unfold epnpAdd
    have e : (![x, y, z] : Vec3) 2 = z := rfl
    rw [e, if_neg hz.ne', if_pos hz]
    rfl
  have h5 : (0 : ℝ) < 5 := by norm_num
  have h3 : (0 : ℝ) < 3 := by norm_num
  simp only [epnpExampleObs, List.mapM_cons, List.mapM_nil, h _ _ _ 5 h5, h _ _ _ 3 h3]
  rfl

theorem epnpExample_centroid : epnpCentroid epnpExampleCs = 0 := by
  unfold epnpCentroid epnpExampleCs
  ext i
  fin_cases i <;> norm_num

theorem epnpExample_cov : epnpCov epnpExampleCs = (8 : ℝ) • (1 : Mat3) := by
  unfold epnpCov
  rw [epnpExample_centroid]
  unfold epnpExampleCs
  ext i j
  fin_cases i <;> fin_cases j <;> simp <;> norm_num

/-- The control points. -/
def epnpExampleCws : Fin 4 → Vec3 := ![![0, 0, 0], ![1, 0, 0], ![0, 1, 0], ![0, 0, 1]]

theorem epnpExample_cws : epnpCws epnpExampleCs 1 (fun _ => 8) = epnpExampleCws := by
  unfold epnpCws
  rw [epnpExample_centroid]
  have h : √((8 : ℝ) / (epnpExampleCs.length : ℝ)) = 1 := by
    have : (epnpExampleCs.length : ℝ) = 8 := by
      have : epnpExampleCs.length = 8 := rfl
      rw [this]
      norm_num
    rw [this, div_self (by norm_num), Real.sqrt_one]
  rw [h]
  ext j i
  fin_cases j <;> fin_cases i <;> simp [epnpExampleCws]

theorem epnpExample_alpha (p : Vec3) :
    epnpAlpha epnpExampleCws p = ![1 - p 0 - p 1 - p 2, p 0, p 1, p 2] := by
  have h : epnpCC epnpExampleCws = 1 := by
    ext i j
    fin_cases i <;> fin_cases j <;> simp [epnpCC, epnpExampleCws]
  have h0 : epnpExampleCws 0 = 0 := by
    ext i
    fin_cases i <;> rfl
  unfold epnpAlpha
  rw [h, inv_one, one_mulVec, h0, sub_zero]

/-- The matrix of the linear system of the data, times 225 / 8. -/
def epnpExampleN (x : Fin 12 → ℝ) : Fin 12 → ℝ :=
  ![900 * x 0 - 930 * x 2 - 225 * x 3 + 285 * x 5 - 225 * x 6 + 165 * x 8 - 225 * x 9 + 240 * x 11,
    900 * x 1 - 930 * x 2 - 225 * x 4 + 285 * x 5 - 225 * x 7 + 240 * x 8 - 225 * x 10 + 165 * x 11,
    -930 * x 0 - 930 * x 1 + 2056 * x 2 + 285 * x 3 + 285 * x 4 - 722 * x 5 + 165 * x 6 + 240 * x 7 - 378 * x 8 + 240 * x 9 + 165 * x 10 - 378 * x 11,
    -225 * x 0 + 285 * x 2 + 225 * x 3 - 240 * x 5 + 15 * x 8,
    -225 * x 1 + 285 * x 2 + 225 * x 4 - 240 * x 5 + 15 * x 11,
    285 * x 0 + 285 * x 1 - 722 * x 2 - 240 * x 3 - 240 * x 4 + 578 * x 5 + 15 * x 6 - 64 * x 8 + 15 * x 10 - 64 * x 11,
    -225 * x 0 + 165 * x 2 + 15 * x 5 + 225 * x 6 - 240 * x 8,
    -225 * x 1 + 240 * x 2 + 225 * x 7 - 240 * x 8,
    165 * x 0 + 240 * x 1 - 378 * x 2 + 15 * x 3 - 64 * x 5 - 240 * x 6 - 240 * x 7 + 578 * x 8,
    -225 * x 0 + 240 * x 2 + 225 * x 9 - 240 * x 11,
    -225 * x 1 + 165 * x 2 + 15 * x 5 + 225 * x 10 - 240 * x 11,
    240 * x 0 + 165 * x 1 - 378 * x 2 + 15 * x 4 - 64 * x 5 - 240 * x 9 - 240 * x 10 + 578 * x 11]

theorem epnpExample_term (a : Fin 4 → ℝ) (u v : ℝ) (x : Fin 12 → ℝ) :
    (vecMulVec (epnpRowU a u) (epnpRowU a u) + vecMulVec (epnpRowV a v) (epnpRowV a v)) *ᵥ x =
      (a 0 * x 0 + a 1 * x 3 + a 2 * x 6 + a 3 * x 9 -
        u * (a 0 * x 2 + a 1 * x 5 + a 2 * x 8 + a 3 * x 11)) • epnpRowU a u +
      (a 0 * x 1 + a 1 * x 4 + a 2 * x 7 + a 3 * x 10 -
        v * (a 0 * x 2 + a 1 * x 5 + a 2 * x 8 + a 3 * x 11)) • epnpRowV a v := by
  have e : ∀ r : Fin 12 → ℝ, vecMulVec r r *ᵥ x = (r ⬝ᵥ x) • r := by
    intro r
    funext i
    simp only [mulVec, dotProduct, vecMulVec_apply, Pi.smul_apply, smul_eq_mul, Finset.sum_mul]
    exact Finset.sum_congr rfl fun j _ => by ring
  rw [add_mulVec, e, e, epnpRowU_dot, epnpRowV_dot]
  rfl

/-- The contribution of one correspondence. -/
def epnpExampleT (p0 p1 p2 u v : ℝ) (x : Fin 12 → ℝ) : Fin 12 → ℝ :=
  let su := (1 - p0 - p1 - p2) * x 0 + p0 * x 3 + p1 * x 6 + p2 * x 9 -
    u * ((1 - p0 - p1 - p2) * x 2 + p0 * x 5 + p1 * x 8 + p2 * x 11)
  let sv := (1 - p0 - p1 - p2) * x 1 + p0 * x 4 + p1 * x 7 + p2 * x 10 -
    v * ((1 - p0 - p1 - p2) * x 2 + p0 * x 5 + p1 * x 8 + p2 * x 11)
  let st := -(u * su) - v * sv
  ![(1 - p0 - p1 - p2) * su, (1 - p0 - p1 - p2) * sv, (1 - p0 - p1 - p2) * st,
    p0 * su, p0 * sv, p0 * st, p1 * su, p1 * sv, p1 * st, p2 * su, p2 * sv, p2 * st]

theorem epnpExample_T (p0 p1 p2 u v : ℝ) (x : Fin 12 → ℝ) :
    (vecMulVec (epnpRowU (epnpAlpha epnpExampleCws ![p0, p1, p2]) u)
        (epnpRowU (epnpAlpha epnpExampleCws ![p0, p1, p2]) u) +
      vecMulVec (epnpRowV (epnpAlpha epnpExampleCws ![p0, p1, p2]) v)
        (epnpRowV (epnpAlpha epnpExampleCws ![p0, p1, p2]) v)) *ᵥ x = epnpExampleT p0 p1 p2 u v x := by
  rw [epnpExample_term, epnpExample_alpha]
  funext i
  fin_cases i <;>
    · simp [epnpRowU, epnpRowV, epnpExampleT]
      try ring

theorem epnpExample_M (x : Fin 12 → ℝ) :
    epnpMtM epnpExampleCws epnpExampleCs *ᵥ x = (8 / 225 : ℝ) • epnpExampleN x := by
  unfold epnpMtM
  rw [list_sum_mulVec]
  have h : (epnpExampleCs.map fun c =>
      (vecMulVec (epnpRowU (epnpAlpha epnpExampleCws c.pw) c.u)
        (epnpRowU (epnpAlpha epnpExampleCws c.pw) c.u) +
      vecMulVec (epnpRowV (epnpAlpha epnpExampleCws c.pw) c.v)
        (epnpRowV (epnpAlpha epnpExampleCws c.pw) c.v)) *ᵥ x).sum =
      epnpExampleT 1 1 1 (5 / 5) (5 / 5) x +
      (epnpExampleT 1 1 (-1) (5 / 5) (3 / 5) x +
      (epnpExampleT 1 (-1) 1 (3 / 5) (5 / 5) x +
      (epnpExampleT 1 (-1) (-1) (3 / 5) (3 / 5) x +
      (epnpExampleT (-1) 1 1 (5 / 3) (5 / 3) x +
      (epnpExampleT (-1) 1 (-1) (5 / 3) (3 / 3) x +
      (epnpExampleT (-1) (-1) 1 (3 / 3) (5 / 3) x +
      (epnpExampleT (-1) (-1) (-1) (3 / 3) (3 / 3) x + 0))))))) := by
    simp only [epnpExampleCs, List.map_cons, List.map_nil, List.sum_cons, List.sum_nil, epnpExample_T]
  rw [h]
  funext i
  simp only [Pi.add_apply, Pi.zero_apply, Pi.smul_apply, smul_eq_mul]
  fin_cases i <;>
    · simp only [epnpExampleT, epnpExampleN]
      simp
      ring

/-- Four vectors on which the matrix is small. -/
def epnpExampleW : Matrix (Fin 12) (Fin 4) ℝ :=
  !![4, 7, -3, -11;
    4, 7, 3, -11;
    4, 3, 0, -13;
    4, -12, -3, 1;
    4, -12, 3, 1;
    5, -14, 0, -4;
    5, 6, -14, 5;
    4, 4, -7, 9;
    4, 0, -9, 5;
    4, 4, 7, 9;
    5, 6, 14, 5;
    4, 0, 9, 5]

theorem epnpExample_W (w : Fin 4 → ℝ) : epnpExampleW *ᵥ w =
    ![4 * w 0 + 7 * w 1 - 3 * w 2 - 11 * w 3,
      4 * w 0 + 7 * w 1 + 3 * w 2 - 11 * w 3,
      4 * w 0 + 3 * w 1 - 13 * w 3,
      4 * w 0 - 12 * w 1 - 3 * w 2 + w 3,
      4 * w 0 - 12 * w 1 + 3 * w 2 + w 3,
      5 * w 0 - 14 * w 1 - 4 * w 3,
      5 * w 0 + 6 * w 1 - 14 * w 2 + 5 * w 3,
      4 * w 0 + 4 * w 1 - 7 * w 2 + 9 * w 3,
      4 * w 0 - 9 * w 2 + 5 * w 3,
      4 * w 0 + 4 * w 1 + 7 * w 2 + 9 * w 3,
      5 * w 0 + 6 * w 1 + 14 * w 2 + 5 * w 3,
      4 * w 0 + 9 * w 2 + 5 * w 3] := by
  funext i
  unfold mulVec
  rw [dotProduct, Fin.sum_univ_four]
  fin_cases i <;> simp [epnpExampleW] <;> ring

theorem dot12 (a b : Fin 12 → ℝ) : a ⬝ᵥ b = a 0 * b 0 + a 1 * b 1 + a 2 * b 2 + a 3 * b 3 + a 4 * b 4 +
    a 5 * b 5 + a 6 * b 6 + a 7 * b 7 + a 8 * b 8 + a 9 * b 9 + a 10 * b 10 + a 11 * b 11 := by
  unfold dotProduct
  rw [sum12]

theorem epnpExample_small (w : Fin 4 → ℝ) (hw : w ≠ 0) :
    epnpExampleN (epnpExampleW *ᵥ w) ⬝ᵥ epnpExampleN (epnpExampleW *ᵥ w) <
      1350 * ((epnpExampleW *ᵥ w) ⬝ᵥ (epnpExampleW *ᵥ w)) := by
  have h : 1350 * ((epnpExampleW *ᵥ w) ⬝ᵥ (epnpExampleW *ᵥ w)) -
      epnpExampleN (epnpExampleW *ᵥ w) ⬝ᵥ epnpExampleN (epnpExampleW *ᵥ w) =
    295650 * (w 0 - 2 / 73 * w 1 + 10 / 219 * w 3) ^ 2 +
    51812486 / 73 * (w 1 + 1454593 / 25906243 * w 3) ^ 2 +
    575802 * (w 2) ^ 2 +
    1559295340866 / 25906243 * (w 3) ^ 2 := by
    rw [dot12, dot12, epnpExample_W]
    simp [epnpExampleN]
    ring
  have hpos : 0 < 295650 * (w 0 - 2 / 73 * w 1 + 10 / 219 * w 3) ^ 2 +
    51812486 / 73 * (w 1 + 1454593 / 25906243 * w 3) ^ 2 +
    575802 * (w 2) ^ 2 +
    1559295340866 / 25906243 * (w 3) ^ 2 := by
    rcases eq_or_ne (w 3) 0 with h3 | h3
    · rcases eq_or_ne (w 2) 0 with h2 | h2
      · rcases eq_or_ne (w 1) 0 with h1 | h1
        · have h0 : w 0 ≠ 0 := by
            intro h0
            apply hw
            funext i
            fin_cases i <;> assumption
          rw [h1, h2, h3]
          simp only [mul_zero, sub_zero, add_zero]
          positivity
        · rw [h2, h3]
          simp only [mul_zero, add_zero]
          positivity
      · positivity
    · positivity
  linarith

theorem epnpExample_large (y : Fin 12 → ℝ) (h3 : y 5 = y 2) (h6 : y 6 = y 0) (h10 : y 10 = y 1)
    (h8 : y 8 - y 2 = -(y 3 - y 0)) (h11 : y 11 - y 2 = -(y 4 - y 1))
    (h9 : y 9 - y 0 = -(y 7 - y 1)) :
    1350 * (y ⬝ᵥ y) ≤ epnpExampleN y ⬝ᵥ epnpExampleN y := by
  obtain ⟨p, hp⟩ : ∃ p, p = y 0 := ⟨_, rfl⟩
  obtain ⟨q, hq⟩ : ∃ q, q = y 1 := ⟨_, rfl⟩
  obtain ⟨r, hr⟩ : ∃ r, r = y 2 := ⟨_, rfl⟩
  obtain ⟨a, ha⟩ : ∃ a, a = y 3 - y 0 := ⟨_, rfl⟩
  obtain ⟨b, hb⟩ : ∃ b, b = y 4 - y 1 := ⟨_, rfl⟩
  obtain ⟨c, hc⟩ : ∃ c, c = y 7 - y 1 := ⟨_, rfl⟩
  have hy : y = ![p, q, r, p + a, q + b, r, p, q + c, r - a, p - c, q, r - b] := by
    funext i
    fin_cases i <;> simp <;> linarith
  have h : epnpExampleN y ⬝ᵥ epnpExampleN y - 1350 * (y ⬝ᵥ y) =
    110025 * (p + 272 / 489 * q - 2896 / 1467 * r - 1000 / 489 * a - 14912 / 7335 * b + 295 / 489 * c) ^ 2 +
    12385275 / 163 * (q - 2896 / 2283 * r - 1070656 / 825685 * a - 3278936 / 2477055 * b - 295 / 217 * c) ^ 2 +
    13866060 / 761 * (r - 4051401 / 1155505 * a - 4051401 / 1155505 * b) ^ 2 +
    85739499858746 / 250744585 * (a - 38638167446899 / 85739499858746 * b + 19704069909225 / 42869749929373 * c) ^ 2 +
    23363829980110237539 / 85739499858746 * (b - 11368230 / 35879743 * c) ^ 2 +
    1253660494050 / 35879743 * (c) ^ 2 := by
    rw [dot12, dot12, hy]
    simp [epnpExampleN]
    ring
  have hpos : 0 ≤ 110025 * (p + 272 / 489 * q - 2896 / 1467 * r - 1000 / 489 * a - 14912 / 7335 * b + 295 / 489 * c) ^ 2 +
    12385275 / 163 * (q - 2896 / 2283 * r - 1070656 / 825685 * a - 3278936 / 2477055 * b - 295 / 217 * c) ^ 2 +
    13866060 / 761 * (r - 4051401 / 1155505 * a - 4051401 / 1155505 * b) ^ 2 +
    85739499858746 / 250744585 * (a - 38638167446899 / 85739499858746 * b + 19704069909225 / 42869749929373 * c) ^ 2 +
    23363829980110237539 / 85739499858746 * (b - 11368230 / 35879743 * c) ^ 2 +
    1253660494050 / 35879743 * (c) ^ 2 := by
    positivity
  linarith

theorem epnpExample_see : ∀ c ∈ epnpExampleCs, Sees epnpExampleR ![4, 4, 4] c := by
  intro c hc
  simp only [epnpExampleCs, List.mem_cons, List.not_mem_nil, or_false] at hc
  rcases hc with rfl | rfl | rfl | rfl | rfl | rfl | rfl | rfl <;>
    · simp [Sees, epnpExampleR]
      try norm_num

theorem epnpExample_plane : ¬ Coplanar (epnpExampleCs.map EpnpCorr.pw) := by
  rintro ⟨y, hy, d, h⟩
  have h1 := h ![1, 1, 1] (by simp [epnpExampleCs])
  have h2 := h ![1, 1, -1] (by simp [epnpExampleCs])
  have h3 := h ![1, -1, 1] (by simp [epnpExampleCs])
  have h4 := h ![-1, 1, 1] (by simp [epnpExampleCs])
  simp only [dot3] at h1 h2 h3 h4
  simp at h1 h2 h3 h4
  apply hy
  funext i
  fin_cases i
  · show y 0 = 0; linarith
  · show y 1 = 0; linarith
  · show y 2 = 0; linarith

theorem epnpExample_unique (A : Mat3) (b : Vec3)
    (h : ∀ o ∈ epnpExampleObs, crossProduct o.2 (A *ᵥ o.1 + b) = 0) :
    ∃ k : ℝ, A = k • epnpExampleR ∧ b = k • ![4, 4, 4] := by
  have g : ∀ (p0 p1 p2 x y z : ℝ), (![p0, p1, p2], ![x, y, z]) ∈ epnpExampleObs →
      y * (A 2 0 * p0 + A 2 1 * p1 + A 2 2 * p2 + b 2) -
        z * (A 1 0 * p0 + A 1 1 * p1 + A 1 2 * p2 + b 1) = 0 ∧
      z * (A 0 0 * p0 + A 0 1 * p1 + A 0 2 * p2 + b 0) -
        x * (A 2 0 * p0 + A 2 1 * p1 + A 2 2 * p2 + b 2) = 0 := by
    intro p0 p1 p2 x y z ho
    have := h _ ho
    constructor
    · have h0 := congrFun this 0
      simp [cross_apply, mulVec, dotProduct, Fin.sum_univ_three] at h0
      linarith
    · have h0 := congrFun this 1
      simp [cross_apply, mulVec, dotProduct, Fin.sum_univ_three] at h0
      linarith
  have g1 := g 1 1 1 5 5 5 (by simp [epnpExampleObs])
  have g2 := g 1 1 (-1) 5 3 5 (by simp [epnpExampleObs])
  have g3 := g 1 (-1) 1 3 5 5 (by simp [epnpExampleObs])
  have g4 := g 1 (-1) (-1) 3 3 5 (by simp [epnpExampleObs])
  have g5 := g (-1) 1 1 5 5 3 (by simp [epnpExampleObs])
  have g6 := g (-1) 1 (-1) 5 3 3 (by simp [epnpExampleObs])
  have g7 := g (-1) (-1) 1 3 5 3 (by simp [epnpExampleObs])
  clear g h
  obtain ⟨a1, b1⟩ := g1
  obtain ⟨a2, b2⟩ := g2
  obtain ⟨a3, b3⟩ := g3
  obtain ⟨a4, b4⟩ := g4
  obtain ⟨a5, b5⟩ := g5
  obtain ⟨a6, b6⟩ := g6
  obtain ⟨a7, b7⟩ := g7
  refine ⟨A 2 0, ?_, ?_⟩
  · apply mat3_ext <;> simp [epnpExampleR] <;> linarith
  · funext i
    fin_cases i <;> simp <;> linarith

/-- Decompositions for the data. -/
theorem epnpExample_svds : ∃ S : EpnpSvds,
    (∀ A, IsSvd A (S.svd3 A).1 (S.svd3 A).2.1 (S.svd3 A).2.2) ∧
    (∀ A, ∃ V σ, IsSvd A (S.svd12 A) V σ) ∧ (∀ A b, IsLeastSquares A b (S.solve4 A b)) ∧
    (S.svd3 (epnpCov epnpExampleCs)).1 = 1 ∧ (S.svd3 (epnpCov epnpExampleCs)).2.2 = fun _ => 8 := by
  classical
  choose U3 V3 s3 h3 using exists_svd (n := 3)
  choose U12 V12 s12 h12 using exists_svd (n := 12)
  choose x4 hx4 using exists_leastSquares (m := 6) (n := 4)
  refine ⟨⟨fun A => if A = (8 : ℝ) • (1 : Mat3) then (1, 1, fun _ => 8) else (U3 A, V3 A, s3 A),
    U12, fun _ _ => 0, x4, fun _ _ => 0⟩, ?_, ?_, ?_, ?_, ?_⟩
  · intro A
    simp only
    by_cases h : A = (8 : ℝ) • (1 : Mat3)
    · rw [if_pos h]
      exact ⟨by simp, by simp, by rw [h, smul_one_eq_diagonal]; simp, fun _ => by norm_num,
        fun _ _ _ => le_rfl⟩
    · rw [if_neg h]
      exact h3 A
  · exact fun A => ⟨_, _, h12 A⟩
  · exact hx4
  · simp only [epnpExample_cov, if_true]
  · simp only [epnpExample_cov, if_true]

/-- `L_6x4` has independent columns for every decomposition of the matrix of the data. -/
theorem epnpExample_inj {U V : Matrix (Fin 12) (Fin 12) ℝ} {σ : Fin 12 → ℝ}
    (h : IsSvd (epnpMtM epnpExampleCws epnpExampleCs) U V σ) :
    ∀ d, epnpL4 (epnpL U) *ᵥ d = 0 → d = 0 := by
  have hs := epnpMtM_symm epnpExampleCws epnpExampleCs
  have hdet : (epnpCC epnpExampleCws).det ≠ 0 := by
    have h : epnpCC epnpExampleCws = 1 := by
      ext i j
      fin_cases i <;> fin_cases j <;> simp [epnpCC, epnpExampleCws]
    rw [h, det_one]
    exact one_ne_zero
  have hMM : ∀ y : Fin 12 → ℝ, (epnpMtM epnpExampleCws epnpExampleCs *ᵥ y) ⬝ᵥ
      (epnpMtM epnpExampleCws epnpExampleCs *ᵥ y) =
      (8 / 225) ^ 2 * (epnpExampleN y ⬝ᵥ epnpExampleN y) := by
    intro y
    rw [epnpExample_M, smul_dotProduct, dotProduct_smul, smul_eq_mul, smul_eq_mul]
    ring
  have hK : σ 8 ^ 2 < (8 / 225) ^ 2 * 1350 := svd_bound h hs _ epnpExampleW fun w hw => by
    rw [hMM]
    have := epnpExample_small w hw
    linarith
  have hker := epnpMtM_true hdet (R := epnpExampleR) (t := ![4, 4, 4])
    fun c hc => ⟨(epnpExample_see c hc).1, (epnpExample_see c hc).2.1⟩
  have hcne : stack12 (fun j => epnpExampleR *ᵥ epnpExampleCws j + ![4, 4, 4]) ≠ 0 := by
    intro e
    have := congrFun e 0
    simp [stack12, epnpExampleR, epnpExampleCws] at this
  obtain ⟨hv0, hvne⟩ := svd_last_ker h hs hcne hker
  obtain ⟨k, hv⟩ := epnpMtM_unique hdet (R := epnpExampleR) (t := ![4, 4, 4]) (fun A b hAb => by
    exact epnpExample_unique A b (epnp_cross_of_proj epnpExample_mapM hAb)) hv0
  have hk : k ≠ 0 := by
    rintro rfl
    apply hvne
    have : ∀ j k', U (idx12 j k') 11 = 0 := fun j k' => by
      have := hv j k'
      simpa using this
    funext i
    have hi : i = idx12 ⟨i.val / 3, by omega⟩ ⟨i.val % 3, by omega⟩ := by
      apply Fin.ext
      simp only [idx12]
      omega
    rw [hi]
    exact this _ _
  have hcc : ∀ j, epnpExampleR *ᵥ epnpExampleCws j + ![4, 4, 4] =
      (![![4, 4, 4], ![4, 4, 5], ![5, 4, 4], ![4, 5, 4]] : Fin 4 → Vec3) j := by
    intro j
    funext i
    fin_cases j <;> fin_cases i <;>
      norm_num [epnpExampleR, epnpExampleCws, mulVec, dotProduct, Fin.sum_univ_three]
  apply epnpL4_inj h hs _ hK _ hk (fun j k' => by rw [hv j k', hcc])
  intro y hy
  rw [hMM, mul_assoc]
  have c1 := hy 0
  have c2 := hy 1
  have c3 := hy 2
  have c4 := hy 3
  have c5 := hy 4
  have c6 := hy 5
  simp only [dot3] at c1 c2 c3 c4 c5 c6
  simp [epnpPair, idx12] at c1 c2 c3 c4 c5 c6
  norm_num at c1 c2 c3
  have := epnpExample_large y (by linarith) (by linarith) (by linarith) (by linarith) (by linarith)
    (by linarith)
  exact mul_le_mul_of_nonneg_left this (by norm_num)

end OpenGV
