import Verif.Proof.EpnpTwo
import Verif.Proof.EpnpExample

/-!
# Properties of EPnP (C46)
-/

namespace OpenGV.Props

open Matrix Spec

/-- **C46 (control points).** The matrix of the control points is singular exactly if all points
lie in one plane. -/
theorem C46_coplanar (cs : List EpnpCorr) (hn : cs ≠ []) (U V : Mat3) (D : Vec3)
    (h : IsSvd (epnpCov cs) U V D) :
    (epnpCC (epnpCws cs U D)).det = 0 ↔
      ∃ y : Vec3, y ≠ 0 ∧ ∃ d : ℝ, ∀ c ∈ cs, y ⬝ᵥ c.pw = d := by
  rw [epnpCC_det hn h]
  unfold Coplanar
  simp

/-- The corners of a cube are not in one plane. -/
example : ∃ U V D, IsSvd (epnpCov epnpExampleCs) U V D ∧
    (epnpCC (epnpCws epnpExampleCs U D)).det ≠ 0 := by
  obtain ⟨U, V, D, h⟩ := exists_svd (epnpCov epnpExampleCs)
  refine ⟨U, V, D, h, ?_⟩
  rw [Ne, epnpCC_det (by simp [epnpExampleCs]) h]
  exact epnpExample_plane

/-- **C46 (barycentric).** If the points are not in one plane, the barycentric coordinates of every
point sum to one and reproduce it. -/
theorem C46_barycentric (cs : List EpnpCorr) (hn : cs ≠ []) (U V : Mat3) (D : Vec3)
    (h : IsSvd (epnpCov cs) U V D)
    (hpl : ¬ ∃ y : Vec3, y ≠ 0 ∧ ∃ d : ℝ, ∀ c ∈ cs, y ⬝ᵥ c.pw = d) (p : Vec3) :
    ∑ j, epnpAlpha (epnpCws cs U D) p j = 1 ∧
      ∑ j, epnpAlpha (epnpCws cs U D) p j • epnpCws cs U D j = p := by
  rw [Fin.sum_univ_four, Fin.sum_univ_four]
  exact ⟨epnpAlpha_sum _ p, epnpAlpha_repr _ (fun e => hpl ((C46_coplanar cs hn U V D h).1 e)) p⟩

/-- **C46 (linear system).** A vector of four points is in the kernel of `MtM` exactly if, for
every correspondence, the point with the same barycentric coordinates is seen in the given
direction. -/
theorem C46_kernel (cws : Fin 4 → Vec3) (cs : List EpnpCorr) (x : Fin 12 → ℝ) :
    epnpMtM cws cs *ᵥ x = 0 ↔ ∀ c ∈ cs, ∀ X : Vec3,
      X = ∑ j, epnpAlpha cws c.pw j • (fun k => x (idx12 j k)) →
      X 0 = c.u * X 2 ∧ X 1 = c.v * X 2 := by
  rw [epnpMtM_ker]
  have e : ∀ c : EpnpCorr, ∑ j, epnpAlpha cws c.pw j • (fun k => x (idx12 j k)) =
      epnpPc (epnpAlpha cws c.pw) fun j k => x (idx12 j k) := fun c => by
    rw [Fin.sum_univ_four]
    rfl
  constructor
  · rintro h c hc X rfl
    have := h c hc
    rw [epnpRowU_dot, epnpRowV_dot] at this
    rw [e]
    exact ⟨sub_eq_zero.1 this.1, sub_eq_zero.1 this.2⟩
  · intro h c hc
    have := h c hc _ rfl
    rw [e] at this
    rw [epnpRowU_dot, epnpRowV_dot]
    exact ⟨sub_eq_zero.2 this.1, sub_eq_zero.2 this.2⟩

/-- **C46 (true control points).** The control points moved into the camera frame are in the kernel
of `MtM`, with every common factor. -/
theorem C46_true_points (cs : List EpnpCorr) (hn : cs ≠ []) (U V : Mat3) (D : Vec3)
    (h : IsSvd (epnpCov cs) U V D)
    (hpl : ¬ ∃ y : Vec3, y ≠ 0 ∧ ∃ d : ℝ, ∀ c ∈ cs, y ⬝ᵥ c.pw = d) (R : Mat3) (t : Vec3)
    (hs : ∀ c ∈ cs, ∀ X, X = R *ᵥ c.pw + t → X 0 = c.u * X 2 ∧ X 1 = c.v * X 2) (k : ℝ)
    (x : Fin 12 → ℝ) (hx : ∀ j i, x (idx12 j i) = k * (R *ᵥ epnpCws cs U D j + t) i) :
    epnpMtM (epnpCws cs U D) cs *ᵥ x = 0 := by
  rw [C46_kernel]
  rintro c hc X rfl
  have hb := C46_barycentric cs hn U V D h hpl c.pw
  have e : ∑ j, epnpAlpha (epnpCws cs U D) c.pw j • (fun i => x (idx12 j i)) =
      k • (R *ᵥ c.pw + t) := by
    have : ∀ j, (fun i => x (idx12 j i)) = k • (R *ᵥ epnpCws cs U D j + t) := fun j => by
      funext i
      rw [hx]
      rfl
    simp only [this]
    rw [Fin.sum_univ_four] at hb ⊢
    rw [Fin.sum_univ_four] at hb
    have h1 := epnpPc_smul (epnpAlpha (epnpCws cs U D) c.pw)
      (fun j => R *ᵥ epnpCws cs U D j + t) k
    rw [epnpPc_rigid _ hb.1] at h1
    have h2 : epnpPc (epnpAlpha (epnpCws cs U D) c.pw) (epnpCws cs U D) = c.pw := hb.2
    rw [h2] at h1
    exact h1
  rw [e]
  have := hs c hc _ rfl
  simp only [Pi.smul_apply, smul_eq_mul]
  rw [this.1, this.2]
  constructor <;> ring

example : ∃ U V D, IsSvd (epnpCov epnpExampleCs) U V D ∧
    (¬ ∃ y : Vec3, y ≠ 0 ∧ ∃ d : ℝ, ∀ c ∈ epnpExampleCs, y ⬝ᵥ c.pw = d) ∧
    ∀ c ∈ epnpExampleCs, ∀ X, X = epnpExampleR *ᵥ c.pw + ![4, 4, 4] →
      X 0 = c.u * X 2 ∧ X 1 = c.v * X 2 := by
  obtain ⟨U, V, D, h⟩ := exists_svd (epnpCov epnpExampleCs)
  refine ⟨U, V, D, h, ?_, ?_⟩
  · have := epnpExample_plane
    unfold Coplanar at this
    simpa using this
  · rintro c hc X rfl
    exact ⟨(epnpExample_see c hc).1, (epnpExample_see c hc).2.1⟩

/-- **C46 (distances).** The 6x10 system applied to the products of the coefficients gives the
squared distances of the control points built with these coefficients. -/
theorem C46_distances (U : Matrix (Fin 12) (Fin 12) ℝ) (b : Fin 4 → ℝ) (i : Fin 6) :
    (epnpL U *ᵥ ![b 0 * b 0, b 0 * b 1, b 1 * b 1, b 0 * b 2, b 1 * b 2, b 2 * b 2, b 0 * b 3,
      b 1 * b 3, b 2 * b 3, b 3 * b 3]) i =
      ∑ k, (epnpCcs U b (![0, 0, 0, 1, 1, 2] i) k - epnpCcs U b (![1, 2, 3, 2, 3, 3] i) k) ^ 2 := by
  have h := congrFun (epnpL_dist U b) i
  unfold betas10 epnpRho at h
  rw [h, dotProduct, Fin.sum_univ_three, Fin.sum_univ_three]
  fin_cases i <;>
    · simp only [Pi.sub_apply, sq]
      rfl

/-- **C46 (derivative).** The vector `b` of the Gauss-Newton step is the difference of the squared
distances, and its change is minus the matrix `A` times the change of the coefficients, up to a term
that is quadratic in the change. -/
theorem C46_derivative (U : Matrix (Fin 12) (Fin 12) ℝ) (rho : Fin 6 → ℝ) (b d : Fin 4 → ℝ)
    (s : ℝ) (i : Fin 6) :
    epnpGnB (epnpL U) rho b i = rho i -
      ∑ k, (epnpCcs U b (![0, 0, 0, 1, 1, 2] i) k - epnpCcs U b (![1, 2, 3, 2, 3, 3] i) k) ^ 2 ∧
    epnpGnB (epnpL U) rho (b + s • d) i = epnpGnB (epnpL U) rho b i -
      s * (epnpGnA (epnpL U) b *ᵥ d) i - s ^ 2 *
      ∑ k, (epnpCcs U d (![0, 0, 0, 1, 1, 2] i) k - epnpCcs U d (![1, 2, 3, 2, 3, 3] i) k) ^ 2 := by
  have hB : ∀ (r : Fin 6 → ℝ) (b : Fin 4 → ℝ), epnpGnB (epnpL U) r b i = r i -
      ∑ k, (epnpCcs U b (![0, 0, 0, 1, 1, 2] i) k - epnpCcs U b (![1, 2, 3, 2, 3, 3] i) k) ^ 2 := by
    intro r b
    rw [← C46_distances, epnpGnB_eq, ← epnpL_dist]
    rfl
  refine ⟨hB rho b, ?_⟩
  have h := congrFun (epnpGn_expand (epnpL U) rho b (s • d)) i
  rw [h, Pi.add_apply, Pi.sub_apply, mulVec_smul, hB 0 (s • d)]
  have e : ∀ j k, epnpCcs U (s • d) j k = s * epnpCcs U d j k := fun j k => by
    simp only [epnpCcs, Pi.smul_apply, smul_eq_mul]
    ring
  simp only [e, ← mul_sub, mul_pow, ← Finset.mul_sum, Pi.smul_apply, smul_eq_mul, Pi.zero_apply]
  ring

/-- **C46 (qr_solve).** If `qr_solve` does not report a singular matrix, the columns are
independent and the result is the only minimiser of the sum of squares. -/
theorem C46_qr (A : Matrix (Fin 6) (Fin 4) ℝ) (b : Fin 6 → ℝ) (x : Fin 4 → ℝ)
    (h : qrSolve A b = some x) :
    (∀ y, A *ᵥ y = 0 → y = 0) ∧ ∀ y, y ≠ x →
      ∑ i, (b i - (A *ᵥ x) i) ^ 2 < ∑ i, (b i - (A *ᵥ y) i) ^ 2 := by
  refine ⟨qrSolve_rank h, fun y hy => ?_⟩
  have e : ∀ z, ∑ i, (b i - (A *ᵥ z) i) ^ 2 = (b - A *ᵥ z) ⬝ᵥ (b - A *ᵥ z) := fun z =>
    Finset.sum_congr rfl fun i _ => by rw [Pi.sub_apply, sq]
  rw [e, e, qrSolve_optimal h y]
  have h0 : A *ᵥ (y - x) ≠ 0 := fun h0 => hy (sub_eq_zero.1 (qrSolve_rank h _ h0))
  have h1 : 0 ≤ (A *ᵥ (y - x)) ⬝ᵥ (A *ᵥ (y - x)) := Finset.sum_nonneg fun i _ => mul_self_nonneg _
  have h2 : (A *ᵥ (y - x)) ⬝ᵥ (A *ᵥ (y - x)) ≠ 0 := fun e => h0 (dotProduct_self_eq_zero.1 e)
  have := lt_of_le_of_ne h1 (Ne.symm h2)
  linarith

/-- **C46 (qr_solve succeeds).** If the columns are independent and the last row is zero, the
matrix is not reported as singular. -/
theorem C46_qr_complete (A : Matrix (Fin 6) (Fin 4) ℝ) (h5 : ∀ j, A 5 j = 0)
    (hA : ∀ y, A *ᵥ y = 0 → y = 0) (b : Fin 6 → ℝ) : ∃ x, qrSolve A b = some x :=
  qrSolve_succeeds h5 hA b

/-- Independent columns of which none are orthogonal, with a zero last row. -/
example : ∃ A : Matrix (Fin 6) (Fin 4) ℝ, (∀ j, A 5 j = 0) ∧ (∀ y, A *ᵥ y = 0 → y = 0) ∧
    ∀ b, ∃ x, qrSolve A b = some x := by
  have h5 : ∀ j, (of ![![1, 1, 1, 1], ![0, 1, 1, 2], ![0, 0, 1, 3], ![0, 0, 0, 1], ![1, -1, 2, 1],
      0] : Matrix (Fin 6) (Fin 4) ℝ) 5 j = 0 := fun j => rfl
  have hA : ∀ y, (of ![![1, 1, 1, 1], ![0, 1, 1, 2], ![0, 0, 1, 3], ![0, 0, 0, 1], ![1, -1, 2, 1],
      0] : Matrix (Fin 6) (Fin 4) ℝ) *ᵥ y = 0 → y = 0 := by
    intro y hy
    have h0 := congrFun hy 0
    have h1 := congrFun hy 1
    have h2 := congrFun hy 2
    have h3 := congrFun hy 3
    simp [mulVec, dotProduct, Fin.sum_univ_four] at h0 h1 h2 h3
    funext i
    fin_cases i
    · show y 0 = 0; linarith
    · show y 1 = 0; linarith
    · show y 2 = 0; linarith
    · show y 3 = 0; linarith
  exact ⟨_, h5, hA, C46_qr_complete _ h5 hA⟩

/-- **C46 (missed row).** The pivot search of `qr_solve` does not look at the last row, so matrices
with independent columns are reported as singular; `gauss_newton` then adds a vector that was never
written. -/
theorem C46_qr_missed_row : ∃ (L : Matrix (Fin 6) (Fin 10) ℝ) (b : Fin 4 → ℝ),
    (∀ y, epnpGnA L b *ᵥ y = 0 → y = 0) ∧
    ∀ rho, qrSolve (epnpGnA L b) (epnpGnB L rho b) = none ∧ epnpGn L rho b = none := by
  refine ⟨of ![![0, 1, 0, 0, 0, 0, 0, 0, 0, 0], ![0, 0, 0, 1, 0, 0, 0, 0, 0, 0],
    ![0, 0, 0, 0, 0, 0, 1, 0, 0, 0], 0, 0, ![1, 0, 0, 0, 0, 0, 0, 0, 0, 0]], ![1, 0, 0, 0], ?_, ?_⟩
  · intro y hy
    have h0 := congrFun hy 0
    have h1 := congrFun hy 1
    have h2 := congrFun hy 2
    have h5 := congrFun hy 5
    rw [epnpGnA_row] at h0 h1 h2 h5
    simp at h0 h1 h2 h5
    funext i
    fin_cases i
    exacts [h5, h0, h1, h2]
  · intro rho
    have h : ∀ c, qrSolve (epnpGnA (of ![![0, 1, 0, 0, 0, 0, 0, 0, 0, 0],
        ![0, 0, 0, 1, 0, 0, 0, 0, 0, 0], ![0, 0, 0, 0, 0, 0, 1, 0, 0, 0], 0, 0,
        ![1, 0, 0, 0, 0, 0, 0, 0, 0, 0]]) ![1, 0, 0, 0]) c = none := by
      intro c
      apply qrSolve_none_of_col0
      intro i hi
      rcases i with ⟨i, hi'⟩
      simp only at hi
      interval_cases i <;> simp [epnpGnA]
    exact ⟨h _, (epnpGn_none_iff _ _ _).2 (h _)⟩

/-- **C46 (uninitialised).** `gauss_newton` reads `X` without a value exactly if the first system is
reported as singular. -/
theorem C46_uninit (L : Matrix (Fin 6) (Fin 10) ℝ) (rho : Fin 6 → ℝ) (b : Fin 4 → ℝ) :
    epnpGn L rho b = none ↔ qrSolve (epnpGnA L b) (epnpGnB L rho b) = none :=
  epnpGn_none_iff L rho b

/-- **C46 (alignment).** The rotation and translation estimated from points in the camera frame and
in the world frame are those of `arun_complete` for the transposed decomposition: the rotation is
proper and no rigid motion has smaller squared distances. -/
theorem C46_alignment (svd : Mat3 → Mat3 × Mat3)
    (hsvd : ∀ H, ∃ σ, IsSvd H (svd H).1 (svd H).2 σ) (ps : List (Vec3 × Vec3)) (hps : ps ≠ []) :
    ∀ r, r = epnpEstimate svd ps → r.2.transpose * r.2 = 1 ∧ r.2.det = 1 ∧
    ∀ (t : Vec3) (Q : Mat3), Q.transpose * Q = 1 → Q.det = 1 →
      (ps.map fun p => (p.1 - (r.2 *ᵥ p.2 + r.1)) ⬝ᵥ (p.1 - (r.2 *ᵥ p.2 + r.1))).sum ≤
      (ps.map fun p => (p.1 - (Q *ᵥ p.2 + t)) ⬝ᵥ (p.1 - (Q *ᵥ p.2 + t))).sum := by
  rintro r rfl
  obtain ⟨s, Q, hres, hQ1, hQ2, hopt⟩ := C23_alignment_optimal
    (fun H => ((svd H.transpose).2, (svd H.transpose).1)) (fun H => by
      obtain ⟨σ, hσ⟩ := hsvd H.transpose
      exact ⟨σ, by simpa using isSvd_transpose hσ⟩) ps hps
  rw [epnpEstimate_eq svd ps hps] at hres
  have e := Option.some.inj hres
  rw [e]
  exact ⟨hQ1, hQ2, hopt⟩

/-- **C46 (exact data).** Let the points lie on the rays of the bearing vectors for the pose
`(T, Q)`, not all in one plane, with no bearing vector in the plane `z = 0`. If the projections
determine an affine map up to a factor and the columns of `L_6x4` are independent, EPnP returns the
pose, or a matrix is reported as singular in a first Gauss-Newton step and memory is read that was
never written. -/
theorem C46_exact (S : EpnpSvds)
    (h3 : ∀ A, IsSvd A (S.svd3 A).1 (S.svd3 A).2.1 (S.svd3 A).2.2)
    (h12 : ∀ A, ∃ V σ, IsSvd A (S.svd12 A) V σ) (h4 : ∀ A b, IsLeastSquares A b (S.solve4 A b))
    (obs : List (Vec3 × Vec3)) (cs : List EpnpCorr)
    (hcs : (obs.mapM fun o => epnpAdd o.1 o.2) = some cs) (Q : Mat3) (hQ : IsRot Q) (T : Vec3)
    (hray : ∀ o ∈ obs, ∃ l : ℝ, 0 < l ∧ o.1 = Q *ᵥ (l • o.2) + T)
    (hpl : ¬ Coplanar (obs.map Prod.fst))
    (hu : ∀ (A : Mat3) (b : Vec3), (∀ o ∈ obs, crossProduct o.2 (A *ᵥ o.1 + b) = 0) →
      ∃ k : ℝ, A = k • Q.transpose ∧ b = k • -(Q.transpose *ᵥ T))
    (hinj : ∀ d, epnpL4 (epnpL (S.svd12 (epnpMtM (epnpCws cs (S.svd3 (epnpCov cs)).1
      (S.svd3 (epnpCov cs)).2.2) cs))) *ᵥ d = 0 → d = 0) :
    epnp S obs = .pose T Q ∨ epnp S obs = .uninit :=
  epnp_exact S h3 h12 h4 obs cs hcs Q hQ T hray hpl hu hinj

/-- The corners of a cube. -/
example : ∃ (S : EpnpSvds) (cs : List EpnpCorr) (Q : Mat3) (T : Vec3),
    (∀ A, IsSvd A (S.svd3 A).1 (S.svd3 A).2.1 (S.svd3 A).2.2) ∧
    (∀ A, ∃ V σ, IsSvd A (S.svd12 A) V σ) ∧ (∀ A b, IsLeastSquares A b (S.solve4 A b)) ∧
    (epnpExampleObs.mapM fun o => epnpAdd o.1 o.2) = some cs ∧ IsRot Q ∧
    (∀ o ∈ epnpExampleObs, ∃ l : ℝ, 0 < l ∧ o.1 = Q *ᵥ (l • o.2) + T) ∧
    ¬ Coplanar (epnpExampleObs.map Prod.fst) ∧
    (∀ (A : Mat3) (b : Vec3), (∀ o ∈ epnpExampleObs, crossProduct o.2 (A *ᵥ o.1 + b) = 0) →
      ∃ k : ℝ, A = k • Q.transpose ∧ b = k • -(Q.transpose *ᵥ T)) ∧
    ∀ d, epnpL4 (epnpL (S.svd12 (epnpMtM (epnpCws cs (S.svd3 (epnpCov cs)).1
      (S.svd3 (epnpCov cs)).2.2) cs))) *ᵥ d = 0 → d = 0 := by
  obtain ⟨S, h3, h12, h4, e1, e2⟩ := epnpExample_svds
  have hQT : -(epnpExampleR.transpose.transpose *ᵥ (![-4, -4, -4] : Vec3)) = ![4, 4, 4] := by
    funext i
    fin_cases i <;> simp [epnpExampleR]
  refine ⟨S, epnpExampleCs, epnpExampleR.transpose, ![-4, -4, -4], h3, h12, h4, epnpExample_mapM,
    ?_, ?_, ?_, ?_, ?_⟩
  · constructor
    · ext i j
      fin_cases i <;> fin_cases j <;> simp [epnpExampleR, Matrix.mul_apply, Fin.sum_univ_three]
    · simp [epnpExampleR, det_fin_three]
  · intro o ho
    refine ⟨1, one_pos, ?_⟩
    simp only [epnpExampleObs, List.mem_cons, List.not_mem_nil, or_false] at ho
    rcases ho with rfl | rfl | rfl | rfl | rfl | rfl | rfl | rfl <;>
      · funext i
        fin_cases i <;> simp [epnpExampleR, mulVec, dotProduct, Fin.sum_univ_three] <;> norm_num
  · rw [← (epnp_mapM epnpExample_mapM).1]
    exact epnpExample_plane
  · intro A b h
    rw [hQT, transpose_transpose]
    exact epnpExample_unique A b h
  · rw [e1, e2, epnpExample_cws]
    obtain ⟨V, σ, h⟩ := h12 (epnpMtM epnpExampleCws epnpExampleCs)
    exact epnpExample_inj h

/-- If the control points are at the required distances for the coefficients `x, y` of the last two
singular vectors and the columns of the system are independent, the second and the third
approximation find these coefficients up to a common sign; the third for `x ≠ 0`. -/
theorem C46_two (U : Matrix (Fin 12) (Fin 12) ℝ) (x y : ℝ) :
    (∀ b3, (∀ d, epnpL3 (epnpL U) *ᵥ d = 0 → d = 0) →
      IsLeastSquares (epnpL3 (epnpL U)) (epnpRho (epnpCcs U ![x, y, 0, 0])) b3 →
      epnpApprox2 b3 = ![x, y, 0, 0] ∨ epnpApprox2 b3 = ![-x, -y, 0, 0]) ∧
    (∀ b5, x ≠ 0 → (∀ d, epnpL5 (epnpL U) *ᵥ d = 0 → d = 0) →
      IsLeastSquares (epnpL5 (epnpL U)) (epnpRho (epnpCcs U ![x, y, 0, 0])) b5 →
      epnpApprox3 b5 = some ![x, y, 0, 0] ∨ epnpApprox3 b5 = some ![-x, -y, 0, 0]) :=
  ⟨fun _ h1 h2 => epnpApprox2_exact h1 h2, fun _ h0 h1 h2 => epnpApprox3_exact h0 h1 h2⟩

example : ∃ (U : Matrix (Fin 12) (Fin 12) ℝ) (b3 : Fin 3 → ℝ) (b5 : Fin 5 → ℝ), (2 : ℝ) ≠ 0 ∧
    (∀ d, epnpL3 (epnpL U) *ᵥ d = 0 → d = 0) ∧ (∀ d, epnpL5 (epnpL U) *ᵥ d = 0 → d = 0) ∧
    IsLeastSquares (epnpL3 (epnpL U)) (epnpRho (epnpCcs U ![2, -3, 0, 0])) b3 ∧
    IsLeastSquares (epnpL5 (epnpL U)) (epnpRho (epnpCcs U ![2, -3, 0, 0])) b5 := by
  obtain ⟨b3, h3⟩ := exists_leastSquares (epnpL3 (epnpL epnpTwoU)) (epnpRho (epnpCcs epnpTwoU ![2, -3, 0, 0]))
  obtain ⟨b5, h5⟩ := exists_leastSquares (epnpL5 (epnpL epnpTwoU)) (epnpRho (epnpCcs epnpTwoU ![2, -3, 0, 0]))
  exact ⟨epnpTwoU, b3, b5, two_ne_zero, epnpTwoU_inj3, epnpTwoU_inj5, h3, h5⟩

/-- From the products the approximations recover the coefficients up to a common sign; the first
also from the negated products. -/
theorem C46_products (x y z w : ℝ) (hx : x ≠ 0) :
    (∀ s : ℝ, s = 1 ∨ s = -1 →
      epnpApprox1 ![s * (x * x), s * (x * y), s * (x * z), s * (x * w)] = some ![x, y, z, w] ∨
      epnpApprox1 ![s * (x * x), s * (x * y), s * (x * z), s * (x * w)] = some ![-x, -y, -z, -w]) ∧
    (epnpApprox2 ![x * x, x * y, y * y] = ![x, y, 0, 0] ∨
      epnpApprox2 ![x * x, x * y, y * y] = ![-x, -y, 0, 0]) ∧
    (epnpApprox3 ![x * x, x * y, y * y, x * z, y * z] = some ![x, y, z, 0] ∨
      epnpApprox3 ![x * x, x * y, y * y, x * z, y * z] = some ![-x, -y, -z, 0]) :=
  ⟨fun s hs => epnpApprox1_square x y z w s hx hs, epnpApprox2_square x y, epnpApprox3_square x y z hx⟩

example : (2 : ℝ) ≠ 0 := two_ne_zero

/-- From the negated products the second approximation finds coefficients with the wrong relative
sign, though it has a case for a negative first product. -/
theorem C46_negated (x y : ℝ) (h : x * y ≠ 0) :
    epnpApprox2 ![-(x * x), -(x * y), -(y * y)] ≠ ![x, y, 0, 0] ∧
    epnpApprox2 ![-(x * x), -(x * y), -(y * y)] ≠ ![-x, -y, 0, 0] := by
  have e := epnpApprox2_negated x y h
  constructor <;> intro h' <;> rw [h'] at e
  · have e' : x * y = -(x * y) := e
    exact h (by linarith)
  · have e' : -x * -y = -(x * y) := e
    exact h (by linarith)

example : (2 : ℝ) * -3 ≠ 0 := by norm_num

end OpenGV.Props
