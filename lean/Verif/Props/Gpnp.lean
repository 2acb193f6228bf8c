import Verif.Proof.GpnpExample

/-!
# Properties of GPnP (C47, C58, C59)
-/

namespace OpenGV.Props

open Matrix Finset

/-! ### C47 -/

/-- **C47 (weights).** For control points from an orthogonal matrix the weights sum up to 1 and
reproduce the point. -/
theorem C47_weights (c0 : Vec3) (U : Mat3) (hU : U.transpose * U = 1) (P : Vec3) :
    ∑ j, gpnpWeights (gpnpCtrl c0 U) (P - c0) j = 1 ∧
      ∑ j, gpnpWeights (gpnpCtrl c0 U) (P - c0) j • gpnpCtrl c0 U j = P :=
  ⟨gpnpWeights_sum _ _, gpnpWeights_repr hU P⟩

/-- A quarter turn. -/
example : (!![0, -1, 0; 1, 0, 0; 0, 0, 1] : Mat3).transpose * !![0, -1, 0; 1, 0, 0; 0, 0, 1] = 1 :=
  isRot_quarter.1

/-- **C47 (linear system).** A vector of four points solves the linear system exactly if, for every
correspondence whose direction has a non-zero third entry, the point with the same weights is on the
line through the camera in that direction, and, for the other correspondences that look along
another direction than zero, it has the third coordinate of the camera. -/
theorem C47_system (obs : List GpnpObs) (c : Fin 4 → Vec3) (x : Fin 12 → ℝ)
    (hf : ∀ o ∈ obs, o.rot *ᵥ o.b ≠ 0) :
    gpnpA obs c *ᵥ x = gpnpB obs ↔ ∀ o ∈ obs, ∀ X : Vec3,
      X = ∑ j, gpnpWeights c (o.P - c 0) j • (fun k : Fin 3 => x ⟨3 * j + k, by omega⟩) →
      ((o.rot *ᵥ o.b) 2 ≠ 0 → ∃ s : ℝ, X = o.off + s • (o.rot *ᵥ o.b)) ∧
      ((o.rot *ᵥ o.b) 2 = 0 → X 2 = o.off 2) := by
  rw [gpnpA_iff]
  refine forall₂_congr fun o ho => forall₂_congr fun X hX => ?_
  by_cases h2 : o.f 2 = 0
  · have h2' : (o.rot *ᵥ o.b) 2 = 0 := h2
    have hne := hf o ho
    rw [h2]
    simp only [h2', ne_eq, not_true_eq_false, false_imp_iff, true_and, forall_true_left, zero_mul]
    constructor
    · rintro ⟨h0, h1⟩
      by_contra hX2
      have hd : X 2 - o.off 2 ≠ 0 := sub_ne_zero.2 hX2
      have e0 : o.f 0 = 0 := by
        rcases mul_eq_zero.1 h0.symm with h | h
        exacts [h, absurd h hd]
      have e1 : o.f 1 = 0 := by
        rcases mul_eq_zero.1 h1.symm with h | h
        exacts [h, absurd h hd]
      exact hne (ext3 e0 e1 h2)
    · intro h
      simp [h]
  · have h2' : (o.rot *ᵥ o.b) 2 ≠ 0 := h2
    rw [ray_iff h2]
    simp only [h2', ne_eq, not_false_eq_true, forall_true_left, false_imp_iff, and_true]
    rfl

/-- The eight observations of the example below have directions with a non-zero third entry. -/
example : ∀ o ∈ gpnpExObs, o.rot *ᵥ o.b ≠ 0 := by
  intro o ho h
  have : o.f 2 = 0 := congrFun h 2
  exact gpnpEx_f2 o ho this

/-- **C47 (true control points).** If every point is seen from the pose `(t, R)` on the line through
its camera, the control points in the frame of the pose solve the linear system. -/
theorem C47_true_points (obs : List GpnpObs) (c0 : Vec3) (U : Mat3) (hU : U.transpose * U = 1)
    (R : Mat3) (t : Vec3)
    (hs : ∀ o ∈ obs, ∃ s : ℝ, R.transpose *ᵥ (o.P - t) = o.off + s • (o.rot *ᵥ o.b))
    (x : Fin 12 → ℝ) (hx : ∀ j : Fin 4, (fun k : Fin 3 => x ⟨3 * j + k, by omega⟩) =
      R.transpose *ᵥ (gpnpCtrl c0 U j - t)) :
    gpnpA obs (gpnpCtrl c0 U) *ᵥ x = gpnpB obs := by
  have hx' : x = gpnpVec fun j => R.transpose *ᵥ (gpnpCtrl c0 U j - t) := by
    rw [← gpnpVec_ccam x]
    congr 1
    funext j
    exact hx j
  rw [gpnpA_iff]
  rintro o ho X rfl
  obtain ⟨s, h⟩ := hs o ho
  rw [hx', gpnpPoint_motion hU]
  exact ray_sat h

/-- The observations of the example below. -/
example : ∀ o ∈ gpnpExObs, ∃ s : ℝ, gpnpExR.transpose *ᵥ (o.P - gpnpExT) =
    o.off + s • (o.rot *ᵥ o.b) := gpnpEx_seen

/-- **C47 (intercept).** If exactly the last `k` singular values of the matrix are not above the
threshold, every solution of the linear system is the intercept plus a combination of the last `k`
right singular vectors. -/
theorem C47_intercept {m : Type} [Fintype m] (A U : Matrix m (Fin 12) ℝ) (σ : Fin 12 → ℝ)
    (V : Matrix (Fin 12) (Fin 12) ℝ) (h : Spec.IsThinSvd A U σ V) (x : Fin 12 → ℝ) (b : m → ℝ)
    (hx : A *ᵥ x = b) (k : ℕ) (hk : k ≤ 12)
    (hσ : ∀ i : Fin 12, (i : ℕ) < 12 - k ↔ 1 / 1000000 < σ i) :
    ∃ fs : List ℝ, fs.length = k ∧ x = gpnpSolution (gpnpIntercept U σ V b) V fs :=
  ⟨_, List.length_ofFn, gpnpIntercept_solution h hx hk (fun i hi => (hσ i).1 hi) fun i hi =>
    not_lt.1 fun h => by have := (hσ i).2 h; omega⟩

/-- A matrix with two small singular values. -/
example : ∃ (A U : Matrix (Fin 12) (Fin 12) ℝ) (σ : Fin 12 → ℝ) (V : Matrix (Fin 12) (Fin 12) ℝ),
    Spec.IsThinSvd A U σ V ∧ ∀ i : Fin 12, (i : ℕ) < 12 - 2 ↔ 1 / 1000000 < σ i := by
  refine ⟨_, 1, fun i => if (i : ℕ) < 10 then 2 else 0, 1, ⟨by simp, by simp, rfl, ?_, ?_⟩, ?_⟩
  · intro i
    split_ifs <;> norm_num
  · intro i j hij
    have : (i : ℕ) ≤ j := hij
    split_ifs <;> first | omega | norm_num
  · intro i
    dsimp only
    split_ifs with h
    · norm_num
      exact h
    · norm_num
      omega

/-- Decompositions of the matrix of GPnP exist. -/
example (obs : List GpnpObs) (hn : 5 < obs.length) (c : Fin 4 → Vec3) :
    ∃ U σ V, Spec.IsThinSvd (gpnpA obs c) U σ V :=
  exists_thinSvd (by simp; omega) _

/-- **C47 (selection).** The pose returned is that of one of the six candidates. It is that of the
first candidate if the error of that candidate is not a number, and no candidate has a smaller error
than the one returned otherwise. -/
theorem C47_selection (D : GpnpDeps) (a : Fin 12 → ℝ) (V : Matrix (Fin 12) (Fin 12) ℝ)
    (c : Fin 4 → Vec3) :
    ((gpnpEvaluate D.svd3 a c).1 = .nan → gpnpMain D a V c = (gpnpEvaluate D.svd3 a c).2) ∧
    ((gpnpEvaluate D.svd3 a c).1 ≠ .nan → ∃ e, (e, gpnpMain D a V c) ∈
        gpnpEvaluate D.svd3 a c :: [1, 2, 3, 4, 5].map (gpnpCandidate D a V c) ∧
      ∀ y ∈ gpnpEvaluate D.svd3 a c :: [1, 2, 3, 4, 5].map (gpnpCandidate D a V c),
        ¬ y.1.lt e) := by
  refine ⟨fun h => ?_, fun h => ?_⟩
  · unfold gpnpMain
    rw [gpnpSelect_nan h]
  · refine ⟨_, gpnpSelect_mem _ _, fun y hy => ?_⟩
    obtain ⟨h1, h2⟩ := gpnpSelect_least (gpnpEvaluate D.svd3 a c)
      ([1, 2, 3, 4, 5].map (gpnpCandidate D a V c))
    rcases List.mem_cons.1 hy with rfl | hy
    · apply h2
      cases (gpnpEvaluate D.svd3 a c).1 <;> simp [FErr.lt]
    · exact h1 y hy

/-- **C47 (exact data).** If every point is seen from the pose `(t, R)` and all singular values of
the matrix are above the threshold, the pose returned is `(t, R)`. -/
theorem C47_exact (D : GpnpDeps) (hsvd : ∀ H, ∃ σ, Spec.IsSvd H (D.svd3 H).1 (D.svd3 H).2 σ)
    (obs : List GpnpObs) (hn : 5 < obs.length) (R : Mat3) (hR : IsRot R) (t : Vec3)
    (hU : (D.svdU (gpnpCloud obs)).transpose * D.svdU (gpnpCloud obs) = 1)
    (hA : ∀ A, A = gpnpA obs (gpnpCtrl (gpnpCentroid obs) (D.svdU (gpnpCloud obs))) →
      Spec.IsThinSvd A (D.svdA obs A).1 (D.svdA obs A).2.1 (D.svdA obs A).2.2 ∧
      ∀ i, 1 / 1000000 < (D.svdA obs A).2.1 i)
    (hs : ∀ o ∈ obs, ∃ s : ℝ, R.transpose *ᵥ (o.P - t) = o.off + s • (o.rot *ᵥ o.b)) :
    gpnp D obs = some (t, R) := by
  obtain ⟨h1, h2⟩ := hA _ rfl
  have hx := C47_true_points obs (gpnpCentroid obs) _ hU R t hs
    (gpnpVec fun j => R.transpose *ᵥ (gpnpCtrl (gpnpCentroid obs) (D.svdU (gpnpCloud obs)) j - t))
    (fun j => gpnpCcam_vec _ j)
  have ha := gpnpIntercept_split h1 hx
  simp only [gt_iff_lt, h2, if_true, zero_smul, Finset.sum_const_zero, add_zero] at ha
  unfold gpnp
  rw [if_neg (by omega)]
  simp only
  congr 1
  rw [← ha]
  obtain ⟨e1, e2⟩ := gpnpEvaluate_exact hsvd hR t (c0 := gpnpCentroid obs) hU
  rcases e2 with e2 | e2
  · unfold gpnpMain
    rw [gpnpSelect_stay, e1]
    intro y hy hlt
    rw [e2] at hlt
    obtain ⟨k, -, rfl⟩ := List.mem_map.1 hy
    have hnn := gpnpCandidate_nonneg D (gpnpVec fun j => R.transpose *ᵥ
      (gpnpCtrl (gpnpCentroid obs) (D.svdU (gpnpCloud obs)) j - t))
      (D.svdA obs (gpnpA obs (gpnpCtrl (gpnpCentroid obs) (D.svdU (gpnpCloud obs))))).2.2
      (gpnpCtrl (gpnpCentroid obs) (D.svdU (gpnpCloud obs))) k
    revert hlt
    cases hy : (gpnpCandidate D (gpnpVec fun j => R.transpose *ᵥ
      (gpnpCtrl (gpnpCentroid obs) (D.svdU (gpnpCloud obs)) j - t))
      (D.svdA obs (gpnpA obs (gpnpCtrl (gpnpCentroid obs) (D.svdU (gpnpCloud obs))))).2.2
      (gpnpCtrl (gpnpCentroid obs) (D.svdU (gpnpCloud obs))) k).1 with
    | fin v => exact not_lt.2 (hnn v hy)
    | inf => exact id
    | nan => exact id
  · unfold gpnpMain
    rw [gpnpSelect_nan e2, e1]

/-- Four points, each seen by two cameras, from a pose with a quarter turn. -/
example : gpnp gpnpExDeps gpnpExObs = some (gpnpExT, gpnpExR) := by
  refine C47_exact gpnpExDeps (exists_svd_fun 3).choose_spec gpnpExObs (by decide) _
    isRot_quarter _ (by simp [gpnpExDeps]) ?_ gpnpEx_seen
  rintro A rfl
  rw [gpnpEx_centroid]
  have h : ∃ S : Matrix (Fin gpnpExObs.length × Fin 2) (Fin 12) ℝ × (Fin 12 → ℝ) ×
      Matrix (Fin 12) (Fin 12) ℝ, Spec.IsThinSvd (gpnpA gpnpExObs (gpnpCtrl 0 1)) S.1 S.2.1 S.2.2 := by
    obtain ⟨U, σ, V, h⟩ := exists_thinSvd (by simp [gpnpExObs, gpnpExPts])
      (gpnpA gpnpExObs (gpnpCtrl 0 1))
    exact ⟨(U, σ, V), h⟩
  have e : gpnpExDeps.svdA gpnpExObs (gpnpA gpnpExObs (gpnpCtrl 0 1)) = h.choose := dif_pos h
  have hU : gpnpExDeps.svdU (gpnpCloud gpnpExObs) = 1 := rfl
  rw [hU, e]
  exact ⟨h.choose_spec, gpnpEx_sigma h.choose_spec⟩

/-! ### C58 -/

/-- **C58 (one vector).** If the points of `a + z0 • v0` have the distances of the
control points and no pivot is zero, the elimination program and the back substitution return exactly
the coefficient. -/
theorem C58_factors1 (a v0 : Fin 12 → ℝ) (c : Fin 4 → Vec3) (z0 : ℝ) (fs : List ℝ)
    (X : Fin 4 → Vec3) (hX : X = gpnpCcam (a + z0 • v0))
    (hd : ∀ i j, (X i - X j) ⬝ᵥ (X i - X j) = (c i - c j) ⬝ᵥ (c i - c j))
    (hf : (gRun (Gpnp1.init a v0 (c 0) (c 1) (c 2) (c 3)) Gpnp1.compute).bind
      Gpnp1.factors = some fs) : fs = [z0] := by
  subst hX
  exact Gpnp1.factors_eq hd hf

/-- Data for which no pivot is zero. -/
example : ∃ (a v0 : Fin 12 → ℝ) (c : Fin 4 → Vec3) (z0 : ℝ) (fs : List ℝ),
    (∀ i j, (gpnpCcam (a + z0 • v0) i - gpnpCcam (a + z0 • v0) j) ⬝ᵥ
      (gpnpCcam (a + z0 • v0) i - gpnpCcam (a + z0 • v0) j) = (c i - c j) ⬝ᵥ (c i - c j)) ∧
    (gRun (Gpnp1.init a v0 (c 0) (c 1) (c 2) (c 3)) Gpnp1.compute).bind
      Gpnp1.factors = some fs := Gpnp1.example_factors

/-- **C58 (two vectors).** If the points of `a + z0 • v0 + z1 • v1` have the distances of the
control points and no pivot is zero, the elimination program and the back substitution return exactly
the coefficients. -/
theorem C58_factors2 (a v0 v1 : Fin 12 → ℝ) (c : Fin 4 → Vec3) (z0 z1 : ℝ) (fs : List ℝ)
    (X : Fin 4 → Vec3) (hX : X = gpnpCcam (a + z0 • v0 + z1 • v1))
    (hd : ∀ i j, (X i - X j) ⬝ᵥ (X i - X j) = (c i - c j) ⬝ᵥ (c i - c j))
    (hf : (gRun (Gpnp2.init a v0 v1 (c 0) (c 1) (c 2) (c 3)) Gpnp2.compute).bind
      Gpnp2.factors = some fs) : fs = [z0, z1] := by
  subst hX
  exact Gpnp2.factors_eq hd hf

/-- Data for which no pivot is zero. -/
example : ∃ (a v0 v1 : Fin 12 → ℝ) (c : Fin 4 → Vec3) (z0 z1 : ℝ) (fs : List ℝ),
    (∀ i j, (gpnpCcam (a + z0 • v0 + z1 • v1) i - gpnpCcam (a + z0 • v0 + z1 • v1) j) ⬝ᵥ
      (gpnpCcam (a + z0 • v0 + z1 • v1) i - gpnpCcam (a + z0 • v0 + z1 • v1) j) = (c i - c j) ⬝ᵥ (c i - c j)) ∧
    (gRun (Gpnp2.init a v0 v1 (c 0) (c 1) (c 2) (c 3)) Gpnp2.compute).bind
      Gpnp2.factors = some fs := Gpnp2.example_factors

/-- **C58 (three vectors).** If the points of `a + z0 • v0 + z1 • v1 + z2 • v2` have the distances of the
control points and no pivot is zero, the elimination program and the back substitution return exactly
the coefficients. -/
theorem C58_factors3 (a v0 v1 v2 : Fin 12 → ℝ) (c : Fin 4 → Vec3) (z0 z1 z2 : ℝ) (fs : List ℝ)
    (X : Fin 4 → Vec3) (hX : X = gpnpCcam (a + z0 • v0 + z1 • v1 + z2 • v2))
    (hd : ∀ i j, (X i - X j) ⬝ᵥ (X i - X j) = (c i - c j) ⬝ᵥ (c i - c j))
    (hf : (gRun (Gpnp3.init a v0 v1 v2 (c 0) (c 1) (c 2) (c 3)) Gpnp3.compute).bind
      Gpnp3.factors = some fs) : fs = [z0, z1, z2] := by
  subst hX
  exact Gpnp3.factors_eq hd hf

/-- Data for which no pivot is zero. -/
example : ∃ (a v0 v1 v2 : Fin 12 → ℝ) (c : Fin 4 → Vec3) (z0 z1 z2 : ℝ) (fs : List ℝ),
    (∀ i j, (gpnpCcam (a + z0 • v0 + z1 • v1 + z2 • v2) i - gpnpCcam (a + z0 • v0 + z1 • v1 + z2 • v2) j) ⬝ᵥ
      (gpnpCcam (a + z0 • v0 + z1 • v1 + z2 • v2) i - gpnpCcam (a + z0 • v0 + z1 • v1 + z2 • v2) j) = (c i - c j) ⬝ᵥ (c i - c j)) ∧
    (gRun (Gpnp3.init a v0 v1 v2 (c 0) (c 1) (c 2) (c 3)) Gpnp3.compute).bind
      Gpnp3.factors = some fs := Gpnp3.example_factors

/-- **C58 (four vectors).** If the points of `a + z0 • v0 + z1 • v1 + z2 • v2 + z3 • v3` have the distances of the
control points and no pivot is zero, the elimination program and the back substitution return exactly
the coefficients. -/
theorem C58_factors4 (a v0 v1 v2 v3 : Fin 12 → ℝ) (c : Fin 4 → Vec3) (z0 z1 z2 z3 : ℝ) (fs : List ℝ)
    (X : Fin 4 → Vec3) (hX : X = gpnpCcam (a + z0 • v0 + z1 • v1 + z2 • v2 + z3 • v3))
    (hd : ∀ i j, (X i - X j) ⬝ᵥ (X i - X j) = (c i - c j) ⬝ᵥ (c i - c j))
    (hf : (gRun (Gpnp4.init a v0 v1 v2 v3 (c 0) (c 1) (c 2) (c 3)) Gpnp4.compute).bind
      Gpnp4.factors = some fs) : fs = [z0, z1, z2, z3] := by
  subst hX
  exact Gpnp4.factors_eq hd hf

/-- Data for which no pivot is zero. -/
example : ∃ (a v0 v1 v2 v3 : Fin 12 → ℝ) (c : Fin 4 → Vec3) (z0 z1 z2 z3 : ℝ) (fs : List ℝ),
    (∀ i j, (gpnpCcam (a + z0 • v0 + z1 • v1 + z2 • v2 + z3 • v3) i - gpnpCcam (a + z0 • v0 + z1 • v1 + z2 • v2 + z3 • v3) j) ⬝ᵥ
      (gpnpCcam (a + z0 • v0 + z1 • v1 + z2 • v2 + z3 • v3) i - gpnpCcam (a + z0 • v0 + z1 • v1 + z2 • v2 + z3 • v3) j) = (c i - c j) ⬝ᵥ (c i - c j)) ∧
    (gRun (Gpnp4.init a v0 v1 v2 v3 (c 0) (c 1) (c 2) (c 3)) Gpnp4.compute).bind
      Gpnp4.factors = some fs := Gpnp4.example_factors

/-- **C58 (five vectors).** With five vectors the first four factors are the coefficients. The fifth
one, `w`, is wrong by the multiple of `z2 - z1` given here, since the code takes the wrong factor. -/
theorem C58_factors5 (a v0 v1 v2 v3 v4 : Fin 12 → ℝ) (c : Fin 4 → Vec3) (z0 z1 z2 z3 z4 : ℝ) (fs : List ℝ)
    (X : Fin 4 → Vec3) (hX : X = gpnpCcam (a + z0 • v0 + z1 • v1 + z2 • v2 + z3 • v3 + z4 • v4))
    (hd : ∀ i j, (X i - X j) ⬝ᵥ (X i - X j) = (c i - c j) ⬝ᵥ (c i - c j))
    (hf : (gRun (Gpnp5.init a v0 v1 v2 v3 v4 (c 0) (c 1) (c 2) (c 3)) Gpnp5.compute).bind
      Gpnp5.factors = some fs) : ∃ w G, fs = [z0, z1, z2, z3, w] ∧
      gRun (Gpnp5.init a v0 v1 v2 v3 v4 (c 0) (c 1) (c 2) (c 3)) Gpnp5.compute = some G ∧
      G 38 74 ≠ 0 ∧ w - z4 = G 38 76 * (z2 - z1) / G 38 74 := by
  subst hX
  obtain ⟨w, h1, G, h2, h3, h4⟩ := Gpnp5.factors_eq hd hf
  refine ⟨w, G, h1, h2, h3, ?_⟩
  rw [eq_div_iff h3]
  linarith

/-- Data for which no pivot is zero. -/
example : ∃ (a v0 v1 v2 v3 v4 : Fin 12 → ℝ) (c : Fin 4 → Vec3) (z0 z1 z2 z3 z4 : ℝ) (fs : List ℝ),
    (∀ i j, (gpnpCcam (a + z0 • v0 + z1 • v1 + z2 • v2 + z3 • v3 + z4 • v4) i - gpnpCcam (a + z0 • v0 + z1 • v1 + z2 • v2 + z3 • v3 + z4 • v4) j) ⬝ᵥ
      (gpnpCcam (a + z0 • v0 + z1 • v1 + z2 • v2 + z3 • v3 + z4 • v4) i - gpnpCcam (a + z0 • v0 + z1 • v1 + z2 • v2 + z3 • v3 + z4 • v4) j) = (c i - c j) ⬝ᵥ (c i - c j)) ∧
    (gRun (Gpnp5.init a v0 v1 v2 v3 v4 (c 0) (c 1) (c 2) (c 3)) Gpnp5.compute).bind
      Gpnp5.factors = some fs := Gpnp5.example_factors

/-- **C58 (wrong fifth factor).** There are data with control points for which all pivots are
non-zero and the fifth factor is not the coefficient. -/
theorem C58_fifth_wrong : ∃ (a v0 v1 v2 v3 v4 : Fin 12 → ℝ) (c : Fin 4 → Vec3)
    (z0 z1 z2 z3 z4 w : ℝ),
    (∀ i, gpnpCcam (a + z0 • v0 + z1 • v1 + z2 • v2 + z3 • v3 + z4 • v4) i = c i) ∧
    (gRun (Gpnp5.init a v0 v1 v2 v3 v4 (c 0) (c 1) (c 2) (c 3)) Gpnp5.compute).bind
      Gpnp5.factors = some [z0, z1, z2, z3, w] ∧ w ≠ z4 := Gpnp5.example_wrong

/-- **C58 (one point four times).** `gpnp_main` passes the first control point four times, so the
factors do not depend on the control points. -/
theorem C58_ignores_points (a : Fin 12 → ℝ) (V : Matrix (Fin 12) (Fin 12) ℝ) (c c' : Fin 4 → Vec3)
    (k : ℕ) : gpnpFactors a V c k = gpnpFactors a V c' k := gpnpFactors_indep a V c c' k

/-- **C58 (no solution).** The system solved for the factors asks for four coinciding points. If it
has a solution, the back substitution divides by zero. -/
theorem C58_coincident (a : Fin 12 → ℝ) (V : Matrix (Fin 12) (Fin 12) ℝ) (c : Fin 4 → Vec3)
    (zs : List ℝ) (X : Fin 4 → Vec3) (hX : X = gpnpCcam (gpnpSolution a V zs))
    (hc : ∀ i j, X i = X j) : gpnpFactors a V c zs.length = none := by
  subst hX
  exact gpnpFactors_coincident hc

/-- Four points that coincide for a combination of two vectors. -/
example : ∃ (a : Fin 12 → ℝ) (V : Matrix (Fin 12) (Fin 12) ℝ), a ≠ 0 ∧
    ∀ i j, gpnpCcam (gpnpSolution a V [1, -2]) i = gpnpCcam (gpnpSolution a V [1, -2]) j := by
  refine ⟨fun i => if i = 10 then 4 else if i = 11 then 7 else 5, 1, ?_, ?_⟩
  · intro h
    have := congrFun h 0
    simp at this
  · have h : gpnpSolution (fun i => if i = 10 then 4 else if i = 11 then 7 else 5) 1 [1, -2] =
        fun _ => 5 := by
      rw [gpnpSolution_two]
      funext i
      fin_cases i <;> simp <;> norm_num
    rw [h]
    exact fun i j => rfl

/-! ### C59 -/

/-- **C59 (central cameras).** If the offsets of all cameras are zero, the translation returned is the
mean of the control points and the rotation is that of the decomposition of the zero matrix. -/
theorem C59_central (D : GpnpDeps) (obs : List GpnpObs) (hn : 5 < obs.length)
    (h0 : ∀ o ∈ obs, o.off = 0) :
    gpnp D obs = some
      ((4 : ℝ)⁻¹ • ∑ j, gpnpCtrl (gpnpCentroid obs) (D.svdU (gpnpCloud obs)) j,
        arunR (D.svd3 0).1 (D.svd3 0).2) := by
  unfold gpnp
  rw [if_neg (by omega), gpnpB_central h0]
  simp only [gpnpIntercept_zero]
  congr 1
  have h := gpnpEvaluate_zero D.svd3 (gpnpCtrl (gpnpCentroid obs) (D.svdU (gpnpCloud obs)))
  unfold gpnpMain
  rw [gpnpSelect_nan (by rw [h]), h, Fin.sum_univ_four]

/-- **C59 (bearing vectors ignored).** If the offsets of all cameras are zero, the pose returned
depends on the points only, not on the bearing vectors. -/
theorem C59_ignores_bearings (D : GpnpDeps) (obs obs' : List GpnpObs) (hn : 5 < obs.length)
    (h0 : ∀ o ∈ obs, o.off = 0) (h0' : ∀ o ∈ obs', o.off = 0)
    (hP : obs.map GpnpObs.P = obs'.map GpnpObs.P) : gpnp D obs = gpnp D obs' := by
  have hl : obs.length = obs'.length := by
    have := congrArg List.length hP
    simpa using this
  have hc : gpnpCentroid obs = gpnpCentroid obs' := by
    unfold gpnpCentroid
    rw [hP, hl]
  have hcl : gpnpCloud obs = gpnpCloud obs' := by
    have e : ∀ l : List GpnpObs, gpnpCloud l = (l.map GpnpObs.P).map (· - gpnpCentroid l) :=
      fun l => by unfold gpnpCloud; rw [List.map_map]; rfl
    rw [e, e, hP, hc]
  rw [C59_central D obs hn h0, C59_central D obs' (by omega) h0', hc, hcl]

/-- **C59 (divisions by zero).** If the offsets of all cameras are zero, all five computations of
factors divide by zero. -/
theorem C59_factors (obs : List GpnpObs) (h0 : ∀ o ∈ obs, o.off = 0)
    (U : Matrix (Fin obs.length × Fin 2) (Fin 12) ℝ) (σ : Fin 12 → ℝ)
    (V : Matrix (Fin 12) (Fin 12) ℝ) (c : Fin 4 → Vec3) (k : ℕ) :
    gpnpFactors (gpnpIntercept U σ V (gpnpB obs)) V c k = none := by
  rw [gpnpB_central h0, gpnpIntercept_zero]
  have h := gpnpFactors_coincident (a := 0) (V := V) (c := c) (zs := List.replicate k 0) (by
    rw [gpnpSolution_zero]
    exact fun i j => rfl)
  rwa [List.length_replicate] at h

/-- Eight observations of a central camera. -/
example : ∃ obs : List GpnpObs, 5 < obs.length ∧ (∀ o ∈ obs, o.off = 0) ∧
    ∀ o ∈ obs, ∃ s : ℝ, 0 < s ∧ gpnpExR.transpose *ᵥ (o.P - gpnpExT) = o.off + s • (o.rot *ᵥ o.b) := by
  refine ⟨(gpnpExPts ++ gpnpExPts).map fun P => ⟨P, 0, 1, gpnpExR.transpose *ᵥ (P - gpnpExT)⟩,
    by decide, ?_, ?_⟩
  · intro o ho
    obtain ⟨P, -, rfl⟩ := List.mem_map.1 ho
    rfl
  · intro o ho
    obtain ⟨P, -, rfl⟩ := List.mem_map.1 ho
    exact ⟨1, one_pos, by rw [one_mulVec, one_smul, zero_add]⟩

end OpenGV.Props
