import Verif.Proof.Arun
import Verif.Proof.SvdExists

/-!
# Properties of point cloud alignment and the rotation-only solvers (C22-C24)
-/

namespace OpenGV.Props

open Matrix

/-- **C22.** For every matrix and every singular value decomposition of it, `arun` gives a rotation
and no rotation has a larger `trace (R H)`. -/
theorem C22_arun_optimal (H U V : Mat3) (σ : Vec3) (h : Spec.IsSvd H U V σ) :
    (arunR U V).transpose * arunR U V = 1 ∧ (arunR U V).det = 1 ∧
    ∀ Q : Mat3, Q.transpose * Q = 1 → Q.det = 1 → (Q * H).trace ≤ (arunR U V * H).trace :=
  ⟨(arun_spec h).1.1, (arun_spec h).1.2, fun Q h1 h2 => (arun_spec h).2 Q ⟨h1, h2⟩⟩

/-- The reflection case: `V Uᵀ` is a reflection here and the third column is negated. -/
example : Spec.IsSvd (Matrix.diagonal ![3, 2, -1]) 1 (Matrix.diagonal ![1, 1, -1]) ![3, 2, 1] ∧
    arunR 1 (Matrix.diagonal ![1, 1, -1]) = 1 := by
  refine ⟨⟨by simp, ?_, ?_, ?_, ?_⟩, ?_⟩
  · rw [diagonal_transpose, diagonal_mul_diagonal]
    apply mat3_ext <;> simp
  · rw [diagonal_transpose, Matrix.one_mul, diagonal_mul_diagonal]
    apply mat3_ext <;> simp
  · intro i; fin_cases i <;> simp
  · intro i j hij
    fin_cases i <;> fin_cases j <;> simp at hij ⊢ <;> norm_num
  · unfold arunR
    simp only [transpose_one, Matrix.mul_one, det_diagonal, Fin.prod_univ_three]
    rw [if_pos (by simp)]
    apply mat3_ext <;> simp

/-- **C23.** For every non-empty list of point pairs and every singular value decomposition that
the library may compute, `arun_complete` (and `threept_arun`) return a rotation and a translation
whose sum of squared residuals no rigid transformation undercuts. -/
theorem C23_alignment_optimal (svd : Mat3 → Mat3 × Mat3)
    (hsvd : ∀ H, ∃ σ, Spec.IsSvd H (svd H).1 (svd H).2 σ)
    (ps : List (Vec3 × Vec3)) (hne : ps ≠ []) :
    ∃ t R, arunComplete svd ps = some (t, R) ∧ R.transpose * R = 1 ∧ R.det = 1 ∧
      ∀ (s : Vec3) (Q : Mat3), Q.transpose * Q = 1 → Q.det = 1 →
        (ps.map fun p => (p.1 - (R *ᵥ p.2 + t)) ⬝ᵥ (p.1 - (R *ᵥ p.2 + t))).sum ≤
        (ps.map fun p => (p.1 - (Q *ᵥ p.2 + s)) ⬝ᵥ (p.1 - (Q *ᵥ p.2 + s))).sum := by
  obtain ⟨c, hc⟩ : ∃ c, centers ps = some c := by
    unfold centers
    rw [if_neg (by simpa using hne)]
    exact ⟨_, rfl⟩
  obtain ⟨σ, hσ⟩ := hsvd (hcross c.1 c.2 ps)
  obtain ⟨hR, hopt⟩ := arun_spec hσ
  refine ⟨_, _, by rw [arunComplete, hc], hR.1, hR.2, ?_⟩
  intro s Q hQ1 hQ2
  obtain ⟨hn, h1, h2⟩ := centers_eq hc
  set R := arunR (svd (hcross c.1 c.2 ps)).1 (svd (hcross c.1 c.2 ps)).2
  have hsum : ∀ (s : Vec3) (Q : Mat3), Q.transpose * Q = 1 →
      (ps.map fun p => (p.1 - (Q *ᵥ p.2 + s)) ⬝ᵥ (p.1 - (Q *ᵥ p.2 + s))).sum =
      (ps.map (fun p => (p.1 - c.1) ⬝ᵥ (p.1 - c.1) + (p.2 - c.2) ⬝ᵥ (p.2 - c.2))).sum -
      2 * (Q * hcross c.1 c.2 ps).trace +
      ps.length * ((c.1 - Q *ᵥ c.2 - s) ⬝ᵥ (c.1 - Q *ᵥ c.2 - s)) := by
    intro s Q hQ
    have e : (fun p : Vec3 × Vec3 => (p.1 - (Q *ᵥ p.2 + s)) ⬝ᵥ (p.1 - (Q *ᵥ p.2 + s))) =
        fun p => ((p.1 - c.1) - Q *ᵥ (p.2 - c.2) + (c.1 - Q *ᵥ c.2 - s)) ⬝ᵥ
          ((p.1 - c.1) - Q *ᵥ (p.2 - c.2) + (c.1 - Q *ᵥ c.2 - s)) := by
      funext p
      have : p.1 - (Q *ᵥ p.2 + s) = (p.1 - c.1) - Q *ᵥ (p.2 - c.2) + (c.1 - Q *ᵥ c.2 - s) := by
        rw [mulVec_sub]; abel
      rw [this]
    rw [e, residual_split, residual_expand c.1 c.2 Q hQ, trace_hcross, h1, h2]
    simp
  rw [hsum s Q hQ1, hsum _ R hR.1]
  have hz : c.1 - R *ᵥ c.2 - (c.1 - R *ᵥ c.2) = 0 := sub_self _
  rw [hz]
  have := hopt Q ⟨hQ1, hQ2⟩
  have h3 := mul_nonneg hn.le (dot_self_nonneg3 (c.1 - Q *ᵥ c.2 - s))
  simp only [dotProduct_zero, mul_zero]
  linarith

/-- A decomposition function as assumed by the theorem exists. -/
example : ∃ svd : Mat3 → Mat3 × Mat3, ∀ H, ∃ σ, Spec.IsSvd H (svd H).1 (svd H).2 σ :=
  exists_svd_fun 3

/-- Two distinct points that cannot be aligned without error: the residual is not zero. -/
example (svd : Mat3 → Mat3 × Mat3) (hsvd : ∀ H, ∃ σ, Spec.IsSvd H (svd H).1 (svd H).2 σ) :
    ∃ t R, arunComplete svd [(![0, 0, 0], ![0, 0, 0]), (![1, 0, 0], ![2, 0, 0])] = some (t, R) :=
  let ⟨t, R, h, _⟩ := C23_alignment_optimal svd hsvd _ (by simp)
  ⟨t, R, h⟩

/-- **C24 (points).** If the first points are the second ones rotated and translated, and three of
the second points are not on a line, the transformation returned is exactly the true one. -/
theorem C24_points_exact (svd : Mat3 → Mat3 × Mat3)
    (hsvd : ∀ H, ∃ σ, Spec.IsSvd H (svd H).1 (svd H).2 σ)
    (R : Mat3) (hR : IsRot R) (t : Vec3) (qs : List Vec3)
    (a b c : Vec3) (ha : a ∈ qs) (hb : b ∈ qs) (hc : c ∈ qs)
    (hline : crossProduct (b - a) (c - a) ≠ 0) :
    arunComplete svd (qs.map fun q => (R *ᵥ q + t, q)) = some (t, R) := by
  have hne : (qs.map fun q => (R *ᵥ q + t, q)) ≠ [] := by
    intro h
    rw [List.map_eq_nil_iff] at h
    simp [h] at ha
  obtain ⟨s, Q, hres, hQ1, hQ2, hopt⟩ := C23_alignment_optimal svd hsvd _ hne
  have h0 := hopt t R hR.1 hR.2
  simp only [List.map_map, Function.comp_def, sub_self, zero_dotProduct] at h0
  have hzero : ∀ q ∈ qs, R *ᵥ q + t = Q *ᵥ q + s := by
    have hle : (qs.map fun q => (R *ᵥ q + t - (Q *ᵥ q + s)) ⬝ᵥ
        (R *ᵥ q + t - (Q *ᵥ q + s))).sum ≤ 0 := by simpa using h0
    exact fun q hq => sub_eq_zero.1 (dot_self_eq_zero3.1 (sum_nonpos_zero
      (fun q => (R *ᵥ q + t - (Q *ᵥ q + s)) ⬝ᵥ (R *ᵥ q + t - (Q *ᵥ q + s)))
      (fun q => dot_self_nonneg3 _) qs hle q hq))
  have hdiff : ∀ q ∈ qs, Q *ᵥ (q - a) = R *ᵥ (q - a) := by
    intro q hq
    rw [mulVec_sub, mulVec_sub]
    have h1 := hzero q hq
    have h2 := hzero a ha
    have h3 : Q *ᵥ q - Q *ᵥ a = (Q *ᵥ q + s) - (Q *ᵥ a + s) := by abel
    rw [h3, ← h1, ← h2]; abel
  have hQR : Q = R := rot_eq_of_two ⟨hQ1, hQ2⟩ hR hline (hdiff b hb) (hdiff c hc)
  have hst : s = t := by
    have := hzero a ha
    rw [hQR] at this
    exact (add_left_cancel this).symm
  rw [hres, hQR, hst]

example : crossProduct ((![1, 0, 0] : Vec3) - ![0, 0, 0]) (![0, 1, 0] - ![0, 0, 0]) ≠ 0 := by
  intro h
  have := congrFun h 2
  simp [cross_apply] at this

/-- **C24 (two bearing vectors).** If the bearing vectors are related by a rotation and the two
second ones are not parallel, `twopt_rotationOnly` returns that rotation (although it divides the
sum of two vectors by three). -/
theorem C24_twopt_rotation_exact (svd : Mat3 → Mat3 × Mat3)
    (hsvd : ∀ H, ∃ σ, Spec.IsSvd H (svd H).1 (svd H).2 σ)
    (R : Mat3) (hR : IsRot R) (f g : Vec3) (hpar : crossProduct f g ≠ 0) :
    twoptRotationOnly svd (R *ᵥ f, f) (R *ᵥ g, g) = R := by
  have e : twoptRotationOnly svd (R *ᵥ f, f) (R *ᵥ g, g) =
      arunR (svd (hcross ((3 : ℝ)⁻¹ • (R *ᵥ f + R *ᵥ g)) ((3 : ℝ)⁻¹ • (f + g))
        [(R *ᵥ f, f), (R *ᵥ g, g)])).1
      (svd (hcross ((3 : ℝ)⁻¹ • (R *ᵥ f + R *ᵥ g)) ((3 : ℝ)⁻¹ • (f + g))
        [(R *ᵥ f, f), (R *ᵥ g, g)])).2 := rfl
  rw [e]
  have hc : (3 : ℝ)⁻¹ • (R *ᵥ f + R *ᵥ g) = R *ᵥ ((3 : ℝ)⁻¹ • (f + g)) := by
    rw [mulVec_smul, mulVec_add]
  rw [hc]
  obtain ⟨σ, hσ⟩ := hsvd (hcross (R *ᵥ ((3 : ℝ)⁻¹ • (f + g))) ((3 : ℝ)⁻¹ • (f + g))
    [(R *ᵥ f, f), (R *ᵥ g, g)])
  refine arun_exact hσ hR (qs := [f, g]) rfl (a := f - (3 : ℝ)⁻¹ • (f + g))
    (b := g - (3 : ℝ)⁻¹ • (f + g)) ?_ ?_ ?_
  · exact fun Z h => h f (by simp)
  · exact fun Z h => h g (by simp)
  · intro h0
    apply hpar
    have : crossProduct (f - (3 : ℝ)⁻¹ • (f + g)) (g - (3 : ℝ)⁻¹ • (f + g)) =
        (3 : ℝ)⁻¹ • crossProduct f g := by
      apply ext3 <;> simp [cross_apply] <;> ring
    rw [this] at h0
    exact (smul_eq_zero.1 h0).resolve_left (by norm_num)

/-- **C24 (any number of bearing vectors).** If the bearing vectors are related by a rotation and
the second ones contain three different unit vectors, `rotationOnly` returns that rotation. -/
theorem C24_rotation_only_exact (svd : Mat3 → Mat3 × Mat3)
    (hsvd : ∀ H, ∃ σ, Spec.IsSvd H (svd H).1 (svd H).2 σ)
    (R : Mat3) (hR : IsRot R) (qs : List Vec3) (hunit : ∀ q ∈ qs, q ⬝ᵥ q = 1)
    (a b c : Vec3) (ha : a ∈ qs) (hb : b ∈ qs) (hc : c ∈ qs) (hab : a ≠ b) (hac : a ≠ c)
    (hbc : b ≠ c) :
    rotationOnly svd (qs.map fun q => (R *ᵥ q, q)) = some R := by
  have hline := sphere_not_collinear (hunit a ha) (hunit b hb) (hunit c hc) hab hac hbc
  have h := C24_points_exact svd hsvd R hR 0 qs a b c ha hb hc hline
  simp only [add_zero] at h
  unfold arunComplete at h
  unfold rotationOnly
  split at h
  · simp at h
  · rename_i c1 c2 hcen
    simp only [hcen]
    have := Option.some.inj h
    rw [Prod.mk.injEq] at this
    rw [this.2]

example : ((![1, 0, 0] : Vec3) ⬝ᵥ ![1, 0, 0] = 1 ∧ (![0, 1, 0] : Vec3) ⬝ᵥ ![0, 1, 0] = 1 ∧
    (![-1, 0, 0] : Vec3) ⬝ᵥ ![-1, 0, 0] = 1) ∧ (![1, 0, 0] : Vec3) ≠ ![-1, 0, 0] := by
  refine ⟨⟨by simp [dot3], by simp [dot3], by simp [dot3]⟩, fun h => ?_⟩
  have := congrFun h 0
  norm_num at this

end OpenGV.Props
