import Verif.Proof.Experiment
import Verif.Props.LmedsWhole
import Verif.Props.Rotation

/-!
# Property C72: the simulated experiments are what the solvers expect
-/

namespace OpenGV.Props

open Matrix hiding single
open OpenGV.Spec Sac WholeSac Experiment

/-- **C72 (random rotations).** For all angles the generated matrix is the rotation with these roll, pitch and
yaw angles; the divisions of the orthonormalisation are never by zero. -/
theorem C72_rotation (a : Vec3) :
    ∃ R, rotationOfAngles a = some R ∧ IsRot R ∧
      R = !![Real.cos (a 2) * Real.cos (a 1),
          Real.cos (a 2) * Real.sin (a 1) * Real.sin (a 0) - Real.sin (a 2) * Real.cos (a 0),
          Real.cos (a 2) * Real.sin (a 1) * Real.cos (a 0) + Real.sin (a 2) * Real.sin (a 0);
        Real.sin (a 2) * Real.cos (a 1),
          Real.sin (a 2) * Real.sin (a 1) * Real.sin (a 0) + Real.cos (a 2) * Real.cos (a 0),
          Real.sin (a 2) * Real.sin (a 1) * Real.cos (a 0) - Real.cos (a 2) * Real.sin (a 0);
        -Real.sin (a 1), Real.cos (a 1) * Real.sin (a 0), Real.cos (a 1) * Real.cos (a 0)] := by
  have h := isRot_mul (isRot_mul (yawMatrix_isRot (a 2)) (pitchMatrix_isRot (a 1))) (rollMatrix_isRot (a 0))
  refine ⟨_, orthonormalise_rot h, h, ?_⟩
  apply mat3_ext <;> simp [yawMatrix, pitchMatrix, rollMatrix, Matrix.mul_apply, Fin.sum_univ_three] <;> ring

/-- **C72 (random directions).** Both overloads of `generateRandomRotation` give proper rotations, and
`generateRandomDirectionTranslation` has exactly the requested length. -/
theorem C72_rotation_overloads (maxAngle parallax : ℝ) (u : Vec3) :
    (∃ R, randomRotationMax maxAngle u = some R ∧ IsRot R) ∧ (∃ R, randomRotation u = some R ∧ IsRot R) ∧
    ∃ t, randomDirectionTranslation parallax u = some t ∧ norm3 t = |parallax| := by
  obtain ⟨R, h1, h2, -⟩ := C72_rotation fun i => maxAngle * 2.0 * (u i - 0.5)
  obtain ⟨S, h3, h4, -⟩ := C72_rotation
    ![2 * Real.pi * (u 0 - 0.5), Real.pi * (u 1 - 0.5), 2 * Real.pi * (u 2 - 0.5)]
  refine ⟨⟨R, h1, h2⟩, ⟨S, h3, h4⟩, parallax • (S *ᵥ ![1, 0, 0]), ?_, ?_⟩
  · rw [randomDirectionTranslation, randomRotation, h3, Option.map_some]
  · rw [norm3_smul, norm3, rot_dot h4.1]
    simp

/-- **C72 (random points).** The point is NaN exactly when all three outputs of `rand()` are half of
`RAND_MAX`, which is impossible for the odd `RAND_MAX` of every common library. Otherwise the distance from
the origin is at least the minimum depth and at most `min + √3 (max - min)`; it is beyond the maximum depth
exactly when the random vector is outside the unit ball. -/
theorem C72_point (maxD minD : ℝ) (hmin : 0 ≤ minD) (hmax : minD < maxD) (randMax : ℕ) (hr : 0 < randMax)
    (r : Fin 3 → ℕ) (hle : ∀ i, r i ≤ randMax) :
    (randomPoint maxD minD (fun i => symRand randMax (r i)) = none ↔ ∀ i, 2 * r i = randMax) ∧
    ∀ p, randomPoint maxD minD (fun i => symRand randMax (r i)) = some p →
      minD < norm3 p ∧ norm3 p ≤ minD + √3 * (maxD - minD) ∧
      (maxD < norm3 p ↔ 1 < norm3 fun i => symRand randMax (r i)) := by
  have hR : (0 : ℝ) < randMax := by exact_mod_cast hr
  refine ⟨?_, ?_⟩
  · rw [randomPoint, Option.map_eq_none_iff, normalize3_none, funext_iff]
    refine forall_congr' fun i => ?_
    rw [symRand, Pi.zero_apply, ← @Nat.cast_inj ℝ]
    push_cast
    constructor
    · intro h
      field_simp at h
      norm_num at h
      linarith
    · intro h
      rw [← h]
      field_simp
      have : (r i : ℝ) ≠ 0 := by
        intro e
        rw [e] at h
        linarith
      field_simp
      norm_num
  · intro p hp
    set c : Vec3 := fun i => symRand randMax (r i) with hc
    obtain ⟨d, hd, rfl⟩ := Option.map_eq_some_iff.1 hp
    obtain ⟨h1, h2, h3⟩ := normalize3_eq_some hd
    have hn := norm3_pos h1
    have hp : (maxD - minD) • c + minD • d = ((maxD - minD) * norm3 c + minD) • d := by
      rw [add_smul, mul_smul]
      congr 2
      rw [h2, smul_smul, mul_inv_cancel₀ hn.ne', one_smul]
    have hnd : norm3 d = 1 := by rw [norm3, h3, Real.sqrt_one]
    have hpos : 0 < (maxD - minD) * norm3 c := mul_pos (by linarith) hn
    rw [hp, norm3_smul, hnd, mul_one, abs_of_pos (by linarith)]
    have habs : ∀ i, |c i| ≤ |(1 : Vec3) i| := by
      intro i
      have hi : (r i : ℝ) / randMax ≤ 1 := (div_le_one hR).2 (by exact_mod_cast hle i)
      have h0 : 0 ≤ (r i : ℝ) / randMax := by positivity
      rw [hc, Pi.one_apply, abs_one, abs_le]
      simp only [symRand]
      constructor <;> norm_num <;> linarith
    have hn3 : norm3 c ≤ √3 := by
      refine le_trans (norm3_mono habs) (le_of_eq ?_)
      rw [norm3]
      congr 1
      simp
    refine ⟨by linarith, ?_, ?_⟩
    · have := mul_le_mul_of_nonneg_left hn3 (show (0 : ℝ) ≤ maxD - minD by linarith)
      linarith
    · have hD : 0 < maxD - minD := by linarith
      constructor
      · intro h
        by_contra hle
        have := mul_le_mul_of_nonneg_left (not_lt.1 hle) hD.le
        linarith
      · intro h
        have := mul_lt_mul_of_pos_left h hD
        linarith

/-- With the depths of the experiments (4 to 8) and the odd `RAND_MAX` of glibc the point is never NaN, and
there are outputs of `rand()` for which it is further away than the maximum depth. -/
example : (∀ r : Fin 3 → ℕ, (∀ i, r i ≤ 2147483647) →
      ∃ p, randomPoint 8 4 (fun i => symRand 2147483647 (r i)) = some p ∧ 4 < norm3 p ∧ norm3 p ≤ 4 + √3 * 4) ∧
    ∃ r : Fin 3 → ℕ, (∀ i, r i ≤ 2147483647) ∧
      ∃ p, randomPoint 8 4 (fun i => symRand 2147483647 (r i)) = some p ∧ 8 < norm3 p := by
  have ex : ∀ r : Fin 3 → ℕ, (∀ i, r i ≤ 2147483647) →
      ∃ p, randomPoint 8 4 (fun i => symRand 2147483647 (r i)) = some p := by
    intro r hr
    have h := (C72_point 8 4 (by norm_num) (by norm_num) 2147483647 (by norm_num) r hr).1
    cases e : randomPoint 8 4 (fun i => symRand 2147483647 (r i)) with
    | none => have := h.1 e 0; omega
    | some p => exact ⟨p, rfl⟩
  refine ⟨fun r hr => ?_, fun _ => 2147483647, fun _ => le_refl _, ?_⟩
  · obtain ⟨p, hp⟩ := ex r hr
    have := (C72_point 8 4 (by norm_num) (by norm_num) 2147483647 (by norm_num) r hr).2 p hp
    refine ⟨p, hp, this.1, ?_⟩
    have h := this.2.1
    norm_num at h
    exact h
  · obtain ⟨p, hp⟩ := ex (fun _ => 2147483647) fun _ => le_refl _
    refine ⟨p, hp, ((C72_point 8 4 (by norm_num) (by norm_num) 2147483647 (by norm_num) (fun _ => 2147483647)
      fun _ => le_refl _).2 p hp).2.2.2 ?_⟩
    rw [norm3, Real.lt_sqrt (by norm_num), dot3]
    norm_num [symRand]

/-- **C72 (noise).** For a unit vector the noisy vector is NaN exactly when the third coordinate is zero and
the other two have the same absolute value. Otherwise it is a unit vector in front, and the tangent of the
angle between the two vectors is `noise √(x² + y²) / (1.4142 · 800)`. -/
theorem C72_noise (noise x y : ℝ) (hnoise : 0 ≤ noise) (c : Vec3) (hc : c ⬝ᵥ c = 1) :
    (addNoise noise x y c = none ↔ c 2 = 0 ∧ |c 0| = |c 1|) ∧
    ∀ f, addNoise noise x y c = some f → f ⬝ᵥ f = 1 ∧ 0 < c ⬝ᵥ f ∧
      norm3 (crossProduct c f) = noise * √(x ^ 2 + y ^ 2) / (1.4142 * 800) * (c ⬝ᵥ f) := by
  have main : ∀ n, noiseNormal c = some n → ∃ f,
      addNoise noise x y c = some f ∧ f ⬝ᵥ f = 1 ∧ 0 < c ⬝ᵥ f ∧
      norm3 (crossProduct c f) = noise * √(x ^ 2 + y ^ 2) / (1.4142 * 800) * (c ⬝ᵥ f) := by
    intro n hn
    obtain ⟨hn1, hcn⟩ := noiseNormal_some hn
    set X := noise * x / 1.4142 with hX
    set Y := noise * y / 1.4142 with hY
    set v : Vec3 := (800 : ℝ) • c + X • n + Y • crossProduct c n with hv
    have hcm : c ⬝ᵥ crossProduct c n = 0 := dot_self_cross c n
    have hcv : c ⬝ᵥ v = 800 := by
      rw [hv, dotProduct_add, dotProduct_add, dotProduct_smul, dotProduct_smul, dotProduct_smul, hc, hcn, hcm]
      simp
    have hv0 : v ≠ 0 := by
      intro e
      rw [e, dotProduct_zero] at hcv
      norm_num at hcv
    obtain ⟨f, hf⟩ := normalize3_isSome hv0
    obtain ⟨_, hfv, hff⟩ := normalize3_eq_some hf
    have hpos := norm3_pos hv0
    have hcf : c ⬝ᵥ f = (norm3 v)⁻¹ * 800 := by rw [hfv, dotProduct_smul, hcv, smul_eq_mul]
    have hcc : crossProduct c (crossProduct c n) = -n := by
      have e : crossProduct c (crossProduct c n) = (c ⬝ᵥ n) • c - (c ⬝ᵥ c) • n := by
        apply ext3 <;> simp [cross_apply, dot3] <;> ring
      rw [e, hcn, hc, zero_smul, one_smul, zero_sub]
    have hm : crossProduct c n ⬝ᵥ crossProduct c n = 1 := by
      have := lagrange c n
      rw [hc, hn1, hcn] at this
      linarith
    have hxv : crossProduct c v = X • crossProduct c n - Y • n := by
      rw [hv, map_add, map_add, map_smul, map_smul, map_smul, hcc, cross_self]
      simp [sub_eq_add_neg]
    have hnn : norm3 (crossProduct c v) = noise * √(x ^ 2 + y ^ 2) / 1.4142 := by
      have hmn : crossProduct c n ⬝ᵥ n = 0 := by
        rw [dotProduct_comm]
        exact dot_cross_self c n
      have e : crossProduct c v ⬝ᵥ crossProduct c v = (noise / 1.4142) ^ 2 * (x ^ 2 + y ^ 2) := by
        rw [hxv]
        simp only [sub_dotProduct, dotProduct_sub, smul_dotProduct, dotProduct_smul, hm, hn1, hmn,
          dotProduct_comm n, smul_eq_mul]
        rw [hX, hY]
        ring
      rw [norm3, e, Real.sqrt_mul (sq_nonneg _), Real.sqrt_sq (by positivity)]
      ring
    refine ⟨f, by rw [addNoise, hn, Option.bind_some, ← hf], hff, by rw [hcf]; positivity, ?_⟩
    rw [hfv, map_smul, norm3_smul, hnn, ← hfv, hcf, abs_of_pos (inv_pos.2 hpos)]
    field_simp
  refine ⟨?_, ?_⟩
  · rw [← noiseNormal_none]
    constructor
    · intro h
      cases hn : noiseNormal c with
      | none => rfl
      | some n =>
        obtain ⟨f, hf, -⟩ := main n hn
        rw [hf] at h
        cases h
    · intro h
      rw [addNoise, h, Option.bind_none]
  · intro f hf
    cases hn : noiseNormal c with
    | none => rw [addNoise, hn] at hf; cases hf
    | some n =>
      obtain ⟨g, hg, h⟩ := main n hn
      rw [hg] at hf
      cases hf
      exact h

/-- Noise on the direction (3/5, 4/5, 0) is fine, on (1/√2, 1/√2, 0) it is NaN. -/
example : (∃ f, addNoise 1 1 0 ![3 / 5, 4 / 5, 0] = some f ∧ f ⬝ᵥ f = 1) ∧
    addNoise 1 1 0 ![1 / √2, 1 / √2, 0] = none := by
  have h1 : (![3 / 5, 4 / 5, 0] : Vec3) ⬝ᵥ ![3 / 5, 4 / 5, 0] = 1 := by norm_num [dot3, vcons2]
  have h2 : (![1 / √2, 1 / √2, 0] : Vec3) ⬝ᵥ ![1 / √2, 1 / √2, 0] = 1 := by
    have : √2 * √2 = (2 : ℝ) := Real.mul_self_sqrt (by norm_num)
    simp
    field_simp
    nlinarith
  refine ⟨?_, (C72_noise 1 1 0 (by norm_num) _ h2).1.2 ⟨rfl, rfl⟩⟩
  cases e : addNoise 1 1 0 ![3 / 5, 4 / 5, 0] with
  | none =>
    have := ((C72_noise 1 1 0 (by norm_num) _ h1).1.1 e).2
    simp only [cons_val_zero, cons_val_one] at this
    rw [abs_of_pos (by norm_num), abs_of_pos (by norm_num)] at this
    norm_num at this
  | some f => exact ⟨f, rfl, ((C72_noise 1 1 0 (by norm_num) _ h1).2 f e).1⟩

/-- **C72 (relative pose).** The extracted rotation is proper and the pose maps the coordinates of every world
point in the second frame to those in the first. With normalisation the result is NaN exactly when the two
positions are the same, and otherwise has a unit translation with the same direction. -/
theorem C72_relative (P1 P2 : Pose) (h1 : IsRot P1.2) (h2 : IsRot P2.2) :
    IsRot (relativePose P1 P2).2 ∧
    (∀ x, P1.2.transpose *ᵥ (x - P1.1) =
      (relativePose P1 P2).2 *ᵥ (P2.2.transpose *ᵥ (x - P2.1)) + (relativePose P1 P2).1) ∧
    (relativePoseUnit P1 P2 = none ↔ P1.1 = P2.1) ∧
    ∀ Q, relativePoseUnit P1 P2 = some Q → Q.2 = (relativePose P1 P2).2 ∧ Q.1 ⬝ᵥ Q.1 = 1 ∧
      ∃ s : ℝ, 0 < s ∧ (relativePose P1 P2).1 = s • Q.1 := by
  refine ⟨isRot_mul (isRot_transpose h1) h2, ?_, ?_, ?_⟩
  · intro x
    rw [relativePose]
    simp only
    rw [mulVec_mulVec, Matrix.mul_assoc, rot_mul_transpose h2.1, Matrix.mul_one, ← mulVec_add]
    congr 1
    abel
  · rw [relativePoseUnit, Option.map_eq_none_iff, normalize3_none, relativePose, rot_mulVec_eq h1, mulVec_zero,
      sub_eq_zero, eq_comm]
  · intro Q hQ
    obtain ⟨t, ht, rfl⟩ := Option.map_eq_some_iff.1 hQ
    obtain ⟨a, b, c⟩ := normalize3_eq_some ht
    refine ⟨rfl, c, norm3 (relativePose P1 P2).1, norm3_pos a, ?_⟩
    simp only
    rw [b, smul_smul, mul_inv_cancel₀ (norm3_pos a).ne', one_smul]

/-- **C72 (perturbed pose).** Every coordinate of the position and of the Cayley parameters moves by at most
the amplitude, the perturbed rotation is proper, and it is NaN exactly for half turns. -/
theorem C72_perturbed (P : Pose) (hP : IsRot P.2) (amplitude : ℝ) (hamp : 0 ≤ amplitude) (a b : Vec3)
    (ha : ∀ i, |a i| ≤ 1) (hb : ∀ i, |b i| ≤ 1) :
    (∀ i, |(perturbedPose P amplitude a b).1 i - P.1 i| ≤ amplitude) ∧
    ((perturbedPose P amplitude a b).2 = none ↔ P.2.trace = -1) ∧
    ∀ R, (perturbedPose P amplitude a b).2 = some R → IsRot R ∧
      ∃ c c', cayley2rot c = P.2 ∧ cayley2rot c' = R ∧ ∀ i, |c' i - c i| ≤ amplitude := by
  have step : ∀ x : ℝ, |x| ≤ 1 → |x * amplitude| ≤ amplitude := by
    intro x hx
    rw [abs_mul, abs_of_nonneg hamp]
    exact mul_le_of_le_one_left hamp hx
  refine ⟨?_, ?_, ?_⟩
  · intro i
    simp only [perturbedPose, add_sub_cancel_left]
    exact step _ (ha i)
  · simp only [perturbedPose, Option.map_eq_none_iff]
    exact (C19_undefined_iff_half_turn P.2 hP).1
  · intro R hR
    simp only [perturbedPose] at hR
    obtain ⟨c, hc, rfl⟩ := Option.map_eq_some_iff.1 hR
    have ht : P.2.trace ≠ -1 := by
      intro e
      rw [(C19_undefined_iff_half_turn P.2 hP).1.2 e] at hc
      cases hc
    obtain ⟨c0, hc0, e⟩ := C19_cayley2rot_rot2cayley P.2 hP ht
    rw [hc0] at hc
    cases hc
    refine ⟨cayley2rot_isRot _, c, _, e, rfl, ?_⟩
    intro i
    simp only [add_sub_cancel_left]
    exact step _ (hb i)

/-- **C72 (indices).** `getNindices(n)` is `0, …, n - 1`, and empty for negative `n`. -/
theorem C72_indices (n : ℤ) :
    (nIndices n).length = n.toNat ∧ ∀ k : ℕ, (k : ℤ) < n → (nIndices n)[k]? = some (k : ℤ) := by
  rw [nIndices, nIndicesLoop_eq]
  refine ⟨by simp, fun k hk => ?_⟩
  have : k < n.toNat := by omega
  simp [this]

example : nIndices 3 = [0, 1, 2] ∧ nIndices (-2) = [] := ⟨rfl, rfl⟩

/-! ## The correspondences -/

/-- **C72 (2D-3D).** With at least one camera and no more outliers than points, the generator succeeds. Point
`i` is stored with camera `i mod numberCams`. Without noise the bearing vector of every point that is not an
outlier is exact: it has unit length and score 0 for the true pose, and is NaN only for a point in the centre
of the camera. An outlier keeps the point and has the exact bearing vector of another point, in the same
camera. -/
theorem C72_2d3d (P : Pose) (hP : IsRot P.2) (cams : List Cam) (hne : cams ≠ []) (hrot : ∀ c ∈ cams, IsRot c.2)
    (numberPoints : ℕ) (noise fraction : ℝ) (hfr : 0 ≤ fraction) (xy : ℕ → ℝ × ℝ) (gt : List Vec3)
    (out : ℕ → Vec3) (hk : ⌊fraction * numberPoints⌋₊ ≤ gt.length) :
    ∃ l, generate23 P cams numberPoints noise fraction xy gt out = some l ∧ l.length = gt.length ∧
      ∀ i p c, gt[i]? = some p → cams[i % cams.length]? = some c →
        ∃ f, l[i]? = some ⟨f, p, i % cams.length⟩ ∧ (∀ v, f = some v → v ⬝ᵥ v = 1) ∧
          (⌊fraction * numberPoints⌋₊ ≤ i → noise ≤ 0 → (f = none ↔ p = P.1 + P.2 *ᵥ c.1) ∧
            ∀ v, f = some v → absScore P c.1 c.2 p v = some 0) ∧
          (i < ⌊fraction * numberPoints⌋₊ → (f = none ↔ out i = P.1 + P.2 *ᵥ c.1) ∧
            ∀ v, f = some v → absScore P c.1 c.2 (out i) v = some 0) := by
  have hpos : 0 < cams.length := List.length_pos_of_ne_nil hne
  obtain ⟨l0, e1, e2, e3⟩ := camLoop_spec cams
    (fun i cam c p => (⟨bearing P c noise (xy i) p, p, cam⟩ : Obs23)) gt 0 0 hpos
  simp only [Nat.zero_add] at e1 e3
  have cam_of : ∀ k : ℕ, ∃ c, cams[k % cams.length]? = some c :=
    fun k => ⟨_, List.getElem?_eq_getElem (Nat.mod_lt k hpos)⟩
  obtain ⟨l, h1, h2, h3, h4⟩ := outlierLoop_spec
    (fun (s : Obs23) q => (cams[s.cam]?).map fun c => { s with f := normalize3 (project P c q) })
    (fun k s => s.cam = k % cams.length)
    (by
      intro k s q hs
      obtain ⟨c, hc⟩ := cam_of k
      exact ⟨{ s with f := normalize3 (project P c q) }, by simp only [hs, hc, Option.map_some], hs⟩)
    ((List.range ⌊fraction * numberPoints⌋₊).map out) 0 l0
    (by
      intro k s hs
      have hlt : k < gt.length := e2 ▸ (List.getElem?_eq_some_iff.1 hs).1
      obtain ⟨c, hc⟩ := cam_of k
      rw [e3 k _ c (List.getElem?_eq_getElem hlt) hc] at hs
      cases hs
      rfl)
    (by simpa [e2] using hk)
  simp only [List.length_map, List.length_range, Nat.zero_add, Nat.sub_zero] at h3 h4
  refine ⟨l, by rw [generate23, e1, Option.bind_some, numberOutliers_eq hfr, Option.bind_some, h1],
    by rw [h2, e2], ?_⟩
  intro i p c hp hc
  have hc' := hrot c (List.mem_of_getElem? hc)
  have exact_of : ∀ q v, normalize3 (project P c q) = some v → v ⬝ᵥ v = 1 ∧ absScore P c.1 c.2 q v = some 0 := by
    intro q v hv
    obtain ⟨a, b, d⟩ := normalize3_eq_some hv
    refine ⟨d, ?_⟩
    rw [absScore, ← project_eq, hv]
    simp [d]
  by_cases hi : i < ⌊fraction * numberPoints⌋₊
  · refine ⟨normalize3 (project P c (out i)), ?_, fun v hv => (exact_of _ v hv).1, fun h => absurd hi (by omega),
      fun _ => ⟨?_, fun v hv => (exact_of _ v hv).2⟩⟩
    · rw [h4 i _ _ (Nat.zero_le i) (range_map_get out hi) (e3 i p c hp hc)]
      simp only [hc, Option.map_some]
    · rw [normalize3_none, project_zero hP hc']
  · refine ⟨bearing P c noise (xy i) p, ?_, ?_, fun _ hno => ?_, fun h => absurd h hi⟩
    · rw [h3 i (Or.inr (by omega)), e3 i p c hp hc]
    · intro v hv
      obtain ⟨f, hf, hfv⟩ := Option.bind_eq_some_iff.1 hv
      split_ifs at hfv with hn
      · exact ((C72_noise noise _ _ hn.le f (normalize3_eq_some hf).2.2).2 v hfv).1
      · cases hfv
        exact (normalize3_eq_some hf).2.2
    · have hb : bearing P c noise (xy i) p = normalize3 (project P c p) := by
        rw [bearing]
        cases normalize3 (project P c p) with
        | none => rfl
        | some f => rw [Option.bind_some, if_neg (not_lt.2 hno)]
      rw [hb]
      exact ⟨by rw [normalize3_none, project_zero hP hc'], fun v hv => (exact_of _ v hv).2⟩

/-- **C72 (2D-3D, undefined behaviour).** Without a camera, or with more outliers than points, the generator
reads or writes outside a vector. -/
theorem C72_2d3d_out_of_bounds (P : Pose) (cams : List Cam) (numberPoints : ℕ) (noise fraction : ℝ)
    (hfr : 0 ≤ fraction) (xy : ℕ → ℝ × ℝ) (gt : List Vec3) (out : ℕ → Vec3)
    (h : (cams = [] ∧ gt ≠ []) ∨ (cams ≠ [] ∧ gt.length < ⌊fraction * numberPoints⌋₊)) :
    generate23 P cams numberPoints noise fraction xy gt out = none := by
  rcases h with ⟨rfl, h⟩ | ⟨hne, h⟩
  · cases gt with
    | nil => exact absurd rfl h
    | cons p ps => rw [generate23, camLoop_none, Option.bind_none]
  · obtain ⟨l0, e1, e2, -⟩ := camLoop_spec cams
      (fun i cam c p => (⟨bearing P c noise (xy i) p, p, cam⟩ : Obs23)) gt 0 0 (List.length_pos_of_ne_nil hne)
    rw [generate23, e1, Option.bind_some, numberOutliers_eq hfr, Option.bind_some]
    exact outlierLoop_none _ _ _ _ (Nat.zero_le _) (by simpa [e2] using h)

/-- **C72 (2D-2D).** The bearing vectors of every pair that is not an outlier are exact when there is no noise:
both have unit length and the two rays meet in front of both cameras under the extracted relative pose. The
second bearing vector of an outlier is that of another point, but in camera `n mod numberCams` for `n` points,
whatever camera is stored for the pair. -/
theorem C72_2d2d (P1 P2 : Pose) (hP1 : IsRot P1.2) (hP2 : IsRot P2.2) (cams : List Cam) (hne : cams ≠ [])
    (hrot : ∀ c ∈ cams, IsRot c.2) (numberPoints : ℕ) (noise fraction : ℝ) (hfr : 0 ≤ fraction)
    (xy1 xy2 : ℕ → ℝ × ℝ) (gt : List Vec3) (out : ℕ → Vec3) (hk : ⌊fraction * numberPoints⌋₊ ≤ gt.length) :
    ∃ l, generate22 P1 P2 cams numberPoints noise fraction xy1 xy2 gt out = some l ∧ l.length = gt.length ∧
      ∀ i p c c', gt[i]? = some p → cams[i % cams.length]? = some c →
        cams[gt.length % cams.length]? = some c' →
        ∃ f1 f2, l[i]? = some ⟨f1, f2, i % cams.length⟩ ∧
          (noise ≤ 0 → (f1 = none ↔ p = P1.1 + P1.2 *ᵥ c.1) ∧
            ∀ v, f1 = some v → v ⬝ᵥ v = 1 ∧ absScore P1 c.1 c.2 p v = some 0) ∧
          (⌊fraction * numberPoints⌋₊ ≤ i → noise ≤ 0 → (f2 = none ↔ p = P2.1 + P2.2 *ᵥ c.1) ∧
            (∀ v, f2 = some v → v ⬝ᵥ v = 1 ∧ absScore P2 c.1 c.2 p v = some 0) ∧
            ∀ v1 v2, f1 = some v1 → f2 = some v2 → ∃ a b : ℝ, 0 < a ∧ 0 < b ∧
              a • v1 = directTranslation (relativePose P1 P2).1 (relativePose P1 P2).2 c.1 c.1 c.2 +
                b • (directRotation (relativePose P1 P2).2 c.2 c.2 *ᵥ v2)) ∧
          (i < ⌊fraction * numberPoints⌋₊ → (f2 = none ↔ out i = P2.1 + P2.2 *ᵥ c'.1) ∧
            ∀ v, f2 = some v → v ⬝ᵥ v = 1 ∧ absScore P2 c'.1 c'.2 (out i) v = some 0) := by
  have hpos : 0 < cams.length := List.length_pos_of_ne_nil hne
  obtain ⟨l0, e1, e2, e3⟩ := camLoop_spec cams
    (fun i cam c p => (⟨bearing P1 c noise (xy1 i) p, bearing P2 c noise (xy2 i) p, cam⟩ : Obs22)) gt 0 0 hpos
  simp only [Nat.zero_add] at e1 e3
  obtain ⟨c', hc'⟩ : ∃ c, cams[gt.length % cams.length]? = some c :=
    ⟨_, List.getElem?_eq_getElem (Nat.mod_lt _ hpos)⟩
  obtain ⟨l, h1, h2, h3, h4⟩ := outlierLoop_spec
    (fun (s : Obs22) q => (cams[gt.length % cams.length]?).map fun c =>
      { s with f2 := normalize3 (project P2 c q) })
    (fun _ _ => True) (by intro k s q _; exact ⟨_, by rw [hc']; rfl, trivial⟩)
    ((List.range ⌊fraction * numberPoints⌋₊).map out) 0 l0 (fun _ _ _ => trivial)
    (by simpa [e2] using hk)
  simp only [List.length_map, List.length_range, Nat.zero_add, Nat.sub_zero] at h3 h4
  refine ⟨l, by rw [generate22, e1, Option.bind_some, numberOutliers_eq hfr, Option.bind_some, h1],
    by rw [h2, e2], ?_⟩
  intro i p c c1 hp hc hc1
  rw [hc'] at hc1
  cases hc1
  have hrc := hrot c (List.mem_of_getElem? hc)
  have hrc' := hrot c' (List.mem_of_getElem? hc')
  have exact_of : ∀ (P : Pose) (d : Cam) (q v : Vec3), normalize3 (project P d q) = some v →
      v ⬝ᵥ v = 1 ∧ absScore P d.1 d.2 q v = some 0 := by
    intro P d q v hv
    obtain ⟨a, b, e⟩ := normalize3_eq_some hv
    refine ⟨e, ?_⟩
    rw [absScore, ← project_eq, hv]
    simp [e]
  have clean : ∀ (P : Pose) (xy : ℝ × ℝ), noise ≤ 0 → bearing P c noise xy p = normalize3 (project P c p) := by
    intro P xy hno
    rw [bearing]
    cases normalize3 (project P c p) with
    | none => rfl
    | some f => rw [Option.bind_some, if_neg (not_lt.2 hno)]
  have first : noise ≤ 0 → (bearing P1 c noise (xy1 i) p = none ↔ p = P1.1 + P1.2 *ᵥ c.1) ∧
      ∀ v, bearing P1 c noise (xy1 i) p = some v → v ⬝ᵥ v = 1 ∧ absScore P1 c.1 c.2 p v = some 0 := by
    intro hno
    rw [clean P1 _ hno]
    exact ⟨by rw [normalize3_none, project_zero hP1 hrc], fun v hv => exact_of _ _ _ _ hv⟩
  by_cases hi : i < ⌊fraction * numberPoints⌋₊
  · refine ⟨bearing P1 c noise (xy1 i) p, normalize3 (project P2 c' (out i)), ?_, first,
      fun h => absurd hi (by omega), fun _ => ⟨?_, fun v hv => exact_of _ _ _ _ hv⟩⟩
    · rw [h4 i _ _ (Nat.zero_le i) (range_map_get out hi) (e3 i p c hp hc)]
      simp only [hc', Option.map_some]
    · rw [normalize3_none, project_zero hP2 hrc']
  · refine ⟨bearing P1 c noise (xy1 i) p, bearing P2 c noise (xy2 i) p, ?_, first, fun _ hno => ?_,
      fun h => absurd h hi⟩
    · rw [h3 i (Or.inr (by omega)), e3 i p c hp hc]
    · rw [clean P1 _ hno, clean P2 _ hno]
      refine ⟨by rw [normalize3_none, project_zero hP2 hrc], fun v hv => exact_of _ _ _ _ hv, ?_⟩
      intro v1 v2 hv1 hv2
      obtain ⟨a1, b1, -⟩ := normalize3_eq_some hv1
      obtain ⟨a2, b2, -⟩ := normalize3_eq_some hv2
      refine ⟨norm3 (project P1 c p), norm3 (project P2 c p), norm3_pos a1, norm3_pos a2, ?_⟩
      have s1 : norm3 (project P1 c p) • v1 = project P1 c p := by
        rw [b1, smul_smul, mul_inv_cancel₀ (norm3_pos a1).ne', one_smul]
      have s2 : norm3 (project P2 c p) • v2 = project P2 c p := by
        rw [b2, smul_smul, mul_inv_cancel₀ (norm3_pos a2).ne', one_smul]
      rw [s1, ← mulVec_smul, s2, directTranslation, directRotation, project, project,
        (C72_relative P1 P2 hP1 hP2).2.1 p]
      set y := P2.2.transpose *ᵥ (p - P2.1)
      have hcc : c.2 *ᵥ (c.2.transpose *ᵥ (y - c.1)) = y - c.1 := by
        rw [mulVec_mulVec, rot_mul_transpose hrc.1, one_mulVec]
      rw [← mulVec_mulVec, hcc, ← mulVec_mulVec, ← mulVec_add, mulVec_sub (relativePose P1 P2).2]
      congr 1
      abel

/-- **C72 (2D-2D, central camera).** For the central camera system and no noise, every pair that is not an
outlier and is not seen in parallel directions is explained by the extracted relative pose in the sense of the
relative pose problems, and has score zero. -/
theorem C72_2d2d_central (P1 P2 : Pose) (hP1 : IsRot P1.2) (hP2 : IsRot P2.2) (numberPoints : ℕ)
    (noise fraction : ℝ) (hno : noise ≤ 0) (hfr : 0 ≤ fraction) (xy1 xy2 : ℕ → ℝ × ℝ) (gt : List Vec3)
    (out : ℕ → Vec3) (l : List Obs22)
    (h : generate22 P1 P2 [(0, 1)] numberPoints noise fraction xy1 xy2 gt out = some l)
    (i : ℕ) (hi : ⌊fraction * numberPoints⌋₊ ≤ i) (v1 v2 : Vec3) (cam : ℕ)
    (hl : l[i]? = some ⟨some v1, some v2, cam⟩)
    (hpar : ¬ ∃ a b : ℝ, (a ≠ 0 ∨ b ≠ 0) ∧ a • v1 = b • ((relativePose P1 P2).2 *ᵥ v2)) :
    Explains (relativePose P1 P2) (v1, v2) ∧
      relScore (relativePose P1 P2).1 (relativePose P1 P2).2 v1 v2 = some 0 := by
  have hk : ⌊fraction * numberPoints⌋₊ ≤ gt.length := by
    by_contra hk
    obtain ⟨l0, e1, e2, -⟩ := camLoop_spec [((0, 1) : Cam)]
      (fun i cam c p => (⟨bearing P1 c noise (xy1 i) p, bearing P2 c noise (xy2 i) p, cam⟩ : Obs22)) gt 0 0
      (by simp)
    rw [generate22, e1, Option.bind_some, numberOutliers_eq hfr, Option.bind_some,
      outlierLoop_none _ _ _ _ (Nat.zero_le _) (by simpa [e2] using hk)] at h
    cases h
  obtain ⟨l', e, hlen, hall⟩ := C72_2d2d P1 P2 hP1 hP2 [(0, 1)] (by simp)
    (by intro c hc; rw [List.mem_singleton.1 hc]; exact ⟨by simp, by simp⟩) numberPoints noise fraction hfr
    xy1 xy2 gt out hk
  rw [e] at h
  cases h
  have hlt : i < gt.length := by rw [← hlen]; exact (List.getElem?_eq_some_iff.1 hl).1
  obtain ⟨f1, f2, g1, g2, g3, -⟩ := hall i gt[i] (0, 1) (0, 1) (List.getElem?_eq_getElem hlt)
    (by simp [Nat.mod_one]) (by simp [Nat.mod_one])
  rw [hl] at g1
  simp only [Option.some.injEq, Obs22.mk.injEq] at g1
  obtain ⟨rfl, rfl, -⟩ := g1
  obtain ⟨a, b, ha, hb, hab⟩ := (g3 hi hno).2.2 v1 v2 rfl rfl
  have u1 := ((g2 hno).2 v1 rfl).1
  have u2 := ((g3 hi hno).2.1 v2 rfl).1
  simp only [directTranslation, directRotation, transpose_one, one_mulVec, sub_zero, mulVec_zero, add_zero,
    Matrix.one_mul, Matrix.mul_one] at hab
  refine ⟨⟨u1, u2, hpar, a, b, ha, hb, hab⟩, ?_⟩
  exact (C50_two_view _ _ v1 v2 (C72_relative P1 P2 hP1 hP2).1.1 u1 u2).2.2 ⟨hpar, a, b, ha, hb, hab⟩

/-- **C72 (3D-3D).** Without noise every pair that is not an outlier is mapped exactly by the extracted
relative pose; with noise each coordinate of both points is off by at most the noise level. An outlier keeps
the first point and gets another point as the second. -/
theorem C72_3d3d (P1 P2 : Pose) (hP1 : IsRot P1.2) (hP2 : IsRot P2.2) (numberPoints : ℕ)
    (noise fraction : ℝ) (hfr : 0 ≤ fraction) (c1 c2 : ℕ → Vec3) (hc : ∀ i j, |c1 i j| ≤ 1 ∧ |c2 i j| ≤ 1)
    (gt : List Vec3) (out : ℕ → Vec3) (hk : ⌊fraction * numberPoints⌋₊ ≤ gt.length) :
    ∃ l, generate33 P1 P2 numberPoints noise fraction c1 c2 gt out = some l ∧ l.length = gt.length ∧
      ∀ i p, gt[i]? = some p → ∃ q, l[i]? = some q ∧
        (∀ j, |q.1 j - (P1.2.transpose *ᵥ (p - P1.1)) j| ≤ max noise 0) ∧
        (⌊fraction * numberPoints⌋₊ ≤ i →
          (∀ j, |q.2 j - (P2.2.transpose *ᵥ (p - P2.1)) j| ≤ max noise 0) ∧
          (noise ≤ 0 → q.1 = (relativePose P1 P2).2 *ᵥ q.2 + (relativePose P1 P2).1)) ∧
        (i < ⌊fraction * numberPoints⌋₊ → q.2 = P2.2.transpose *ᵥ (out i - P2.1)) := by
  obtain ⟨e2, e3⟩ := pointLoop33_get P1 P2 noise c1 c2 gt 0
  simp only [Nat.zero_add] at e3
  obtain ⟨l, h1, h2, h3, h4⟩ := outlierLoop_spec
    (fun (s : Vec3 × Vec3) q => some (s.1, P2.2.transpose *ᵥ (q - P2.1)))
    (fun _ _ => True) (by intro k s q _; exact ⟨_, rfl, trivial⟩)
    ((List.range ⌊fraction * numberPoints⌋₊).map out) 0 (pointLoop33 P1 P2 noise c1 c2 gt 0)
    (fun _ _ _ => trivial) (by simpa [e2] using hk)
  simp only [List.length_map, List.length_range, Nat.zero_add, Nat.sub_zero] at h3 h4
  refine ⟨l, by rw [generate33, numberOutliers_eq hfr, Option.bind_some, h1], by rw [h2, e2], ?_⟩
  intro i p hp
  have hq := e3 i p hp
  have near : ∀ (x d : Vec3), 0 < noise → (∀ j, |d j| ≤ 1) →
      ∀ j, |(x + randomTranslation noise d) j - x j| ≤ max noise 0 := by
    intro x d hn hd j
    simp only [Pi.add_apply, randomTranslation, Pi.smul_apply, smul_eq_mul, add_sub_cancel_left]
    rw [abs_mul, abs_of_pos hn, max_eq_left hn.le]
    exact mul_le_of_le_one_right hn.le (hd j)
  have same : ∀ (x : Vec3) (j : Fin 3), |x j - x j| ≤ max noise 0 := by
    intro x j
    rw [sub_self, abs_zero]
    exact le_max_right _ _
  by_cases hi : i < ⌊fraction * numberPoints⌋₊
  · refine ⟨_, h4 i _ _ (Nat.zero_le i) (range_map_get out hi) hq, ?_, fun h => absurd hi (by omega), fun _ => rfl⟩
    split_ifs with hn
    · exact near _ _ hn fun j => (hc i j).1
    · exact same _
  · refine ⟨_, (h3 i (Or.inr (by omega))).trans hq, ?_, fun _ => ⟨?_, ?_⟩, fun h => absurd h hi⟩
    · split_ifs with hn
      · exact near _ _ hn fun j => (hc i j).1
      · exact same _
    · split_ifs with hn
      · exact near _ _ hn fun j => (hc i j).2
      · exact same _
    · intro hno
      rw [if_neg (not_lt.2 hno)]
      exact (C72_relative P1 P2 hP1 hP2).2.1 p

/-! ## Defects, runs on simulated data -/

/-- **C72 (outliers of the wrong camera).** Two cameras, three points and one outlier: the outlier is stored
for camera 0 but its bearing vector is the projection into camera 1. -/
theorem C72_outlier_camera (xy1 xy2 : ℕ → ℝ × ℝ) :
    ∃ l f1 v, generate22 (0, 1) (0, 1) [(0, 1), (![0, 0, 1], 1)] 3 0 (1 / 3) xy1 xy2
        [![1, 0, 5], ![0, 1, 5], ![1, 1, 5]] (fun _ => ![0, 3, 5]) = some l ∧
      l[0]? = some ⟨f1, some v, 0⟩ ∧ absScore (0, 1) 0 1 ![0, 3, 5] v ≠ some 0 ∧
      absScore (0, 1) ![0, 0, 1] 1 ![0, 3, 5] v = some 0 := by
  have one : IsRot (1 : Mat3) := ⟨by simp, by simp⟩
  have fl : ⌊(1 / 3 : ℝ) * (3 : ℕ)⌋₊ = 1 := by norm_num
  obtain ⟨l, e, -, hall⟩ := C72_2d2d (0, 1) (0, 1) one one [(0, 1), (![0, 0, 1], 1)] (by simp)
    (by
      intro c hc
      simp only [List.mem_cons, List.not_mem_nil, or_false] at hc
      rcases hc with rfl | rfl <;> exact one)
    3 0 (1 / 3) (by norm_num) xy1 xy2 [![1, 0, 5], ![0, 1, 5], ![1, 1, 5]] (fun _ => ![0, 3, 5])
    (by rw [fl]; simp)
  obtain ⟨f1, f2, g1, -, -, g2⟩ := hall 0 ![1, 0, 5] (0, 1) (![0, 0, 1], 1) rfl rfl rfl
  obtain ⟨g3, g4⟩ := g2 (by rw [fl]; norm_num)
  cases f2 with
  | none =>
    have := congrFun (g3.1 rfl) 1
    simp at this
  | some v =>
    obtain ⟨u, hv⟩ := g4 v rfl
    refine ⟨l, f1, v, e, g1, fun h0 => ?_, hv⟩
    obtain ⟨d, hd, ed⟩ := (C50_absolute (0, 1) ![0, 0, 1] 1 ![0, 3, 5] v u).2.2.1 hv
    obtain ⟨d', hd', ed'⟩ := (C50_absolute (0, 1) 0 1 ![0, 3, 5] v u).2.2.1 h0
    have a1 := congrFun ed 1
    have a2 := congrFun ed 2
    have b1 := congrFun ed' 1
    have b2 := congrFun ed' 2
    simp only [absReprojection, transpose_one, one_mulVec, neg_zero, add_zero, Pi.sub_apply, Pi.smul_apply,
      smul_eq_mul, vcons2, cons_val_one, cons_val_zero, sub_zero] at a1 a2 b1 b2
    have hv1 : v 1 ≠ 0 := by
      intro z
      rw [z] at a1
      norm_num at a1
    have hdd : d = d' := mul_right_cancel₀ hv1 (by linarith)
    rw [hdd] at a2
    linarith

/-- **C72 (RANSAC on simulated absolute pose data).** For every absolute pose problem, camera system and
noise-free experiment in which no point is in a camera centre: if the true pose is scored, the result has at
least as many inliers as the experiment has points that are not outliers. -/
theorem C72_ransac {σ : Type} (U : UserProblem σ Pose) (obs : ℤ → Adapters.AbsObs) (nan : ℝ)
    (hU : ∀ m is, U.dist m is = is.map fun i =>
      (absScore m (obs i).off (obs i).rot (obs i).p (obs i).f).getD nan)
    (P : Pose) (hP : IsRot P.2) (cams : List Cam) (hne : cams ≠ []) (hrot : ∀ c ∈ cams, IsRot c.2)
    (numberPoints : ℕ) (noise fraction : ℝ) (hno : noise ≤ 0) (hfr : 0 ≤ fraction) (xy : ℕ → ℝ × ℝ)
    (gt : List Vec3) (out : ℕ → Vec3) (hk : ⌊fraction * numberPoints⌋₊ ≤ gt.length)
    (hcentre : ∀ p ∈ gt, ∀ c ∈ cams, p ≠ P.1 + P.2 *ᵥ c.1) (l : List Obs23)
    (hl : generate23 P cams numberPoints noise fraction xy gt out = some l)
    (hobs : ∀ (i : ℕ) v p cam c, l[i]? = some ⟨some v, p, cam⟩ → cams[cam]? = some c →
      obs i = ⟨v, p, c.1, c.2⟩)
    (rng : ℕ → ℕ) (thr prob : ℝ) (hthr : 0 < thr) (maxIt : ℤ)
    (obj : RansacObj (σ × List ℤ × ℕ) (List ℤ) Pose (List ℤ)) (hfresh : obj.model = none)
    (hpool : obj.world.2.1.Perm (nIndices gt.length)) (fuel : ℕ)
    (r : RansacReturn (σ × List ℤ × ℕ) (List ℤ) Pose (List ℤ))
    (h : computeModel (single U rng (nIndices gt.length)) thr prob maxIt obj fuel = .done r)
    (s : List ℤ) (hs : (s, P) ∈ r.final.scored) :
    r.ret = true ∧ gt.length ≤ r.obj.inliers.length + ⌊fraction * numberPoints⌋₊ := by
  obtain ⟨l', e, -, hall⟩ := C72_2d3d P hP cams hne hrot numberPoints noise fraction hfr xy gt out hk
  rw [hl] at e
  cases e
  have := C70_absolute U obs nan hU rng (nIndices gt.length) thr prob hthr maxIt obj hfresh hpool fuel r h P
    (fun i => decide ((⌊fraction * numberPoints⌋₊ : ℤ) ≤ i ∧ i < gt.length))
    (by
      intro i hi
      simp only [decide_eq_true_eq] at hi
      obtain ⟨i, rfl⟩ := Int.eq_ofNat_of_zero_le (show 0 ≤ i by omega)
      have hi1 : i < gt.length := by omega
      have hm := Nat.mod_lt i (List.length_pos_of_ne_nil hne)
      have hc := List.getElem?_eq_getElem hm
      obtain ⟨f, g1, g2, g3, -⟩ := hall i _ _ (List.getElem?_eq_getElem hi1) hc
      obtain ⟨g4, g5⟩ := g3 (by omega) hno
      cases f with
      | none => exact absurd (g4.1 rfl) (hcentre _ (List.getElem_mem hi1) _ (List.getElem_mem hm))
      | some v =>
        rw [hobs i v _ _ _ g1 hc]
        exact ⟨g2 v rfl, (C50_absolute P _ _ _ v (g2 v rfl)).2.2.1 (g5 v rfl)⟩)
    s hs
  rw [countP_nIndices] at this
  exact ⟨this.1, by omega⟩

/-- **C72 (LMedS on simulated point clouds).** In every noise-free 3D-3D experiment with few enough outliers
whose other points have no three on a line, LMedS returns exactly the extracted relative pose as soon as one
sample without outliers is scored. -/
theorem C72_lmeds (svd : Mat3 → Mat3 × Mat3) (hsvd : ∀ H, ∃ σ, Spec.IsSvd H (svd H).1 (svd H).2 σ)
    (P1 P2 : Pose) (hP1 : IsRot P1.2) (hP2 : IsRot P2.2) (numberPoints : ℕ) (noise fraction : ℝ)
    (hno : noise ≤ 0) (hfr : 0 ≤ fraction) (c1 c2 : ℕ → Vec3) (gt : List Vec3) (out : ℕ → Vec3)
    (hcount : (gt.length + 1) / 2 + 2 + ⌊fraction * numberPoints⌋₊ ≤ gt.length)
    (hgeneral : ∀ i j k a b c, ⌊fraction * numberPoints⌋₊ ≤ i → ⌊fraction * numberPoints⌋₊ ≤ j →
      ⌊fraction * numberPoints⌋₊ ≤ k → i ≠ j → i ≠ k → j ≠ k → gt[i]? = some a → gt[j]? = some b →
      gt[k]? = some c → crossProduct (b - a) (c - a) ≠ 0)
    (l : List (Vec3 × Vec3)) (hl : generate33 P1 P2 numberPoints noise fraction c1 c2 gt out = some l)
    (data : ℤ → Vec3 × Vec3) (hdata : ∀ (i : ℕ) q, l[i]? = some q → data i = q) (rng : ℕ → ℕ) (thr : ℝ)
    (hthr : thr ≠ dblMax) (maxIt : ℤ) (obj : RansacObj (Unit × List ℤ × ℕ) (List ℤ) Pose (List ℤ))
    (hfresh : obj.model = none) (hpool : obj.world.2.1.Perm (nIndices gt.length)) (fuel : ℕ)
    (r : LmReturn Unit Pose)
    (h : lmedsCompute (pointCloud svd data) rng (nIndices gt.length) thr maxIt obj fuel = .done r)
    (x : List ℤ × Pose) (hx : x ∈ r.final.scored)
    (hclean : ∀ i ∈ x.1, (⌊fraction * numberPoints⌋₊ : ℤ) ≤ i ∧ i < gt.length) :
    r.ret = true ∧ r.obj.coeffs = some (relativePose P1 P2) := by
  obtain ⟨hR, hmap, -⟩ := C72_relative P1 P2 hP1 hP2
  have hget : ∀ (i : ℕ) p, ⌊fraction * numberPoints⌋₊ ≤ i → gt[i]? = some p →
      data i = (P1.2.transpose *ᵥ (p - P1.1), P2.2.transpose *ᵥ (p - P2.1)) := by
    intro i p hi hp
    obtain ⟨e2, e3⟩ := pointLoop33_get P1 P2 noise c1 c2 gt 0
    obtain ⟨l', g1, -, g3, -⟩ := outlierLoop_spec
      (fun (s : Vec3 × Vec3) q => some (s.1, P2.2.transpose *ᵥ (q - P2.1)))
      (fun _ _ => True) (by intro k s q _; exact ⟨_, rfl, trivial⟩)
      ((List.range ⌊fraction * numberPoints⌋₊).map out) 0 (pointLoop33 P1 P2 noise c1 c2 gt 0)
      (fun _ _ _ => trivial) (by simp only [e2, List.length_map, List.length_range]; omega)
    rw [generate33, numberOutliers_eq hfr, Option.bind_some, g1] at hl
    cases hl
    apply hdata
    rw [g3 i (Or.inr (by simpa using hi)), e3 i p hp, if_neg (not_lt.2 hno)]
  have pt : ∀ i : ℤ, decide ((⌊fraction * numberPoints⌋₊ : ℤ) ≤ i ∧ i < gt.length) = true →
      ∃ (n : ℕ) (p : Vec3), i = n ∧ ⌊fraction * numberPoints⌋₊ ≤ n ∧ gt[n]? = some p := by
    intro i hi
    simp only [decide_eq_true_eq] at hi
    obtain ⟨n, rfl⟩ := Int.eq_ofNat_of_zero_le (show 0 ≤ i by omega)
    exact ⟨n, _, rfl, by omega, List.getElem?_eq_getElem (show n < gt.length by omega)⟩
  obtain ⟨h1, h2, -⟩ := C71_point_cloud_exact svd hsvd data rng (nIndices gt.length) (nIndices_nodup _) thr hthr
    maxIt obj hfresh hpool fuel r h (relativePose P1 P2).1 (relativePose P1 P2).2 hR
    (fun i => decide ((⌊fraction * numberPoints⌋₊ : ℤ) ≤ i ∧ i < gt.length))
    (by
      intro i _ hi
      obtain ⟨n, p, rfl, hn, hp⟩ := pt i hi
      rw [hget n p hn hp]
      exact hmap p)
    (by
      intro a _ b _ c _ ha hb hc hab hac hbc
      obtain ⟨i, p, rfl, hi, hp⟩ := pt a ha
      obtain ⟨j, q, rfl, hj, hq⟩ := pt b hb
      obtain ⟨k, w, rfl, hk, hw⟩ := pt c hc
      rw [hget i p hi hp, hget j q hj hq, hget k w hk hw, ← mulVec_sub, ← mulVec_sub,
        rot_cross (isRot_transpose hP2), Ne, rot_mulVec_eq hP2, mulVec_zero, sub_sub_sub_cancel_right,
        sub_sub_sub_cancel_right]
      exact hgeneral i j k p q w hi hj hk (by omega) (by omega) (by omega) hp hq hw)
    (by
      rw [countP_nIndices, (C72_indices gt.length).1, Int.toNat_natCast]
      omega)
    x hx (fun i hi => by simpa using hclean i hi)
  exact ⟨h1, h2⟩

/-- Two cameras, four points, one outlier. -/
def expCams : List Cam := [(0, 1), (![0, 0, 1], 1)]

def expPoints : List Vec3 := [![0, 0, 5], ![1, 0, 5], ![0, 1, 5], ![1, 1, 5]]

theorem exp_isRot : ∀ c ∈ expCams, IsRot c.2 := by
  intro c hc
  simp only [expCams, List.mem_cons, List.not_mem_nil, or_false] at hc
  rcases hc with rfl | rfl <;> exact ⟨by simp, by simp⟩

theorem exp_floor : ⌊(1 / 4 : ℝ) * (4 : ℕ)⌋₊ = 1 := by norm_num

/-- The third point of a noise-free experiment is stored for the first camera and has score zero. -/
example (xy : ℕ → ℝ × ℝ) (out : ℕ → Vec3) :
    ∃ l v, generate23 (0, 1) expCams 4 0 (1 / 4) xy expPoints out = some l ∧
      l[2]? = some ⟨some v, ![0, 1, 5], 0⟩ ∧ absScore (0, 1) 0 1 ![0, 1, 5] v = some 0 := by
  obtain ⟨l, h1, -, h2⟩ := C72_2d3d (0, 1) ⟨by simp, by simp⟩ expCams (by simp [expCams]) exp_isRot 4 0 (1 / 4)
    (by norm_num) xy expPoints out (by rw [exp_floor]; simp [expPoints])
  obtain ⟨f, g1, -, g2, -⟩ := h2 2 ![0, 1, 5] (0, 1) rfl rfl
  obtain ⟨g3, g4⟩ := g2 (by rw [exp_floor]; norm_num) le_rfl
  cases f with
  | none =>
    have := congrFun (g3.1 rfl) 1
    simp at this
  | some v => exact ⟨l, v, h1, g1, g4 v rfl⟩

/-- More outliers than points. -/
example (xy : ℕ → ℝ × ℝ) (out : ℕ → Vec3) :
    generate23 (0, 1) expCams 8 0 1 xy expPoints out = none :=
  C72_2d3d_out_of_bounds (0, 1) expCams 8 0 1 (by norm_num) xy expPoints out
    (Or.inr ⟨by simp [expCams], by norm_num [expPoints]⟩)

/-- An algorithm that returns the pose of the camera. -/
noncomputable def expProblem (obs : ℤ → Adapters.AbsObs) : UserProblem Unit Pose where
  sampleSize := 2
  isSampleGood := fun _ _ => true
  compute := fun w _ => (some (0, 1), w)
  dist := fun m is => is.map fun i => (absScore m (obs i).off (obs i).rot (obs i).p (obs i).f).getD 9
  distEffect := fun w _ => w

/-- RANSAC on this experiment finds the three points that are not outliers. -/
example (xy : ℕ → ℝ × ℝ) (out : ℕ → Vec3) (l : List Obs23)
    (hl : generate23 (0, 1) expCams 4 0 (1 / 4) xy expPoints out = some l) (obs : ℤ → Adapters.AbsObs)
    (hobs : ∀ (i : ℕ) v p cam c, l[i]? = some ⟨some v, p, cam⟩ → expCams[cam]? = some c →
      obs i = ⟨v, p, c.1, c.2⟩) :
    ∃ rng r, computeModel (single (expProblem obs) rng [0, 1, 2, 3]) (1 / 10) (99 / 100) 10
      (freshObj () [0, 1, 2, 3]) 200 = .done r ∧ r.ret = true ∧ 3 ≤ r.obj.inliers.length := by
  obtain ⟨rng, r, hr, hret, hsc, -⟩ := C70_reachable (expProblem obs) [0, 1, 2, 3] (1 / 10)
    (99 / 100) 10 (by norm_num) (by norm_num [intMax]) (fun m => by simp [expProblem])
    (freshObj () [0, 1, 2, 3]) rfl (List.Perm.refl _) [0, 2] (by simp)
    ⟨rfl, isSampleOf_of_subperm _ _ (by decide)⟩ rfl (0, 1) rfl
  have h := hr 200 (by norm_num)
  refine ⟨rng, r, h, hret, ?_⟩
  have := (C72_ransac (expProblem obs) obs 9 (fun _ _ => rfl) (0, 1) ⟨by simp, by simp⟩ expCams
    (by simp [expCams]) exp_isRot 4 0 (1 / 4) le_rfl (by norm_num) xy expPoints out
    (by rw [exp_floor]; simp [expPoints])
    (by
      intro p hp c hc e
      simp only [expCams, expPoints, List.mem_cons, List.not_mem_nil, or_false] at hp hc
      have e2 := congrFun e 2
      rcases hc with rfl | rfl <;> rcases hp with rfl | rfl | rfl | rfl <;> norm_num [vcons2] at e2)
    l hl hobs rng (1 / 10) (99 / 100) (by norm_num) 10 (freshObj () [0, 1, 2, 3]) rfl (List.Perm.refl _) 200 r h
    [0, 2] hsc).2
  rw [exp_floor] at this
  simp only [expPoints, List.length_cons, List.length_nil] at this
  omega

/-- Eight points on a parabola. -/
def expCloud : List Vec3 := (List.range 8).map fun i : ℕ => ![(i : ℝ), (i : ℝ) ^ 2, 5]

/-- LMedS on a simulated pair of point clouds with one outlier returns the true relative pose. -/
example (svd : Mat3 → Mat3 × Mat3) (hsvd : ∀ H, ∃ σ, Spec.IsSvd H (svd H).1 (svd H).2 σ) (c1 c2 : ℕ → Vec3)
    (out : ℕ → Vec3) (l : List (Vec3 × Vec3))
    (hl : generate33 (0, 1) (![1, 0, 0], 1) 8 0 (1 / 8) c1 c2 expCloud out = some l) (data : ℤ → Vec3 × Vec3)
    (hdata : ∀ (i : ℕ) q, l[i]? = some q → data i = q) :
    ∃ rng r, lmedsCompute (pointCloud svd data) rng [0, 1, 2, 3, 4, 5, 6, 7] (1 / 10) 10
      (freshObj () [0, 1, 2, 3, 4, 5, 6, 7]) 200 = .done r ∧ r.ret = true ∧
      r.obj.coeffs = some (![1, 0, 0], 1) := by
  have fl : ⌊(1 / 8 : ℝ) * (8 : ℕ)⌋₊ = 1 := by norm_num
  obtain ⟨m, hm⟩ : ∃ m, ((pointCloud svd data).compute () [1, 3, 4]).1 = some m := ⟨_, rfl⟩
  obtain ⟨rng, r, hr, hsc⟩ := C71_reachable (pointCloud svd data) [0, 1, 2, 3, 4, 5, 6, 7] (1 / 10)
    lt_dblMax 10 (by norm_num) (by norm_num [intMax]) (fun m => by simp [pointCloud])
    (freshObj () [0, 1, 2, 3, 4, 5, 6, 7]) rfl (List.Perm.refl _) [1, 3, 4] (by simp)
    ⟨rfl, isSampleOf_of_subperm _ _ (by decide)⟩ rfl m hm
  have h := hr 200 (by norm_num)
  have hget : ∀ (i : ℕ) a, expCloud[i]? = some a → a = ![(i : ℝ), (i : ℝ) ^ 2, 5] := by
    intro i a ha
    obtain ⟨hi, e⟩ := List.getElem?_eq_some_iff.1 ha
    rw [← e]
    simp [expCloud]
  obtain ⟨h1, h2⟩ := C72_lmeds svd hsvd (0, 1) (![1, 0, 0], 1) ⟨by simp, by simp⟩ ⟨by simp, by simp⟩ 8 0 (1 / 8)
    le_rfl (by norm_num) c1 c2 expCloud out (by rw [fl]; simp [expCloud])
    (by
      intro i j k a b c _ _ _ hij hik hjk ha hb hc e
      rw [hget i a ha, hget j b hb, hget k c hc] at e
      have h2 := congrFun e 2
      simp only [cross_apply, vcons2, cons_val_one, cons_val_zero, Pi.sub_apply, Pi.zero_apply] at h2
      have h3 : ((j : ℝ) - i) * ((k : ℝ) - i) * ((k : ℝ) - j) = 0 := by linear_combination h2
      rcases mul_eq_zero.1 h3 with h3 | h3
      · rcases mul_eq_zero.1 h3 with h3 | h3
        · exact hij (by exact_mod_cast (sub_eq_zero.1 h3).symm)
        · exact hik (by exact_mod_cast (sub_eq_zero.1 h3).symm)
      · exact hjk (by exact_mod_cast (sub_eq_zero.1 h3).symm))
    l hl data hdata rng (1 / 10) lt_dblMax 10 (freshObj () [0, 1, 2, 3, 4, 5, 6, 7]) rfl (List.Perm.refl _)
    200 r h ([1, 3, 4], m) hsc
    (by
      intro i hi
      rw [fl]
      simp only [List.mem_cons, List.not_mem_nil, or_false] at hi
      rcases hi with rfl | rfl | rfl <;> simp [expCloud])
  refine ⟨rng, r, h, h1, ?_⟩
  rw [h2, relativePose]
  simp

/-- A half turn cannot be perturbed; the identity can. -/
example : (perturbedPose (0, !![-1, 0, 0; 0, -1, 0; 0, 0, 1]) (1 / 10) 1 1).2 = none ∧
    ∃ R, (perturbedPose (0, 1) (1 / 10) 1 1).2 = some R ∧ IsRot R := by
  have one : ∀ i, |(1 : Vec3) i| ≤ 1 := fun i => by simp
  constructor
  · refine (C72_perturbed (0, !![-1, 0, 0; 0, -1, 0; 0, 0, 1]) ⟨?_, by simp [det_fin_three]⟩ (1 / 10) (by norm_num)
      1 1 one one).2.1.2 ?_
    · apply mat3_ext <;> simp [Matrix.mul_apply, Fin.sum_univ_three]
    · simp [Matrix.trace, Fin.sum_univ_three]
  · have h := C72_perturbed (0, 1) ⟨by simp, by simp⟩ (1 / 10) (by norm_num) 1 1 one one
    cases e : (perturbedPose (0, 1) (1 / 10) 1 1).2 with
    | none =>
      have := h.2.1.1 e
      norm_num [Matrix.trace, Fin.sum_univ_three] at this
    | some R => exact ⟨R, rfl, (h.2.2 R e).1⟩

end OpenGV.Props
