import Verif.Proof.SacProblems
import Verif.Props.Triangulation

/-!
# Properties of the sample consensus problems (C48-C50)
-/

namespace OpenGV.Props

open Matrix

/-- **C48.** A single candidate is returned unconditionally. Otherwise the problem returns false
exactly when no candidate has a (finite) score below 1000000, and what it returns is a candidate
with the smallest score, the first one if there are several. -/
theorem C48_best_candidate {M : Type} (score : M → Option ℝ) (solutions : List M) :
    (∀ m, solutions = [m] → pickCandidate score solutions = some m) ∧
    (solutions.length ≠ 1 →
      (pickCandidate score solutions = none ↔
        ∀ m ∈ solutions, ∀ s, score m = some s → (1000000 : ℝ) ≤ s) ∧
      (∀ m, pickCandidate score solutions = some m →
        ∃ (k : ℕ) (s : ℝ), solutions[k]? = some m ∧ score m = some s ∧ s < 1000000 ∧
          (∀ m' ∈ solutions, ∀ s', score m' = some s' → s ≤ s') ∧
          (∀ (k' : ℕ) (m' : M) (s' : ℝ), k' < k → solutions[k']? = some m' → score m' = some s' →
            s < s'))) := by
  refine ⟨by rintro m rfl; rfl, fun hlen => ?_⟩
  have hpick : pickCandidate score solutions =
      match minLoop (solutions.map score) 0 initialScore none with
      | none => none
      | some i => solutions[i]? := by
    unfold pickCandidate
    split
    · simp at hlen
    · rfl
  have hmem : ∀ m ∈ solutions, ∀ s, score m = some s → some s ∈ solutions.map score :=
    fun m hm s hs => List.mem_map.2 ⟨m, hm, hs⟩
  rcases minLoop_spec (solutions.map score) 0 initialScore none with
    ⟨h1, h2⟩ | ⟨k, s, h1, h2, h3, h4, h5⟩
  · rw [h1] at hpick
    simp only at hpick
    refine ⟨⟨fun _ m hm s hs => h2 s (hmem m hm s hs), fun _ => hpick⟩, ?_⟩
    intro m hm
    rw [hpick] at hm
    simp at hm
  · rw [h1] at hpick
    simp only [Nat.zero_add] at hpick
    rw [List.getElem?_map] at h2
    cases hk : solutions[k]? with
    | none => simp [hk] at h2
    | some m =>
      simp only [hk, Option.map_some, Option.some.injEq] at h2
      rw [hk] at hpick
      refine ⟨⟨fun e => by rw [hpick] at e; simp at e, fun e => ?_⟩, ?_⟩
      · have := e m (List.mem_of_getElem? hk) s h2
        have h3' : s < 1000000 := h3
        linarith
      · intro m' hm'
        rw [hpick] at hm'
        obtain rfl := Option.some.inj hm'
        refine ⟨k, s, hk, h2, h3, fun m' hm' s' hs' => h4 s' (hmem m' hm' s' hs'), ?_⟩
        intro k' m' s' hk' hm' hs'
        exact h5 k' s' hk' (by rw [List.getElem?_map, hm']; simp [hs'])

example : pickCandidate (fun x : ℕ => if x = 0 then none else some ((x : ℝ) - 1)) [3, 0, 2] =
    some 2 := by
  simp only [pickCandidate, List.map, initialScore]
  norm_num [minLoop]

/-- **C50 (absolute).** For a unit bearing vector the absolute pose score is undefined only when the
point is in the camera centre, lies in `[0, 2]`, and is zero exactly when the point is seen in the
measured direction (with positive depth). -/
theorem C50_absolute (P : Pose) (o : Vec3) (C : Mat3) (p f : Vec3) (hf : f ⬝ᵥ f = 1) :
    (absScore P o C p f = none ↔ absReprojection P o C p = 0) ∧
    (∀ s, absScore P o C p f = some s → 0 ≤ s ∧ s ≤ 2) ∧
    (absScore P o C p f = some 0 ↔ ∃ d : ℝ, 0 < d ∧ absReprojection P o C p = d • f) := by
  unfold absScore
  refine ⟨?_, ?_, ?_⟩
  · cases h : normalize3 (absReprojection P o C p) with
    | none =>
      simp only [true_iff]
      by_contra hne
      obtain ⟨r, hr⟩ := normalize3_isSome hne
      rw [h] at hr
      simp at hr
    | some r => simp [(normalize3_eq_some h).1]
  · intro s hs
    cases h : normalize3 (absReprojection P o C p) with
    | none => simp [h] at hs
    | some r =>
      simp only [h, Option.some.injEq] at hs
      have := unit_dot_bounds (normalize3_eq_some h).2.2 hf
      constructor <;> linarith
  · rw [← normalize3_eq_iff hf]
    cases h : normalize3 (absReprojection P o C p) with
    | none => simp
    | some r =>
      simp only [Option.some.injEq]
      rw [← unit_dot_eq_one (normalize3_eq_some h).2.2 hf]
      constructor <;> intro e <;> linarith

example : absScore (![0, 0, 0], 1) ![0, 0, 0] 1 ![0, 0, 2] ![0, 0, 1] = some 0 :=
  (C50_absolute _ _ _ _ _ (by simp)).2.2.2 ⟨2, by norm_num, by
    apply ext3 <;> simp [absReprojection]⟩

/-- **C48 (exact candidate).** With unit bearing vectors, if there are several candidates and one of
them sees the extra point exactly in the measured direction, then the problem does not fail and
the returned pose sees it exactly in the measured direction, too. -/
theorem C48_exact_candidate_found (solutions : List Pose) (o : Vec3) (C : Mat3) (p f : Vec3)
    (hf : f ⬝ᵥ f = 1) (hlen : solutions.length ≠ 1)
    (h : ∃ P ∈ solutions, ∃ d : ℝ, 0 < d ∧ absReprojection P o C p = d • f) :
    ∃ P ∈ solutions, pickCandidate (fun P => absScore P o C p f) solutions = some P ∧
      ∃ d : ℝ, 0 < d ∧ absReprojection P o C p = d • f := by
  obtain ⟨P, hP, hd⟩ := h
  have hs := (C50_absolute P o C p f hf).2.2.2 hd
  obtain ⟨h1, h2⟩ := (C48_best_candidate (fun P => absScore P o C p f) solutions).2 hlen
  cases hr : pickCandidate (fun P => absScore P o C p f) solutions with
  | none =>
    have := h1.1 hr P hP 0 hs
    norm_num at this
  | some Q =>
    obtain ⟨k, s, a, b, _, c, _⟩ := h2 Q hr
    have hs0 : s = 0 := le_antisymm (c P hP 0 hs) ((C50_absolute Q o C p f hf).2.1 s b).1
    rw [hs0] at b
    exact ⟨Q, List.mem_of_getElem? a, rfl, (C50_absolute Q o C p f hf).2.2.1 b⟩

example : ∃ P ∈ [((![0, 0, 5], 1) : Pose), (![0, 0, 0], 1)], ∃ d : ℝ, 0 < d ∧
    absReprojection P ![0, 0, 0] 1 ![0, 0, 2] = d • ![0, 0, 1] :=
  ⟨(![0, 0, 0], 1), by simp, 2, by norm_num, by apply ext3 <;> simp [absReprojection]⟩

/-- **C49 (absolute).** After the transformation into the body frame, the camera with extrinsics
`(o, C)` sees every world point at the same coordinates as the camera pose did; the result has
again an orthogonal matrix, with the determinant multiplied by that of `C`. -/
theorem C49_absolute (P : Pose) (o : Vec3) (C : Mat3) (hR : P.2.transpose * P.2 = 1)
    (hC : C.transpose * C = 1) :
    (∀ p, absReprojection (toBodyAbs P o C) o C p = P.2.transpose *ᵥ (p - P.1)) ∧
    (toBodyAbs P o C).2.transpose * (toBodyAbs P o C).2 = 1 ∧
    (toBodyAbs P o C).2.det = P.2.det * C.det := by
  obtain ⟨t, R⟩ := P
  have hC' := rot_mul_transpose hC
  simp only [toBodyAbs] at *
  refine ⟨fun p => ?_, ?_, ?_⟩
  · simp only [absReprojection, transpose_mul, transpose_transpose, mulVec_sub, mulVec_add,
      mulVec_neg, mulVec_mulVec]
    have e1 : C.transpose * (C * R.transpose) = R.transpose := by
      rw [← Matrix.mul_assoc, hC, Matrix.one_mul]
    have e2 : C.transpose * (C * R.transpose * (R * C.transpose)) = C.transpose := by
      rw [Matrix.mul_assoc C, ← Matrix.mul_assoc R.transpose, hR, Matrix.one_mul, hC',
        Matrix.mul_one]
    rw [e1, e2]
    abel
  · rw [transpose_mul, transpose_transpose, Matrix.mul_assoc, ← Matrix.mul_assoc R.transpose, hR,
      Matrix.one_mul, hC']
  · rw [det_mul, det_transpose]

/-- **C49 (relative).** After the transformation into the body frame, the relative pose between the
two cameras that the scores compute from the body pose is the camera-to-camera pose again. -/
theorem C49_relative (P : Pose) (o1 o2 : Vec3) (C1 C2 : Mat3)
    (h1 : C1.transpose * C1 = 1) (h2 : C2.transpose * C2 = 1) :
    directTranslation (toBodyRel P o1 o2 C1 C2).1 (toBodyRel P o1 o2 C1 C2).2 o1 o2 C1 = P.1 ∧
    directRotation (toBodyRel P o1 o2 C1 C2).2 C1 C2 = P.2 ∧
    (∀ f1 f2, noncentralRelScore (toBodyRel P o1 o2 C1 C2) o1 o2 C1 C2 f1 f2 =
      relScore P.1 P.2 f1 f2) := by
  obtain ⟨t, R⟩ := P
  have e1 : directTranslation (toBodyRel (t, R) o1 o2 C1 C2).1 (toBodyRel (t, R) o1 o2 C1 C2).2
      o1 o2 C1 = t := by
    simp only [directTranslation, toBodyRel]
    rw [show o1 + C1 *ᵥ t - (C1 * R * C2.transpose) *ᵥ o2 - o1 + (C1 * R * C2.transpose) *ᵥ o2 =
      C1 *ᵥ t by abel, mulVec_mulVec, h1, one_mulVec]
  have e2 : directRotation (toBodyRel (t, R) o1 o2 C1 C2).2 C1 C2 = R := by
    simp only [directRotation, toBodyRel]
    rw [Matrix.mul_assoc C1, ← Matrix.mul_assoc C1.transpose, h1, Matrix.one_mul,
      Matrix.mul_assoc, h2, Matrix.mul_one]
  exact ⟨e1, e2, fun f1 f2 => by rw [noncentralRelScore, e1, e2]⟩

/- The hypotheses of C49 are met by a quarter turn about the z-axis. -/
example : (!![0, -1, 0; 1, 0, 0; 0, 0, 1] : Mat3).transpose * !![0, -1, 0; 1, 0, 0; 0, 0, 1] = 1 := by
  ext i j
  fin_cases i <;> fin_cases j <;> simp [Matrix.mul_apply, Fin.sum_univ_three]

/-- **C49 (meaning of the relative transformation).** Points that are in the camera-to-camera
relation are in the relation of the body poses after applying the extrinsics. -/
theorem C49_relative_points (P : Pose) (o1 o2 : Vec3) (C1 C2 : Mat3)
    (h2 : C2.transpose * C2 = 1) (x1 x2 : Vec3) (h : x1 = P.2 *ᵥ x2 + P.1) :
    C1 *ᵥ x1 + o1 = (toBodyRel P o1 o2 C1 C2).2 *ᵥ (C2 *ᵥ x2 + o2) + (toBodyRel P o1 o2 C1 C2).1 := by
  have e : C1 * P.2 * C2.transpose * C2 = C1 * P.2 := by
    rw [Matrix.mul_assoc (C1 * P.2), h2, Matrix.mul_one]
  simp only [toBodyRel, h, mulVec_add, mulVec_mulVec, e]
  abel

example : (![1, 2, 3] : Vec3) = (1 : Mat3) *ᵥ ![1, 2, 2] + ![0, 0, 1] := by
  apply ext3 <;> simp <;> norm_num

/-- **C50 (two views).** For unit bearing vectors the two-view score lies in `[0, 4]`, and it is zero
exactly when the viewing directions are independent and the two viewing rays meet in a point in
front of both cameras. -/
theorem C50_two_view (t : Vec3) (R : Mat3) (f1 f2 : Vec3) (hR : R.transpose * R = 1)
    (hf1 : f1 ⬝ᵥ f1 = 1) (hf2 : f2 ⬝ᵥ f2 = 1) :
    (∀ s, relScore t R f1 f2 = some s → 0 ≤ s ∧ s ≤ 4) ∧
    (relScore t R f1 f2 = some 0 ↔
      (¬ ∃ a b : ℝ, (a ≠ 0 ∨ b ≠ 0) ∧ a • f1 = b • (R *ᵥ f2)) ∧
      ∃ a b : ℝ, 0 < a ∧ 0 < b ∧ a • f1 = t + b • (R *ᵥ f2)) := by
  have hRR := rot_mul_transpose hR
  refine ⟨?_, ?_⟩
  · intro s hs
    unfold relScore at hs
    cases hp : triangulate2 t R f1 f2 with
    | none => simp [hp] at hs
    | some p =>
      simp only [hp, reprojScore] at hs
      cases h1 : normalize3 p with
      | none => simp [h1] at hs
      | some r1 =>
        cases h2 : normalize3 (R.transpose *ᵥ p + -(R.transpose *ᵥ t)) with
        | none => simp [h1, h2] at hs
        | some r2 =>
          simp only [h1, h2, Option.some.injEq] at hs
          have a1 := unit_dot_bounds hf1 (normalize3_eq_some h1).2.2
          have a2 := unit_dot_bounds hf2 (normalize3_eq_some h2).2.2
          constructor <;> linarith
  · constructor
    · intro hs
      unfold relScore at hs
      cases hp : triangulate2 t R f1 f2 with
      | none => simp [hp] at hs
      | some p =>
        refine ⟨fun hn => ?_, ?_⟩
        · rw [(C25_singular_iff_parallel t R f1 f2).2 hn] at hp
          simp at hp
        simp only [hp, reprojScore] at hs
        cases h1 : normalize3 p with
        | none => simp [h1] at hs
        | some r1 =>
          cases h2 : normalize3 (R.transpose *ᵥ p + -(R.transpose *ᵥ t)) with
          | none => simp [h1, h2] at hs
          | some r2 =>
            simp only [h1, h2, Option.some.injEq] at hs
            have a1 := unit_dot_bounds hf1 (normalize3_eq_some h1).2.2
            have a2 := unit_dot_bounds hf2 (normalize3_eq_some h2).2.2
            have e1 := (unit_dot_eq_one hf1 (normalize3_eq_some h1).2.2).1 (by linarith)
            have e2 := (unit_dot_eq_one hf2 (normalize3_eq_some h2).2.2).1 (by linarith)
            subst e1 e2
            obtain ⟨a, ha, ea⟩ := (normalize3_eq_iff hf1).1 h1
            obtain ⟨b, hb, eb⟩ := (normalize3_eq_iff hf2).1 h2
            refine ⟨a, b, ha, hb, ?_⟩
            have := congrArg (fun v => R *ᵥ v) eb
            simp only [mulVec_add, mulVec_neg, mulVec_mulVec, hRR, one_mulVec, mulVec_smul] at this
            rw [← this, ← ea]
            abel
    · rintro ⟨hn, a, b, ha, hb, e⟩
      have e2 : R.transpose *ᵥ (a • f1) + -(R.transpose *ᵥ t) = b • f2 := by
        rw [e, mulVec_add, mulVec_smul, mulVec_mulVec, hR, one_mulVec]
        abel
      have hp : triangulate2 t R f1 f2 = some (a • f1) :=
        C25_exact_recovery t R f1 f2 _ hR ⟨a, rfl⟩ ⟨b, by rw [mulVec_sub, ← e2]; abel⟩ hn
      rw [relScore, hp]
      simp only [reprojScore]
      rw [normalize3_of_smul ha hf1 rfl, normalize3_of_smul hb hf2 e2]
      simp only [hf1, hf2]
      norm_num

example : (¬ ∃ a b : ℝ, (a ≠ 0 ∨ b ≠ 0) ∧ a • ![0, 0, 1] = b • ((1 : Mat3) *ᵥ ![-(3/5), 0, 4/5])) ∧
    ∃ a b : ℝ, 0 < a ∧ 0 < b ∧ a • ![0, 0, 1] = ![3, 0, 0] + b • ((1 : Mat3) *ᵥ ![-(3/5), 0, 4/5]) := by
  refine ⟨?_, 4, 5, by norm_num, by norm_num, by apply ext3 <;> simp <;> norm_num⟩
  rw [← cross_eq_zero_iff]
  intro h
  have := congrFun h 1
  simp [cross_apply] at this

/-- **C50 (rotation only and point clouds).** The rotation-only score lies in `[0, 2]` and is zero
exactly when the rotated second vector is the first one. The point cloud score is the length of
the residual, hence non-negative and zero exactly when the transformed point is the measured
one. -/
theorem C50_rotation_and_cloud (R : Mat3) (f1 f2 : Vec3) (hR : R.transpose * R = 1)
    (hf1 : f1 ⬝ᵥ f1 = 1) (hf2 : f2 ⬝ᵥ f2 = 1) (P : Pose) (p1 p2 : Vec3) :
    0 ≤ rotScore R f1 f2 ∧ rotScore R f1 f2 ≤ 2 ∧ (rotScore R f1 f2 = 0 ↔ f1 = R *ᵥ f2) ∧
    0 ≤ cloudScore P p1 p2 ∧ (cloudScore P p1 p2 = 0 ↔ p1 = P.2 *ᵥ p2 + P.1) := by
  have hRf : (R *ᵥ f2) ⬝ᵥ (R *ᵥ f2) = 1 := by rw [rot_dot hR, hf2]
  have := unit_dot_bounds hf1 hRf
  unfold rotScore cloudScore
  refine ⟨by linarith, by linarith, ?_, norm3_nonneg _, ?_⟩
  · rw [← unit_dot_eq_one hf1 hRf]
    constructor <;> intro e <;> linarith
  · rw [norm3_eq_zero, sub_eq_zero]

example : (![0, 0, 1] : Vec3) ⬝ᵥ ![0, 0, 1] = 1 := by simp

/-- **C50 (one score per index).** The score loops append, to whatever the output vector held, the
scores of the requested correspondences in the requested order. -/
theorem C50_scores_per_index (data : ℕ → Option ℝ) (indices : List ℕ) (acc : List (Option ℝ)) :
    scoreLoop data indices acc = acc ++ indices.map data := by
  induction indices generalizing acc with
  | nil => simp [scoreLoop]
  | cons i is ih => simp [scoreLoop, ih]

example : scoreLoop (fun i => some i) [2, 0, 2] [none] = [none, some 2, some 0, some 2] := by
  simp [scoreLoop]

end OpenGV.Props
