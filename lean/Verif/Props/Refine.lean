import Verif.Proof.Refine
import Verif.Proof.Arun

/-!
# Properties of the nonlinear refinement: C61
-/

namespace OpenGV.Props

open Matrix Refine Spec Adapters

/-- **C61 (rotation).** Whatever the minimiser does and whatever the prior is, a result of the three
refinement functions has a proper rotation. -/
theorem C61_rotation (lm : Lm) (ao : List AbsObs) (ro : List RelObs) (co : List (Vec3 × Vec3))
    (prior : Pose) :
    (∀ Q, optimizeAbs lm ao prior = some Q → IsRot Q.2) ∧
    (∀ Q, optimizeCloud lm co prior = some Q → IsRot Q.2) ∧
    (∀ Q s, optimizeRel lm ro prior = some (Q, s) → IsRot Q.2) := by
  refine ⟨fun Q h => optimize_isRot h, fun Q h => optimize_isRot h, fun Q s h => ?_⟩
  unfold optimizeRel at h
  split at h
  · simp at h
  · simp only [Option.some.injEq, Prod.mk.injEq] at h
    rw [← h.1]
    exact cayley2rot_isRot _

/-- A prior that is not a rotation is turned into one. -/
example : ∃ Q, optimizeCloud (fun _ x => ([x], x)) [] (![1, 2, 3], (2 : ℝ) • 1) = some Q := by
  have h : rot2cayley ((2 : ℝ) • (1 : Mat3)) ≠ none := by
    unfold rot2cayley
    simp only
    rw [if_neg]
    · simp
    · rw [show (2 : ℝ) • (1 : Mat3) + 1 = (3 : ℝ) • 1 by module, det_smul]
      norm_num
  cases hc : rot2cayley ((2 : ℝ) • (1 : Mat3)) with
  | none => exact absurd hc h
  | some c => exact ⟨_, by rw [optimizeCloud, optimize, hc]⟩

/-- **C61 (half turns).** Started from a rotation, the refinement fails (all entries of the rotation
are NaN) exactly when the prior is a rotation by 180 degrees, whatever the data and however good
the prior. -/
theorem C61_half_turn (lm : Lm) (ao : List AbsObs) (ro : List RelObs) (co : List (Vec3 × Vec3))
    (prior : Pose) (hR : IsRot prior.2) :
    (optimizeAbs lm ao prior = none ↔ prior.2.trace = -1) ∧
    (optimizeCloud lm co prior = none ↔ prior.2.trace = -1) ∧
    (optimizeRel lm ro prior = none ↔ prior.2.trace = -1) := by
  refine ⟨optimize_none_iff hR, optimize_none_iff hR, ?_⟩
  rw [← (C19_undefined_iff_half_turn prior.2 hR).1]
  unfold optimizeRel
  cases rot2cayley prior.2 <;> simp

/-- The exact pose of two point clouds is lost when it is a half turn. -/
example : optimizeCloud (fun _ x => ([x], x))
    [(![1, 0, 0], ![1, 0, 0]), (![0, -1, 0], ![0, 1, 0]), (![0, 0, -1], ![0, 0, 1])]
    (0, !![1, 0, 0; 0, -1, 0; 0, 0, -1]) = none :=
  (C61_half_turn _ [] [] _ _ ⟨by ext i j; fin_cases i <;> fin_cases j <;>
    simp [Matrix.mul_apply, Fin.sum_univ_three], by simp [det_fin_three]⟩).2.1.2 (by
      simp [Matrix.trace, Fin.sum_univ_three])

/-- **C61 (never worse than the prior).** With a minimiser that only accepts steps that lower the
sum of squares: if the prior is a rotation other than a half turn and all residuals of the prior
pose are finite, then the refined pose has finite residuals and a sum of squared residuals at most
that of the prior. The residuals are the scores of the sample consensus problems. -/
theorem C61_never_worse (lm : Lm) (hlm : LmOk lm) (ao : List AbsObs) (ro : List RelObs)
    (co : List (Vec3 × Vec3)) (prior : Pose) (hR : IsRot prior.2) (ht : prior.2.trace ≠ -1) :
    (∀ c, HasCost (ao.map fun o => absScore prior o.off o.rot o.p o.f) c →
      ∃ Q c', optimizeAbs lm ao prior = some Q ∧
        HasCost (ao.map fun o => absScore Q o.off o.rot o.p o.f) c' ∧ c' ≤ c) ∧
    (∃ Q, optimizeCloud lm co prior = some Q ∧
      (co.map fun o => cloudScore Q o.1 o.2 ^ 2).sum ≤
        (co.map fun o => cloudScore prior o.1 o.2 ^ 2).sum) ∧
    (∀ c, HasCost (ro.map fun o =>
        noncentralRelScore prior o.off1 o.off2 o.rot1 o.rot2 o.f1 o.f2) c →
      ∃ Q s c', optimizeRel lm ro prior = some (Q, s) ∧
        HasCost (ro.map fun o =>
          noncentralRelScore Q o.off1 o.off2 o.rot1 o.rot2 o.f1 o.f2) c' ∧ c' ≤ c) := by
  refine ⟨fun c hc => ?_, ?_, fun c hc => ?_⟩
  · have h := @optimize_cost lm hlm
      (fun P => ao.map fun o => absScore P o.off o.rot o.p o.f) prior hR ht c
    obtain ⟨Q, c', h1, h2, h3⟩ := h hc
    exact ⟨Q, c', h1, h2, h3⟩
  · obtain ⟨Q, c', h1, ⟨vs, h2, rfl⟩, h3⟩ := optimize_cost hlm
      (fun P => co.map fun o => some (cloudScore P o.1 o.2)) hR ht
      (c := (co.map fun o => cloudScore prior o.1 o.2 ^ 2).sum)
      ⟨co.map fun o => cloudScore prior o.1 o.2, by rw [List.map_map]; rfl,
        by rw [List.map_map]; rfl⟩
    refine ⟨Q, h1, ?_⟩
    have : vs = co.map fun o => cloudScore Q o.1 o.2 := by
      have h4 : (co.map fun o => cloudScore Q o.1 o.2).map some = vs.map some := by
        rw [← h2, List.map_map]; rfl
      exact ((List.map_injective_iff.2 (Option.some_injective ℝ)) h4).symm
    rw [this, List.map_map] at h3
    exact h3
  · have h := @optimize_cost lm hlm (fun P => ro.map fun o =>
      noncentralRelScore P o.off1 o.off2 o.rot1 o.rot2 o.f1 o.f2) prior hR ht c
    obtain ⟨Q, c', h1, h2, h3⟩ := h hc
    unfold optimize at h1
    cases hy : rot2cayley prior.2 with
    | none => simp [hy] at h1
    | some y =>
      simp only [hy, Option.some.injEq] at h1
      have h4 : ∃ s, optimizeRel lm ro prior = some (Q, s) := by
        rw [optimizeRel, hy]
        simp only [relLoop_eq]
        rw [h1]
        exact ⟨_, rfl⟩
      obtain ⟨s, h4⟩ := h4
      exact ⟨Q, s, c', h4, h2, h3⟩

/-- The contract is met by a minimiser that takes a step if that lowers the sum of squares. -/
example : LmOk fun res x => ([x, 0],
    open Classical in
    if ∃ c c', HasCost (res x) c ∧ HasCost (res 0) c' ∧ c' < c then 0 else x) := by
  intro res x c h
  dsimp only
  split
  · next hlt =>
    obtain ⟨c1, c', h1, h2, h3⟩ := hlt
    obtain ⟨vs, e, rfl⟩ := h
    obtain ⟨ws, e', rfl⟩ := h1
    have := (List.map_injective_iff.2 (Option.some_injective ℝ)) (e.symm.trans e')
    exact ⟨c', h2, by rw [this]; exact h3.le⟩
  · exact ⟨c, h, le_refl c⟩

/-- **C61 (exact pose kept).** If the prior (not a half turn) already sees every point exactly in the
measured direction, then so does the refined pose; if it maps the second point cloud exactly to the
first, whose second points are not all on a line, then the refined pose is the prior; if under the
prior all viewing rays of a pair of views meet in front of both cameras at a positive angle, then so
they do under the refined pose. -/
theorem C61_exact_kept (lm : Lm) (hlm : LmOk lm) (ao : List AbsObs) (ro : List RelObs)
    (co : List (Vec3 × Vec3)) (prior : Pose) (hR : IsRot prior.2) (ht : prior.2.trace ≠ -1) :
    ((∀ o ∈ ao, o.f ⬝ᵥ o.f = 1) →
      (∀ o ∈ ao, ∃ d : ℝ, 0 < d ∧ absReprojection prior o.off o.rot o.p = d • o.f) →
      ∃ Q, optimizeAbs lm ao prior = some Q ∧
        ∀ o ∈ ao, ∃ d : ℝ, 0 < d ∧ absReprojection Q o.off o.rot o.p = d • o.f) ∧
    ((∀ o ∈ co, o.1 = prior.2 *ᵥ o.2 + prior.1) →
      (∃ a ∈ co, ∃ b ∈ co, ∃ c ∈ co, crossProduct (b.2 - a.2) (c.2 - a.2) ≠ 0) →
      optimizeCloud lm co prior = some prior) ∧
    ((∀ o ∈ ro, o.f1 ⬝ᵥ o.f1 = 1 ∧ o.f2 ⬝ᵥ o.f2 = 1 ∧ IsRot o.rot1 ∧ IsRot o.rot2) →
      let meets (P : Pose) (o : RelObs) : Prop :=
        (¬ ∃ a b : ℝ, (a ≠ 0 ∨ b ≠ 0) ∧ a • o.f1 = b • (directRotation P.2 o.rot1 o.rot2 *ᵥ o.f2)) ∧
        ∃ a b : ℝ, 0 < a ∧ 0 < b ∧
          a • o.f1 = directTranslation P.1 P.2 o.off1 o.off2 o.rot1 +
            b • (directRotation P.2 o.rot1 o.rot2 *ᵥ o.f2)
      (∀ o ∈ ro, meets prior o) →
      ∃ Q s, optimizeRel lm ro prior = some (Q, s) ∧ ∀ o ∈ ro, meets Q o) := by
  obtain ⟨hA, ⟨Q, hQ, hC⟩, hB⟩ := C61_never_worse lm hlm ao ro co prior hR ht
  refine ⟨fun hf hp => ?_, fun hp hl => ?_, ?_⟩
  · obtain ⟨Q, c', h1, h2, h3⟩ := hA 0 (hasCost_of_zero (by
      simp only [List.mem_map]
      rintro _ ⟨o, ho, rfl⟩
      exact (C50_absolute _ _ _ _ _ (hf o ho)).2.2.2 (hp o ho)))
    refine ⟨Q, h1, fun o ho => (C50_absolute _ _ _ _ _ (hf o ho)).2.2.1 ?_⟩
    exact hasCost_zero h2 h3 _ (List.mem_map.2 ⟨o, ho, rfl⟩)
  · have hz : (co.map fun o => cloudScore prior o.1 o.2 ^ 2).sum = 0 := by
      apply List.sum_eq_zero
      simp only [List.mem_map]
      rintro _ ⟨o, ho, rfl⟩
      have : cloudScore prior o.1 o.2 = 0 := by
        rw [cloudScore, ← hp o ho, sub_self, norm3_eq_zero]
      rw [this]; norm_num
    rw [hz] at hC
    have hz2 := hasCost_zero (rs := co.map fun o => some (cloudScore Q o.1 o.2))
      ⟨co.map fun o => cloudScore Q o.1 o.2, by rw [List.map_map]; rfl, rfl⟩
      (by rw [List.map_map]; exact hC)
    have hq : ∀ o ∈ co, o.1 = Q.2 *ᵥ o.2 + Q.1 := by
      intro o ho
      have := hz2 _ (List.mem_map.2 ⟨o, ho, rfl⟩)
      simp only [Option.some.injEq] at this
      rwa [cloudScore, norm3_eq_zero, sub_eq_zero] at this
    have hQr := (C61_rotation lm ao ro co prior).2.1 Q hQ
    obtain ⟨a, ha, b, hb, c, hc, hne⟩ := hl
    have hd : ∀ o ∈ co, Q.2 *ᵥ (o.2 - a.2) = prior.2 *ᵥ (o.2 - a.2) := by
      intro o ho
      have e1 := (hq o ho).symm.trans (hp o ho)
      have e2 := (hq a ha).symm.trans (hp a ha)
      rw [mulVec_sub, mulVec_sub]
      have := congrArg₂ (· - ·) e1 e2
      simpa using this
    have e := rot_eq_of_two hQr hR hne (hd b hb) (hd c hc)
    have e2 := (hq a ha).symm.trans (hp a ha)
    rw [e] at e2
    rw [hQ, Option.some.injEq]
    exact Prod.ext (add_left_cancel e2) e
  · intro hf meets hp
    have key : ∀ P : Pose, IsRot P.2 → ∀ o ∈ ro,
        (noncentralRelScore P o.off1 o.off2 o.rot1 o.rot2 o.f1 o.f2 = some 0 ↔ meets P o) := by
      intro P hP o ho
      obtain ⟨h1, h2, h3, h4⟩ := hf o ho
      exact (C50_two_view _ (directRotation P.2 o.rot1 o.rot2) o.f1 o.f2
        ((h3.transpose.mul hP).mul h4).1 h1 h2).2
    obtain ⟨Q, s, c', h1, h2, h3⟩ := hB 0 (hasCost_of_zero (by
      simp only [List.mem_map]
      rintro _ ⟨o, ho, rfl⟩
      exact (key prior hR o ho).2 (hp o ho)))
    refine ⟨Q, s, h1, fun o ho => (key Q ((C61_rotation lm ao ro co prior).2.2 Q s h1) o ho).1 ?_⟩
    exact hasCost_zero h2 h3 _ (List.mem_map.2 ⟨o, ho, rfl⟩)

example : optimizeCloud (fun _ x => ([x], x))
    [(![2, 2, 3], ![1, 0, 0]), (![1, 3, 3], ![0, 1, 0]), (![1, 2, 4], ![0, 0, 1])]
    (![1, 2, 3], 1) = some (![1, 2, 3], 1) := by
  refine (C61_exact_kept (fun _ x => ([x], x)) (fun _ _ c h => ⟨c, h, le_refl c⟩) [] [] _ _
    ⟨by simp, by simp⟩ (by simp [Matrix.trace, Fin.sum_univ_three]; norm_num)).2.1 ?_ ?_
  · simp only [List.mem_cons, List.not_mem_nil, or_false]
    rintro o (rfl | rfl | rfl) <;> (apply ext3 <;> simp <;> norm_num)
  · refine ⟨_, List.mem_cons_self, _, List.mem_cons_of_mem _ List.mem_cons_self, _,
      List.mem_cons_of_mem _ (List.mem_cons_of_mem _ List.mem_cons_self), fun h => ?_⟩
    have := congrFun h 0
    simp [cross_apply] at this

/-- **C61 (side effect on the adapter).** Evaluating the residuals of the relative problem overwrites
the adapter's prior: the residuals do not depend on what the prior was, but after the call the
adapter holds the camera-to-camera pose of the last correspondence for the last evaluated point, not
the prior and not the refined pose. Without correspondences the prior is unchanged. -/
theorem C61_side_effect (obs : List RelObs) :
    (∀ (x : Params) (s s' : Pose), (relLoop x obs s).1 = (relLoop x obs s').1) ∧
    (∀ (s : Pose) (xs : List Params) (x : Params) (o : RelObs), obs.getLast? = some o →
      relPrior obs s (xs ++ [x]) =
        (o.rot1.transpose *ᵥ (x.1 - o.off1 + cayley2rot x.2 *ᵥ o.off2),
          o.rot1.transpose * cayley2rot x.2 * o.rot2)) ∧
    (∀ (s : Pose) (xs : List Params), obs = [] → relPrior obs s xs = s) := by
  refine ⟨fun x s s' => by simp only [relLoop_eq], fun s xs x o ho => ?_, fun s xs h => ?_⟩
  · simp only [relPrior, List.foldl_append, List.foldl_cons, List.foldl_nil, relLoop_eq, ho]
    rfl
  · subst h
    induction xs generalizing s with
    | nil => rfl
    | cons x xs ih => simp [relPrior, relLoop]

/-- Two calls in a row: even when the minimiser stays at the prior, the second call starts from a
different pose if the cameras are not in the origin of the body. -/
example : optimizeRel (fun _ x => ([x], x)) [⟨![0, 0, 1], ![0, 0, 1], ![1, 0, 0], 1, 0, 1⟩] (0, 1) =
    some ((0, 1), (![-1, 0, 0], 1)) := by
  have h1 : rot2cayley (1 : Mat3) = some 0 := by
    rw [← C19_rot2cayley_cayley2rot 0]
    congr 1
    ext i j
    fin_cases i <;> fin_cases j <;> simp [cayley2rot]
  have h2 : cayley2rot 0 = 1 := by
    ext i j
    fin_cases i <;> fin_cases j <;> simp [cayley2rot]
  rw [optimizeRel, h1]
  simp only [Option.some.injEq, Prod.mk.injEq]
  refine ⟨by rw [poseOf, h2], ?_⟩
  have := (C61_side_effect [⟨![0, 0, 1], ![0, 0, 1], ![1, 0, 0], 1, 0, 1⟩]).2.1 (0, 1) [] (0, 0) _ rfl
  rw [List.nil_append] at this
  rw [this, h2]
  refine Prod.ext ?_ (by simp)
  apply ext3 <;> simp

end OpenGV.Props
