import Verif.Spec.Lm
import Verif.Props.Rotation
import Verif.Props.SacProblems

/-!
# Lemmas about the nonlinear refinement
-/

namespace OpenGV

open Matrix Refine Spec Adapters Props

theorem hasCost_zero {rs : List (Option ℝ)} {c : ℝ} (h : HasCost rs c) (hc : c ≤ 0) :
    ∀ r ∈ rs, r = some 0 := by
  obtain ⟨vs, rfl, rfl⟩ := h
  induction vs with
  | nil => simp
  | cons v vs ih =>
    simp only [List.map_cons, List.sum_cons] at hc
    have hs : 0 ≤ (vs.map (· ^ 2)).sum :=
      List.sum_nonneg (by simp only [List.mem_map]; rintro _ ⟨a, _, rfl⟩; positivity)
    intro r hr
    rw [List.map_cons, List.mem_cons] at hr
    rcases hr with rfl | hr
    · have : v ^ 2 = 0 := by nlinarith [sq_nonneg v]
      rw [pow_eq_zero_iff two_ne_zero |>.1 this]
    · exact ih (by nlinarith [sq_nonneg v]) r hr

theorem hasCost_of_zero {rs : List (Option ℝ)} (h : ∀ r ∈ rs, r = some 0) : HasCost rs 0 := by
  induction rs with
  | nil => exact ⟨[], rfl, by simp⟩
  | cons r rs ih =>
    obtain ⟨vs, e1, e2⟩ := ih fun s hs => h s (List.mem_cons_of_mem _ hs)
    refine ⟨0 :: vs, ?_, ?_⟩
    · rw [h r List.mem_cons_self, e1]
      rfl
    · simp [← e2]

theorem optimize_isRot {lm : Lm} {res : Params → List (Option ℝ)} {prior Q : Pose}
    (h : optimize lm res prior = some Q) : IsRot Q.2 := by
  unfold optimize at h
  split at h
  · simp at h
  · simp only [Option.some.injEq] at h
    rw [← h]
    exact cayley2rot_isRot _

theorem optimize_none_iff {lm : Lm} {res : Params → List (Option ℝ)} {prior : Pose}
    (hR : IsRot prior.2) : optimize lm res prior = none ↔ prior.2.trace = -1 := by
  rw [← (C19_undefined_iff_half_turn prior.2 hR).1]
  unfold optimize
  cases rot2cayley prior.2 <;> simp

/-- The refinement starts at the prior and does not increase the cost. -/
theorem optimize_cost {lm : Lm} (hlm : LmOk lm) (cost : Pose → List (Option ℝ)) {prior : Pose}
    (hR : IsRot prior.2) (ht : prior.2.trace ≠ -1) {c : ℝ} (hc : HasCost (cost prior) c) :
    ∃ Q c', optimize lm (fun x => cost (poseOf x)) prior = some Q ∧ HasCost (cost Q) c' ∧
      c' ≤ c := by
  obtain ⟨y, hy, e⟩ := C19_cayley2rot_rot2cayley prior.2 hR ht
  have hp : poseOf (prior.1, y) = prior := by rw [poseOf, e]
  obtain ⟨c', h1, h2⟩ := hlm (fun x => cost (poseOf x)) (prior.1, y) c (by
    show HasCost (cost (poseOf (prior.1, y))) c
    rwa [hp])
  exact ⟨_, c', by rw [optimize, hy], h1, h2⟩

theorem relStep_eq (x : Params) (prior : Pose) (o : RelObs) :
    relStep x prior o = (noncentralRelScore (poseOf x) o.off1 o.off2 o.rot1 o.rot2 o.f1 o.f2,
      (directTranslation (poseOf x).1 (poseOf x).2 o.off1 o.off2 o.rot1,
        directRotation (poseOf x).2 o.rot1 o.rot2)) := rfl

theorem relLoop_eq (x : Params) (obs : List RelObs) (prior : Pose) :
    relLoop x obs prior =
      (obs.map fun o => noncentralRelScore (poseOf x) o.off1 o.off2 o.rot1 o.rot2 o.f1 o.f2,
        ((obs.getLast?.map fun o =>
          (directTranslation (poseOf x).1 (poseOf x).2 o.off1 o.off2 o.rot1,
            directRotation (poseOf x).2 o.rot1 o.rot2)).getD prior)) := by
  induction obs generalizing prior with
  | nil => rfl
  | cons o os ih =>
    rw [relLoop, relStep_eq]
    simp only [ih, List.map_cons, Prod.mk.injEq, true_and]
    cases os with
    | nil => simp
    | cons o' os => rw [List.getLast?_cons_cons, List.getLast?_cons]; simp

end OpenGV
