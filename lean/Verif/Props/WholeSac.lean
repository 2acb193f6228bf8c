import Verif.Proof.WholeSac
import Verif.Props.Arun
import Verif.Props.RelativePose
import Verif.Props.SacProblems
import Verif.Props.Ge
import Verif.Props.Rotation
import Verif.Props.P3p
import Verif.Props.RelSac

/-!
# Property C70: whole runs
-/

namespace OpenGV.Props

open Matrix hiding single
open OpenGV.Spec Sac WholeSac

/-- **C70 (every sample can win).** For every sample `s` of the index set that gives a hypothesis `m` there
are generator outputs for which RANSAC on a fresh object scores `m` first, returns true, and has at least as
many inliers as `m`. -/
theorem C70_reachable {σ M : Type} (U : UserProblem σ M) (indices : List ℤ) (thr prob : ℝ) (maxIt : ℤ)
    (hmax : 1 ≤ maxIt) (hbig : 10 * maxIt ≤ intMax)
    (hdist : ∀ m, (U.dist m indices).length = indices.length)
    (obj : RansacObj (σ × List ℤ × ℕ) (List ℤ) M (List ℤ)) (hfresh : obj.model = none)
    (hpool : obj.world.2.1.Perm indices) (s : List ℤ) (hne : s ≠ [])
    (hs : IsSampleOf indices U.sampleSize s) (hgood : U.isSampleGood obj.world.1 s = true) (m : M)
    (hm : (U.compute obj.world.1 s).1 = some m) :
    ∃ rng r, (∀ fuel : ℕ, 11 * maxIt + 2 ≤ fuel →
        computeModel (single U rng indices) thr prob maxIt obj fuel = .done r) ∧
      r.ret = true ∧ (s, m) ∈ r.final.scored ∧
      support (U.dist m indices) thr ≤ r.obj.inliers.length := by
  obtain ⟨⟨w, pool, pos⟩, it, mo, co, ins⟩ := obj
  simp only at hfresh hpool hgood hm
  have hlen := hs.1
  have hsub := isSampleOf_subperm hs
  have hsp : IsSampleOf pool s.length s :=
    ⟨rfl, isSampleOf_of_subperm _ _ (hsub.trans hpool.symm.subperm)⟩
  obtain ⟨rng, pool', pos', hd⟩ := C03_every_sample_reachable pool s pos hsp
  obtain ⟨r, hr, -⟩ := C05_terminates_within_budget U rng indices thr prob maxIt (by omega) hbig hdist
    ⟨(w, pool, pos), it, mo, co, ins⟩ hpool (by rw [hfresh]; simp)
  have hrun := hr (11 * maxIt + 2).toNat (by omega)
  have hget : (single U rng indices).getSamples (w, pool, pos) = some (.sample s, w, pool', pos') := by
    have h1 : getSamples rng (U.isSampleGood w) U.sampleSize indices pos pool =
        some (.sample s, pool', pos') := by
      unfold getSamples
      rw [if_neg (by rw [← hlen]; exact not_lt.2 hsub.length_le)]
      rw [show maxSampleChecks = 9 + 1 from rfl, getSamplesLoop, ← hlen, hd]
      simp [hgood]
    simp only [single, h1]
  have hsc := computeModel_scores (single U rng indices) thr prob maxIt hmax hbig
    ⟨(w, pool, pos), it, mo, co, ins⟩ s (w, pool', pos') ((U.compute w s).2, pool', pos') m hget
    (by simpa [single] using hne) (by simp only [single]; rw [← hm]) _ r hrun
  obtain ⟨h1, h2⟩ := result_support U rng indices thr prob maxIt ⟨(w, pool, pos), it, mo, co, ins⟩
    hfresh hpool hdist _ r hrun (s, m) hsc
  exact ⟨rng, r, hr, h1, hsc, h2⟩

/-- **C70 (point clouds).** When RANSAC for two point clouds returns true, its model is a rigid
transformation that aligns its sample best. If there are inliers, the refinement is a rigid
transformation that aligns the inliers best, so that the mean of the squared distances is below the square
of the threshold; without inliers it is undefined. -/
theorem C70_point_cloud (svd : Mat3 → Mat3 × Mat3)
    (hsvd : ∀ H, ∃ σ, Spec.IsSvd H (svd H).1 (svd H).2 σ) (data : ℤ → Vec3 × Vec3) (rng : ℕ → ℕ)
    (indices : List ℤ) (thr prob : ℝ) (maxIt : ℤ)
    (obj : RansacObj (Unit × List ℤ × ℕ) (List ℤ) Pose (List ℤ)) (hfresh : obj.model = none)
    (hpool : obj.world.2.1.Perm indices) (fuel : ℕ)
    (r : RansacReturn (Unit × List ℤ × ℕ) (List ℤ) Pose (List ℤ))
    (h : computeModel (single (pointCloud svd data) rng indices) thr prob maxIt obj fuel = .done r)
    (hret : r.ret = true) :
    let cost : Pose → List ℤ → ℝ := fun P is => (is.map fun i => cloudScore P (data i).1 (data i).2 ^ 2).sum
    (∃ P a b c, r.obj.coeffs = some P ∧ r.obj.model = some [a, b, c] ∧ IsRot P.2 ∧
      ∀ Q : Pose, IsRot Q.2 → cost P [a, b, c] ≤ cost Q [a, b, c]) ∧
    (r.obj.inliers = [] → pointCloudOptimize svd data r.obj.inliers = none) ∧
    (r.obj.inliers ≠ [] → ∃ P, pointCloudOptimize svd data r.obj.inliers = some P ∧ IsRot P.2 ∧
      (∀ Q : Pose, IsRot Q.2 → cost P r.obj.inliers ≤ cost Q r.obj.inliers) ∧
      cost P r.obj.inliers < r.obj.inliers.length * thr ^ 2) := by
  intro cost
  have hcost : ∀ (P : Pose) (is : List ℤ), cost P is = ((is.map data).map fun p =>
      (p.1 - (P.2 *ᵥ p.2 + P.1)) ⬝ᵥ (p.1 - (P.2 *ᵥ p.2 + P.1))).sum := by
    intro P is
    simp only [cost, List.map_map]
    congr 1
    refine List.map_congr_left fun i _ => ?_
    simp only [Function.comp, cloudScore, norm3_sq]
  have hbest : ∀ is : List ℤ, is ≠ [] → ∃ P, arunComplete svd (is.map data) = some P ∧ IsRot P.2 ∧
      ∀ Q : Pose, IsRot Q.2 → cost P is ≤ cost Q is := by
    intro is his
    obtain ⟨t, R, e, h1, h2, h3⟩ := C23_alignment_optimal svd hsvd (is.map data) (by simpa using his)
    refine ⟨(t, R), e, ⟨h1, h2⟩, fun Q hQ => ?_⟩
    rw [hcost, hcost]
    exact h3 Q.1 Q.2 hQ.1 hQ.2
  obtain ⟨pre, s, m, post, e1, e2, e3, ⟨w, e4⟩, hsam, -, -⟩ := C06_maximal_support (pointCloud svd data) rng
    indices thr prob maxIt obj hfresh hpool r fuel h hret
  have hs3 : s.length = 3 := hsam.1
  obtain ⟨a, b, c, rfl⟩ := List.length_eq_three.1 hs3
  obtain ⟨P, hP, hrot, hopt⟩ := hbest [a, b, c] (by simp)
  have : m = P := by
    simp only [pointCloud] at e4
    rw [hP] at e4
    exact (Option.some.inj e4).symm
  subst this
  refine ⟨⟨m, a, b, c, e3, e2, hrot, hopt⟩, fun h0 => ?_, fun hne => ?_⟩
  · rw [h0]
    rfl
  · obtain ⟨Q, hQ, hQrot, hQopt⟩ := hbest _ hne
    refine ⟨Q, hQ, hQrot, hQopt, (hQopt m hrot).trans_lt ?_⟩
    obtain ⟨m', f1, f2, -⟩ := C07_inliers_exact (pointCloud svd data) rng indices thr prob maxIt obj
      (fun m => by simp [pointCloud]) r fuel h hret
    rw [e3] at f1
    cases f1
    have hin := selected_map _ (fun i => cloudScore m (data i).1 (data i).2) indices _ f2
    have hlt : ∀ i ∈ r.obj.inliers, cloudScore m (data i).1 (data i).2 ^ 2 < thr ^ 2 := by
      intro i hi
      have h0 : 0 ≤ cloudScore m (data i).1 (data i).2 := norm3_nonneg _
      have h1 := ((hin i).1 hi).2
      exact pow_lt_pow_left₀ h1 h0 two_ne_zero
    generalize r.obj.inliers = l at hne hlt
    simp only [cost]
    clear hin f2 hQ hQopt
    induction l with
    | nil => exact absurd rfl hne
    | cons i is ih =>
      have h1 := hlt i List.mem_cons_self
      rw [List.map_cons, List.sum_cons, List.length_cons]
      push_cast
      rcases eq_or_ne is [] with rfl | his
      · simp only [List.map_nil, List.sum_nil, List.length_nil, Nat.cast_zero]
        linarith
      · have := ih his fun j hj => hlt j (List.mem_cons_of_mem _ hj)
        linarith

/-- **C70 (point clouds, noise-free inliers).** If a sample of three `good` points, which are moved by the
same rigid transformation and not on a line, is scored, its hypothesis is this transformation and the
result has at least as many inliers as there are good points. If all inliers are good and three of them are
not on a line, the refinement is exactly this transformation. -/
theorem C70_point_cloud_exact (svd : Mat3 → Mat3 × Mat3)
    (hsvd : ∀ H, ∃ σ, Spec.IsSvd H (svd H).1 (svd H).2 σ) (data : ℤ → Vec3 × Vec3) (rng : ℕ → ℕ)
    (indices : List ℤ) (thr prob : ℝ) (hthr : 0 < thr) (maxIt : ℤ)
    (obj : RansacObj (Unit × List ℤ × ℕ) (List ℤ) Pose (List ℤ)) (hfresh : obj.model = none)
    (hpool : obj.world.2.1.Perm indices) (fuel : ℕ)
    (r : RansacReturn (Unit × List ℤ × ℕ) (List ℤ) Pose (List ℤ))
    (h : computeModel (single (pointCloud svd data) rng indices) thr prob maxIt obj fuel = .done r)
    (t : Vec3) (R : Mat3) (hR : IsRot R) (good : ℤ → Bool)
    (hgood : ∀ i, good i = true → (data i).1 = R *ᵥ (data i).2 + t) :
    (∀ a b c m, ([a, b, c], m) ∈ r.final.scored → good a = true → good b = true → good c = true →
      crossProduct ((data b).2 - (data a).2) ((data c).2 - (data a).2) ≠ 0 →
      m = (t, R) ∧ r.ret = true ∧ indices.countP good ≤ r.obj.inliers.length) ∧
    (∀ a b c, a ∈ r.obj.inliers → b ∈ r.obj.inliers → c ∈ r.obj.inliers →
      (∀ i ∈ r.obj.inliers, good i = true) →
      crossProduct ((data b).2 - (data a).2) ((data c).2 - (data a).2) ≠ 0 →
      pointCloudOptimize svd data r.obj.inliers = some (t, R)) := by
  have hex : ∀ (is : List ℤ) (a b c : ℤ), a ∈ is → b ∈ is → c ∈ is → (∀ i ∈ is, good i = true) →
      crossProduct ((data b).2 - (data a).2) ((data c).2 - (data a).2) ≠ 0 →
      arunComplete svd (is.map data) = some (t, R) := by
    intro is a b c ha hb hc hall hline
    have e : is.map data = (is.map fun i => (data i).2).map fun q => (R *ᵥ q + t, q) := by
      rw [List.map_map]
      refine List.map_congr_left fun i hi => ?_
      exact Prod.ext (hgood i (hall i hi)) rfl
    rw [e]
    exact C24_points_exact svd hsvd R hR t _ _ _ _ (List.mem_map_of_mem ha) (List.mem_map_of_mem hb)
      (List.mem_map_of_mem hc) hline
  refine ⟨?_, fun a b c ha hb hc hall hline => hex _ a b c ha hb hc hall hline⟩
  intro a b c m hm ga gb gc hline
  have hmm : m = (t, R) := by
    obtain ⟨maxSkip, -, hl, -⟩ := computeModel_done _ _ _ _ _ _ _ h
    obtain ⟨-, ⟨w, pool, pos⟩, hw⟩ := (rinv_final _ _ _ _ _ _ _ _ hl).comp _ hm
    simp only [single, pointCloud] at hw
    rw [hex [a, b, c] a b c (by simp) (by simp) (by simp) (by simp [ga, gb, gc]) hline] at hw
    exact (Option.some.inj hw).symm
  obtain ⟨h1, h2⟩ := result_support (pointCloud svd data) rng indices thr prob maxIt obj hfresh hpool
    (fun m => by simp [pointCloud]) fuel r h _ hm
  refine ⟨hmm, h1, le_trans ?_ h2⟩
  rw [hmm]
  refine support_map _ thr good (fun i gi => ?_) indices
  simp only [cloudScore]
  rw [hgood i gi, sub_self]
  simpa [norm3] using hthr

/-- **C70 (rotation only, noise-free inliers).** As for point clouds, with two correspondences that are not
parallel; the refinement is exact if all inliers are good and three of them are different. -/
theorem C70_rotation_exact (svd : Mat3 → Mat3 × Mat3)
    (hsvd : ∀ H, ∃ σ, Spec.IsSvd H (svd H).1 (svd H).2 σ) (data : ℤ → Vec3 × Vec3) (rng : ℕ → ℕ)
    (indices : List ℤ) (thr prob : ℝ) (hthr : 0 < thr) (maxIt : ℤ)
    (obj : RansacObj (Unit × List ℤ × ℕ) (List ℤ) Mat3 (List ℤ)) (hfresh : obj.model = none)
    (hpool : obj.world.2.1.Perm indices) (fuel : ℕ)
    (r : RansacReturn (Unit × List ℤ × ℕ) (List ℤ) Mat3 (List ℤ))
    (h : computeModel (single (rotationProblem svd data) rng indices) thr prob maxIt obj fuel = .done r)
    (R : Mat3) (hR : IsRot R) (good : ℤ → Bool)
    (hgood : ∀ i, good i = true → (data i).1 = R *ᵥ (data i).2 ∧ (data i).2 ⬝ᵥ (data i).2 = 1) :
    (∀ a b m, ([a, b], m) ∈ r.final.scored → good a = true → good b = true →
      crossProduct (data a).2 (data b).2 ≠ 0 →
      m = R ∧ r.ret = true ∧ indices.countP good ≤ r.obj.inliers.length) ∧
    (∀ a b c, a ∈ r.obj.inliers → b ∈ r.obj.inliers → c ∈ r.obj.inliers →
      (∀ i ∈ r.obj.inliers, good i = true) →
      (data a).2 ≠ (data b).2 → (data a).2 ≠ (data c).2 → (data b).2 ≠ (data c).2 →
      rotationOptimize svd data r.obj.inliers = some R) := by
  refine ⟨?_, ?_⟩
  · intro a b m hm ga gb hpar
    have hmm : m = R := by
      obtain ⟨maxSkip, -, hl, -⟩ := computeModel_done _ _ _ _ _ _ _ h
      obtain ⟨-, ⟨w, pool, pos⟩, hw⟩ := (rinv_final _ _ _ _ _ _ _ _ hl).comp _ hm
      simp only [single, rotationProblem] at hw
      have ea : data a = (R *ᵥ (data a).2, (data a).2) := Prod.ext (hgood a ga).1 rfl
      have eb : data b = (R *ᵥ (data b).2, (data b).2) := Prod.ext (hgood b gb).1 rfl
      rw [ea, eb, C24_twopt_rotation_exact svd hsvd R hR _ _ hpar] at hw
      exact (Option.some.inj hw).symm
    obtain ⟨h1, h2⟩ := result_support (rotationProblem svd data) rng indices thr prob maxIt obj hfresh hpool
      (fun m => by simp [rotationProblem]) fuel r h _ hm
    refine ⟨hmm, h1, le_trans ?_ h2⟩
    rw [hmm]
    refine support_map _ thr good (fun i gi => ?_) indices
    obtain ⟨e, u⟩ := hgood i gi
    have u1 : (data i).1 ⬝ᵥ (data i).1 = 1 := by rw [e, rot_dot hR.1, u]
    simp only [rotScore]
    rw [← e, u1, sub_self]
    exact hthr
  · intro a b c ha hb hc hall hab hac hbc
    have e : r.obj.inliers.map data = (r.obj.inliers.map fun i => (data i).2).map fun q => (R *ᵥ q, q) := by
      rw [List.map_map]
      refine List.map_congr_left fun i hi => ?_
      exact Prod.ext (hgood i (hall i hi)).1 rfl
    rw [rotationOptimize, e]
    refine C24_rotation_only_exact svd hsvd R hR _ ?_ _ _ _ (List.mem_map_of_mem ha)
      (List.mem_map_of_mem hb) (List.mem_map_of_mem hc) hab hac hbc
    intro q hq
    obtain ⟨i, hi, rfl⟩ := List.mem_map.1 hq
    exact (hgood i (hall i hi)).2

/-- **C70 (rotation only, two inliers, defect).** With exactly two inliers the refinement can lose the
rotation that the hypothesis has found: for a decomposition that meets the contract, two noise-free
correspondences of the identity give the identity as hypothesis, but another rotation after the
refinement. -/
theorem C70_rotation_two_inliers :
    ∃ (svd : Mat3 → Mat3 × Mat3) (data : ℤ → Vec3 × Vec3),
      (∀ H, ∃ σ, Spec.IsSvd H (svd H).1 (svd H).2 σ) ∧
      (∀ i ∈ [(0 : ℤ), 1], (data i).1 = (data i).2 ∧ (data i).2 ⬝ᵥ (data i).2 = 1) ∧
      twoptRotationOnly svd (data 0) (data 1) = 1 ∧
      ∃ Q, rotationOptimize svd data [0, 1] = some Q ∧ IsRot Q ∧ Q ≠ 1 := by
  classical
  obtain ⟨svd0, h0⟩ := exists_svd_fun 3
  set H0 : Mat3 := diagonal ![18/25, 0, 0] with hH0
  set V0 : Mat3 := !![1, 0, 0; 0, 0, 1; 0, 1, 0] with hV0
  set svd : Mat3 → Mat3 × Mat3 := fun H => if H = H0 then (1, V0) else svd0 H with hsvdd
  set data : ℤ → Vec3 × Vec3 := fun i =>
    if i = 0 then (![3/5, 4/5, 0], ![3/5, 4/5, 0]) else (![-3/5, 4/5, 0], ![-3/5, 4/5, 0]) with hdata
  have hsvd : ∀ H, ∃ σ, Spec.IsSvd H (svd H).1 (svd H).2 σ := by
    intro H
    by_cases e : H = H0
    · refine ⟨![18/25, 0, 0], ?_⟩
      simp only [hsvdd, if_pos e]
      rw [e]
      refine ⟨by simp, ?_, ?_, ?_, ?_⟩
      · apply mat3_ext <;> simp [hV0, Matrix.mul_apply, Fin.sum_univ_three, vcons2]
      · rw [hH0, Matrix.one_mul]
        apply mat3_ext <;> simp [hV0, Matrix.mul_apply, diagonal, vcons2]
      · intro i
        fin_cases i <;> norm_num
      · intro i j hij
        fin_cases i <;> fin_cases j <;> simp at hij ⊢ <;> norm_num
    · simp only [hsvdd, if_neg e]
      exact h0 H
  have d0 : data 0 = (![3/5, 4/5, 0], ![3/5, 4/5, 0]) := rfl
  have d1 : data 1 = (![-3/5, 4/5, 0], ![-3/5, 4/5, 0]) := rfl
  refine ⟨svd, data, hsvd, ?_, ?_, ?_⟩
  · intro i hi
    rcases List.mem_pair.1 hi with rfl | rfl
    · rw [d0]
      norm_num [dot3, vcons2]
    · rw [d1]
      norm_num [dot3, vcons2]
  · have := C24_twopt_rotation_exact svd hsvd 1 ⟨by simp, by simp⟩ (data 0).2 (data 1).2 (by
      intro e
      have := congrFun e 2
      norm_num [d0, d1, cross_apply, vcons2] at this)
    rw [one_mulVec, one_mulVec] at this
    exact this
  · have hcen : centers [data 0, data 1] = some (![0, 4/5, 0], ![0, 4/5, 0]) := by
      have e : (2 : ℝ)⁻¹ • ((0 : Vec3) + ![3/5, 4/5, 0] + ![-3/5, 4/5, 0]) = ![0, 4/5, 0] := by
        funext k
        fin_cases k <;> norm_num
      simp only [centers, sumLoop, d0, d1, List.length_cons, List.length_nil]
      rw [if_neg (by norm_num), show ((0 + 1 + 1 : ℕ) : ℝ) = 2 by norm_num, e]
    have hH : hcross ![0, 4/5, 0] ![0, 4/5, 0] [data 0, data 1] = H0 := by
      simp only [hcross, hcrossLoop, d0, d1, hH0]
      apply mat3_ext <;> norm_num [vecMulVec, vcons2, diagonal, Fin.ext_iff]
    have hres : rotationOptimize svd data [0, 1] = some (arunR 1 V0) := by
      have e : [(0 : ℤ), 1].map data = [data 0, data 1] := rfl
      rw [rotationOptimize, e, rotationOnly, hcen]
      simp only [hH, hsvdd, if_true]
    obtain ⟨σ, hσ⟩ := hsvd H0
    simp only [hsvdd, if_true] at hσ
    have hrot := C22_arun_optimal H0 1 V0 σ hσ
    refine ⟨_, hres, ⟨hrot.1, hrot.2.1⟩, fun e => ?_⟩
    have hdet : V0.det = -1 := by simp [hV0, det_fin_three]
    have := congrFun (congrFun e 1) 1
    simp only [arunR, transpose_one, Matrix.mul_one, hdet] at this
    norm_num [hV0] at this

/-- Three points on the axes that are moved by `(1, 2, 3)`, and a wrong correspondence. -/
noncomputable def wholeSacEx (i : ℤ) : Vec3 × Vec3 :=
  if i = 0 then (![2, 2, 3], ![1, 0, 0])
  else if i = 1 then (![1, 3, 3], ![0, 1, 0])
  else if i = 2 then (![1, 2, 4], ![0, 0, 1]) else (![0, 0, 0], ![7, 0, 0])

/-- The three correct points as a sample: there is a run that finds at least three inliers. -/
example (svd : Mat3 → Mat3 × Mat3) (hsvd : ∀ H, ∃ σ, Spec.IsSvd H (svd H).1 (svd H).2 σ) :
    ∃ rng r, computeModel (single (pointCloud svd wholeSacEx) rng [0, 1, 2, 3]) (1 / 10) (99 / 100) 10
      (freshObj () [0, 1, 2, 3]) 200 = .done r ∧ r.ret = true ∧ 3 ≤ r.obj.inliers.length := by
  obtain ⟨m, hm⟩ : ∃ m, ((pointCloud svd wholeSacEx).compute () [0, 1, 2]).1 = some m := ⟨_, rfl⟩
  obtain ⟨rng, r, hr, hret, hsc, -⟩ := C70_reachable (pointCloud svd wholeSacEx) [0, 1, 2, 3] (1 / 10)
    (99 / 100) 10 (by norm_num) (by norm_num [intMax]) (fun m => by simp [pointCloud])
    (freshObj () [0, 1, 2, 3]) rfl (List.Perm.refl _) [0, 1, 2] (by simp)
    ⟨rfl, isSampleOf_of_subperm _ _ (by decide)⟩ rfl m hm
  have h := hr 200 (by norm_num)
  refine ⟨rng, r, h, hret, ?_⟩
  have := ((C70_point_cloud_exact svd hsvd wholeSacEx rng [0, 1, 2, 3] (1 / 10) (99 / 100) (by norm_num) 10
    (freshObj () [0, 1, 2, 3]) rfl (List.Perm.refl _) 200 r h ![1, 2, 3] 1 ⟨by simp, by simp⟩
    (fun i => i = 0 ∨ i = 1 ∨ i = 2)
    (by
      intro i hi
      simp only [decide_eq_true_eq] at hi
      rw [one_mulVec]
      rcases hi with rfl | rfl | rfl <;> funext k <;> fin_cases k <;> norm_num [wholeSacEx])).1
    0 1 2 m hsc (by simp) (by simp) (by simp) (by
      intro e
      have := congrFun e 0
      norm_num [wholeSacEx, cross_apply, vcons2] at this)).2.2
  simpa using this

/-- The result of this run has a refinement that is a rigid transformation. -/
example (svd : Mat3 → Mat3 × Mat3) (hsvd : ∀ H, ∃ σ, Spec.IsSvd H (svd H).1 (svd H).2 σ) (rng : ℕ → ℕ)
    (r : RansacReturn (Unit × List ℤ × ℕ) (List ℤ) Pose (List ℤ))
    (h : computeModel (single (pointCloud svd wholeSacEx) rng [0, 1, 2, 3]) (1 / 10) (99 / 100) 10
      (freshObj () [0, 1, 2, 3]) 200 = .done r) (hret : r.ret = true) (hin : 3 ≤ r.obj.inliers.length) :
    ∃ P, pointCloudOptimize svd wholeSacEx r.obj.inliers = some P ∧ IsRot P.2 := by
  obtain ⟨P, h1, h2, -⟩ := (C70_point_cloud svd hsvd wholeSacEx rng [0, 1, 2, 3] (1 / 10) (99 / 100) 10
    (freshObj () [0, 1, 2, 3]) rfl (List.Perm.refl _) 200 r h hret).2.2
    (by rintro e; rw [e] at hin; simp at hin)
  exact ⟨P, h1, h2⟩

/-- Two bearing vectors rotated by a quarter turn, and a wrong correspondence. -/
noncomputable def wholeSacRot (i : ℤ) : Vec3 × Vec3 :=
  if i = 0 then (![0, 1, 0], ![1, 0, 0])
  else if i = 1 then (![-1, 0, 0], ![0, 1, 0]) else (![1, 0, 0], ![0, 0, 1])

example (svd : Mat3 → Mat3 × Mat3) (hsvd : ∀ H, ∃ σ, Spec.IsSvd H (svd H).1 (svd H).2 σ) :
    ∃ rng r, computeModel (single (rotationProblem svd wholeSacRot) rng [0, 1, 2]) (1 / 10) (99 / 100) 10
      (freshObj () [0, 1, 2]) 200 = .done r ∧ r.ret = true ∧ 2 ≤ r.obj.inliers.length := by
  obtain ⟨m, hm⟩ : ∃ m, ((rotationProblem svd wholeSacRot).compute () [0, 1]).1 = some m := ⟨_, rfl⟩
  obtain ⟨rng, r, hr, hret, hsc, -⟩ := C70_reachable (rotationProblem svd wholeSacRot) [0, 1, 2] (1 / 10)
    (99 / 100) 10 (by norm_num) (by norm_num [intMax]) (fun m => by simp [rotationProblem])
    (freshObj () [0, 1, 2]) rfl (List.Perm.refl _) [0, 1] (by simp)
    ⟨rfl, isSampleOf_of_subperm _ _ (by decide)⟩ rfl m hm
  have h := hr 200 (by norm_num)
  refine ⟨rng, r, h, hret, ?_⟩
  have := ((C70_rotation_exact svd hsvd wholeSacRot rng [0, 1, 2] (1 / 10) (99 / 100) (by norm_num) 10
    (freshObj () [0, 1, 2]) rfl (List.Perm.refl _) 200 r h !![0, -1, 0; 1, 0, 0; 0, 0, 1]
    ⟨by apply mat3_ext <;> simp [Matrix.mul_apply, Fin.sum_univ_three, vcons2],
      by simp [det_fin_three]⟩
    (fun i => i = 0 ∨ i = 1)
    (by
      intro i hi
      simp only [decide_eq_true_eq] at hi
      rcases hi with rfl | rfl
      · refine ⟨?_, by norm_num [wholeSacRot, dot3]⟩
        funext k
        fin_cases k <;> norm_num [wholeSacRot, mulVec, dotProduct, Fin.sum_univ_three, vcons2]
      · refine ⟨?_, by norm_num [wholeSacRot, dot3]⟩
        funext k
        fin_cases k <;> norm_num [wholeSacRot, mulVec, dotProduct, Fin.sum_univ_three, vcons2])).1
    0 1 m hsc (by simp) (by simp) (by
      intro e
      have := congrFun e 2
      norm_num [wholeSacRot, cross_apply, vcons2] at this)).2.2
  simpa using this

/-- **C70 (central relative pose).** If a sample is scored whose correspondences are noise-free views of a
common relative pose, and the essential matrix of this pose is among those the solver returned for it, the
result has at least as many inliers as the sample has entries. If the solver returned only this matrix, the
hypothesis is the pose up to the length of the translation, and the result has at least as many inliers
as there are noise-free correspondences. -/
theorem C70_central_relative (sampleSize : ℕ) (solver : List (Vec3 × Vec3) → List Mat3)
    (svd : Mat3 → Mat3 × Mat3 × Vec3) (hsvd : ∀ E, IsSvd E (svd E).1 (svd E).2.1 (svd E).2.2) (nan : ℝ)
    (data : ℤ → Vec3 × Vec3) (rng : ℕ → ℕ) (indices : List ℤ) (thr prob : ℝ) (hthr : 0 < thr) (maxIt : ℤ)
    (obj : RansacObj (Unit × List ℤ × ℕ) (List ℤ) Pose (List ℤ)) (hfresh : obj.model = none)
    (hpool : obj.world.2.1.Perm indices) (fuel : ℕ)
    (r : RansacReturn (Unit × List ℤ × ℕ) (List ℤ) Pose (List ℤ))
    (h : computeModel (single (centralRelative sampleSize solver svd nan data) rng indices) thr prob maxIt
      obj fuel = .done r)
    (t : Vec3) (R : Mat3) (hR : IsRot R) (ht : t ≠ 0) (good : ℤ → Bool)
    (hgood : ∀ i, good i = true → Explains (t, R) (data i)) (s : List ℤ) (m : Pose)
    (hs : (s, m) ∈ r.final.scored) (hall : ∀ i ∈ s, good i = true) (k : ℝ) (hk : k ≠ 0) :
    (k • (skew t * R) ∈ solver (s.map data) →
      IsRot m.2 ∧ (∀ i ∈ s, Explains m (data i)) ∧ r.ret = true ∧ sampleSize ≤ r.obj.inliers.length) ∧
    (solver (s.map data) = [k • (skew t * R)] →
      m = (|k| • t, R) ∧ indices.countP good ≤ r.obj.inliers.length) := by
  obtain ⟨maxSkip, -, hl, -⟩ := computeModel_done _ _ _ _ _ _ _ h
  obtain ⟨hempty, ⟨w, pool, pos⟩, hw⟩ := (rinv_final _ _ _ _ _ _ _ _ hl).comp _ hs
  simp only [single, centralRelative] at hw hempty
  obtain ⟨hlen, hsub⟩ := scored_subperm _ rng indices thr prob maxIt obj hpool fuel r h _ hs
  obtain ⟨h1, h2⟩ := result_support _ rng indices thr prob maxIt obj hfresh hpool
    (fun m => by simp [centralRelative]) fuel r h _ hs
  have hsample : ∀ c ∈ s.map data, Explains (t, R) c := by
    intro c hc
    obtain ⟨i, hi, rfl⟩ := List.mem_map.1 hc
    exact hgood i (hall i hi)
  have hzero : ∀ (P : Pose) (i : ℤ), IsRot P.2 → Explains P (data i) →
      (relScore P.1 P.2 (data i).1 (data i).2).getD nan < thr := by
    intro P i hP hE
    rw [(C50_two_view P.1 P.2 _ _ hP.1 hE.1 hE.2.1).2.2 hE.2.2]
    exact hthr
  refine ⟨fun hE => ?_, fun hE => ?_⟩
  · obtain ⟨P, hP, -, hPR, hex⟩ := C53_explains_sample svd hsvd (s.map data) _ t R k hR ht hk hE hsample
    rw [hP] at hw
    cases hw
    have hexi : ∀ i ∈ s, Explains m (data i) := fun i hi => hex _ (List.mem_map_of_mem hi)
    refine ⟨hPR, hexi, h1, le_trans ?_ h2⟩
    have hl' : s.length = sampleSize := hlen
    rw [← hl']
    exact support_sample _ thr indices s hsub fun i hi => hzero m i hPR (hexi i hi)
  · have hne : s.map data ≠ [] := by
      rintro h0
      rw [List.map_eq_nil_iff] at h0
      simp [h0] at hempty
    rw [hE, C53_exact_recovery svd hsvd (s.map data) t R k hR ht hk hne hsample] at hw
    cases hw
    refine ⟨rfl, le_trans (support_map _ thr good (fun i gi => ?_) indices) h2⟩
    refine hzero (|k| • t, R) i hR ?_
    obtain ⟨u1, u2, hn, a, b, ha, hb, e⟩ := hgood i gi
    have hkp := abs_pos.2 hk
    refine ⟨u1, u2, hn, |k| * a, |k| * b, mul_pos hkp ha, mul_pos hkp hb, ?_⟩
    rw [mul_smul, mul_smul, e, smul_add]

/-- **C70 (absolute pose).** For every algorithm, adapter and state: if the true pose is among the scored
hypotheses, the result has at least as many inliers as there are points that are seen without noise. -/
theorem C70_absolute {σ : Type} (U : UserProblem σ Pose) (obs : ℤ → Adapters.AbsObs) (nan : ℝ)
    (hU : ∀ m is, U.dist m is = is.map fun i =>
      (absScore m (obs i).off (obs i).rot (obs i).p (obs i).f).getD nan)
    (rng : ℕ → ℕ) (indices : List ℤ) (thr prob : ℝ) (hthr : 0 < thr) (maxIt : ℤ)
    (obj : RansacObj (σ × List ℤ × ℕ) (List ℤ) Pose (List ℤ)) (hfresh : obj.model = none)
    (hpool : obj.world.2.1.Perm indices) (fuel : ℕ)
    (r : RansacReturn (σ × List ℤ × ℕ) (List ℤ) Pose (List ℤ))
    (h : computeModel (single U rng indices) thr prob maxIt obj fuel = .done r)
    (P : Pose) (good : ℤ → Bool)
    (hgood : ∀ i, good i = true → (obs i).f ⬝ᵥ (obs i).f = 1 ∧
      ∃ d : ℝ, 0 < d ∧ absReprojection P (obs i).off (obs i).rot (obs i).p = d • (obs i).f)
    (s : List ℤ) (hs : (s, P) ∈ r.final.scored) :
    r.ret = true ∧ indices.countP good ≤ r.obj.inliers.length := by
  obtain ⟨h1, h2⟩ := result_support U rng indices thr prob maxIt obj hfresh hpool
    (fun m => by simp [hU]) fuel r h _ hs
  refine ⟨h1, le_trans ?_ h2⟩
  rw [hU]
  refine support_map _ thr good (fun i gi => ?_) indices
  obtain ⟨u, hd⟩ := hgood i gi
  rw [(C50_absolute P _ _ _ _ u).2.2.2 hd]
  exact hthr

/-- **C70 (`ge` without parallax).** If the bearing vectors of the two rigs differ by a rotation `R` only
(all points far away), at least three of them being different, the starting rotation of `ge` is `R`. There
the cost has no defined value, and the result is NaN, for all camera offsets and weights. -/
theorem C70_ge_no_parallax (svd : Mat3 → Mat3 × Mat3)
    (hsvd : ∀ H, ∃ σ, Spec.IsSvd H (svd H).1 (svd H).2 σ)
    (D : Matrix (Fin 4) (Fin 4) ℝ → Fin 4 → ℂ)
    (V : Matrix (Fin 4) (Fin 4) ℝ → Matrix (Fin 4) (Fin 4) ℂ) (sort : (Fin 4 → ℂ) → Equiv.Perm (Fin 4))
    (step : Vec3 → ℝ → Vec3 → Vec3) (fuel : ℕ) (hf : 0 < fuel) (rnd : ℕ → Vec3) (cs : List GeCorr)
    (R : Mat3) (hR : IsRot R)
    (hcs : ∀ d ∈ cs, d.camRotation1 *ᵥ d.f1 = R *ᵥ (d.camRotation2 *ᵥ d.f2) ∧
      (d.camRotation2 *ᵥ d.f2) ⬝ᵥ (d.camRotation2 *ᵥ d.f2) = 1)
    (d1 d2 d3 : GeCorr) (h1 : d1 ∈ cs) (h2 : d2 ∈ cs) (h3 : d3 ∈ cs)
    (h12 : d1.camRotation2 *ᵥ d1.f2 ≠ d2.camRotation2 *ᵥ d2.f2)
    (h13 : d1.camRotation2 *ᵥ d1.f2 ≠ d3.camRotation2 *ᵥ d3.f2)
    (h23 : d2.camRotation2 *ᵥ d2.f2 ≠ d3.camRotation2 *ᵥ d3.f2) :
    geStartRotation svd cs = some R ∧ ge svd D V sort step fuel rnd cs = some none := by
  have hstart : geStartRotation svd cs = some R := by
    have e : (cs.map fun d => (d.camRotation1 *ᵥ d.f1, d.camRotation2 *ᵥ d.f2)) =
        (cs.map fun d => d.camRotation2 *ᵥ d.f2).map fun q => (R *ᵥ q, q) := by
      rw [List.map_map]
      refine List.map_congr_left fun d hd => ?_
      exact Prod.ext (hcs d hd).1 rfl
    rw [geStartRotation, e]
    refine C24_rotation_only_exact svd hsvd R hR _ ?_ _ _ _ (List.mem_map_of_mem h1)
      (List.mem_map_of_mem h2) (List.mem_map_of_mem h3) h12 h13 h23
    intro q hq
    obtain ⟨d, hd, rfl⟩ := List.mem_map.1 hq
    exact (hcs d hd).2
  refine ⟨hstart, ?_⟩
  rw [ge, hstart, Option.bind_some]
  cases hc : rot2cayley R with
  | none => rfl
  | some c =>
    have htr : R.trace ≠ -1 := fun h0 => by
      rw [(C19_undefined_iff_half_turn R hR).1.2 h0] at hc
      cases hc
    obtain ⟨c', hc', hcR⟩ := C19_cayley2rot_rot2cayley R hR htr
    rw [hc] at hc'
    cases hc'
    obtain ⟨hsym, hform⟩ := C40_form cs c
    have hzero : composeG (geSums cs) c = 0 := by
      have hq : ∀ v : Fin 4 → ℝ, v ⬝ᵥ (composeG (geSums cs) c *ᵥ v) = 0 := by
        intro v
        rw [hform v]
        have : (cs.map fun d => d.weight * corrResidual d (cayley2rot c) v ^ 2) = cs.map fun _ => (0 : ℝ) :=
          List.map_congr_left fun d hd => by
            rw [corrResidual, genResidual, hcR, (hcs d hd).1, cross_self]
            simp
        rw [this]
        simp
      have hpol : ∀ u v : Fin 4 → ℝ, u ⬝ᵥ (composeG (geSums cs) c *ᵥ v) = 0 := by
        intro u v
        have e := hq (u + v)
        rw [mulVec_add, add_dotProduct, dotProduct_add, dotProduct_add, hq u, hq v] at e
        have e2 : v ⬝ᵥ (composeG (geSums cs) c *ᵥ u) = u ⬝ᵥ (composeG (geSums cs) c *ᵥ v) := by
          rw [dotProduct_mulVec, ← mulVec_transpose, hsym, dotProduct_comm]
        linarith
      ext i j
      have := hpol (Pi.single i 1) (Pi.single j 1)
      simpa [single_one_dotProduct] using this
    have hcost : getCost (geSums cs) c 1 = none := by
      have : getEV (composeG (geSums cs) c) = none := by
        rw [(C55_getEV (geSums cs) c).1]
        refine ⟨0, 0, fun z => ?_⟩
        rw [hzero, sub_zero, det_smul]
        simp
        ring
      simp [getCost, this]
    have hsearch : geSearch (geSums cs) step fuel c rnd = some none := by
      obtain ⟨m, rfl⟩ := Nat.exists_eq_add_of_le' hf
      have hst : geStart c rnd 0 = c := by simp [geStart]
      have hit : geIteration (fun c => getCost (geSums cs) c 1) step (m + 1) true ⟨some c, none, 0.01⟩ =
          some ⟨none, none, 0.01⟩ := by
        simp [geIteration, growLoop, shrinkLoop, nanLt, getQuickJacobian, normalizedJacobian]
      rw [geSearch, geTrials, hst]
      simp only [hcost]
      rw [geDescend, hit, Option.bind_some, if_neg (by norm_num),
        geDescend_nan _ step (m + 1) 49 hf _ (by norm_num)]
      rfl
    simp only [hsearch, Option.map_some, Option.bind_none]

theorem relSacEx_explains (i : ℤ) (hi : i = 0 ∨ i = 1) : Explains (![3, 0, 0], 1) (relSacEx i) := by
  rcases hi with rfl | rfl
  · refine ⟨by norm_num [relSacEx, dot3], by norm_num [relSacEx, dot3], ?_, 5, 4, by norm_num,
      by norm_num, ?_⟩
    · rintro ⟨a, b, hab, h⟩
      have h0 := congrFun h 0
      have h1 := congrFun h 1
      norm_num [relSacEx, vcons2] at h0 h1
      rw [h0] at h1
      norm_num at h1
      rcases hab with h | h
      · exact h h0
      · exact h h1.symm
    · funext k
      fin_cases k <;> norm_num [relSacEx]
  · refine ⟨by norm_num [relSacEx, dot3], by norm_num [relSacEx, dot3], ?_, 5, 4, by norm_num,
      by norm_num, ?_⟩
    · rintro ⟨a, b, hab, h⟩
      have h0 := congrFun h 0
      have h1 := congrFun h 2
      norm_num [relSacEx, vcons2] at h0 h1
      rw [h0] at h1
      norm_num at h1
      rcases hab with h | h
      · exact h h0
      · exact h h1.symm
    · funext k
      fin_cases k <;> norm_num [relSacEx]

/-- The central problem with a solver that knows the essential matrix. -/
example : ∃ (svd : Mat3 → Mat3 × Mat3 × Vec3) (rng : ℕ → ℕ)
    (r : RansacReturn (Unit × List ℤ × ℕ) (List ℤ) Pose (List ℤ)),
    computeModel (single (centralRelative 2 (fun _ => [(1 : ℝ) • (skew ![3, 0, 0] * 1)]) svd 9 relSacEx) rng
      [0, 1, 2]) (1 / 10) (99 / 100) 10 (freshObj () [0, 1, 2]) 200 = .done r ∧ r.ret = true ∧
      2 ≤ r.obj.inliers.length := by
  obtain ⟨svd0, h0⟩ := exists_svd_fun 3
  choose σ hσ using h0
  have hsvd : ∀ E : Mat3, IsSvd E ((svd0 E).1, (svd0 E).2, σ E).1 ((svd0 E).1, (svd0 E).2, σ E).2.1
    ((svd0 E).1, (svd0 E).2, σ E).2.2 := hσ
  set svd : Mat3 → Mat3 × Mat3 × Vec3 := fun E => ((svd0 E).1, (svd0 E).2, σ E)
  have ht : (![3, 0, 0] : Vec3) ≠ 0 := fun e => by
    have := congrFun e 0
    norm_num at this
  have hex : ∀ c ∈ [(0 : ℤ), 1].map relSacEx, Explains (![3, 0, 0], 1) c := by
    intro c hc
    obtain ⟨i, hi, rfl⟩ := List.mem_map.1 hc
    exact relSacEx_explains i (by simpa using hi)
  have hm := C53_exact_recovery svd hsvd ([(0 : ℤ), 1].map relSacEx) ![3, 0, 0] 1 1 ⟨by simp, by simp⟩ ht one_ne_zero
    (by simp) hex
  obtain ⟨rng, r, hr, hret, hsc, -⟩ := C70_reachable
    (centralRelative 2 (fun _ => [(1 : ℝ) • (skew ![3, 0, 0] * 1)]) svd 9 relSacEx) [0, 1, 2] (1 / 10)
    (99 / 100) 10 (by norm_num) (by norm_num [intMax]) (fun m => by simp [centralRelative])
    (freshObj () [0, 1, 2]) rfl (List.Perm.refl _) [0, 1] (by simp)
    ⟨rfl, isSampleOf_of_subperm _ _ (by decide)⟩ rfl _ hm
  have h := hr 200 (by norm_num)
  refine ⟨svd, rng, r, h, hret, ?_⟩
  exact ((C70_central_relative 2 _ svd hsvd 9 relSacEx rng [0, 1, 2] (1 / 10) (99 / 100) (by norm_num) 10
    (freshObj () [0, 1, 2]) rfl (List.Perm.refl _) 200 r h ![3, 0, 0] 1 ⟨by simp, by simp⟩ ht
    (fun i => i = 0 ∨ i = 1) (fun i hi => relSacEx_explains i (by simpa using hi)) [0, 1] _ hsc
    (by simp) 1 one_ne_zero).1 (by simp)).2.2.2

/-- Points in front of a camera at the origin, seen without noise for the indices 0 and 1. -/
noncomputable def wholeSacAbs (i : ℤ) : Adapters.AbsObs :=
  if i = 0 then ⟨![0, 0, 1], ![0, 0, 4], 0, 1⟩
  else if i = 1 then ⟨![0, 3/5, 4/5], ![0, 3, 4], 0, 1⟩ else ⟨![1, 0, 0], ![0, 3, 4], 0, 1⟩

/-- An algorithm that returns the pose of the camera. -/
noncomputable def wholeSacAbsProblem : UserProblem Unit Pose where
  sampleSize := 2
  isSampleGood := fun _ _ => true
  compute := fun w _ => (some (0, 1), w)
  dist := fun m is => is.map fun i => (absScore m (wholeSacAbs i).off (wholeSacAbs i).rot (wholeSacAbs i).p
    (wholeSacAbs i).f).getD 9
  distEffect := fun w _ => w

example : ∃ rng r, computeModel (single wholeSacAbsProblem rng [0, 1, 2]) (1 / 10) (99 / 100) 10
    (freshObj () [0, 1, 2]) 200 = .done r ∧ r.ret = true ∧ 2 ≤ r.obj.inliers.length := by
  obtain ⟨rng, r, hr, hret, hsc, -⟩ := C70_reachable wholeSacAbsProblem [0, 1, 2] (1 / 10)
    (99 / 100) 10 (by norm_num) (by norm_num [intMax]) (fun m => by simp [wholeSacAbsProblem])
    (freshObj () [0, 1, 2]) rfl (List.Perm.refl _) [0, 2] (by simp)
    ⟨rfl, isSampleOf_of_subperm _ _ (by decide)⟩ rfl (0, 1) rfl
  have h := hr 200 (by norm_num)
  refine ⟨rng, r, h, hret, ?_⟩
  have := (C70_absolute wholeSacAbsProblem wholeSacAbs 9 (fun _ _ => rfl) rng [0, 1, 2] (1 / 10) (99 / 100)
    (by norm_num) 10 (freshObj () [0, 1, 2]) rfl (List.Perm.refl _) 200 r h (0, 1)
    (fun i => i = 0 ∨ i = 1)
    (by
      intro i hi
      simp only [decide_eq_true_eq] at hi
      rcases hi with rfl | rfl
      · refine ⟨by norm_num [wholeSacAbs, dot3], 4, by norm_num, ?_⟩
        funext k
        fin_cases k <;> norm_num [wholeSacAbs, absReprojection]
      · refine ⟨by norm_num [wholeSacAbs, dot3], 5, by norm_num, ?_⟩
        funext k
        fin_cases k <;> norm_num [wholeSacAbs, absReprojection]) [0, 2] hsc).2
  simpa using this

/-- The hypotheses of `C70_ge_no_parallax` for three bearing vectors of cameras with different offsets. -/
noncomputable def wholeSacGe : List GeCorr :=
  [⟨1, ![1, 0, 0], ![1, 0, 0], 1, 1, ![1, 0, 0], 0⟩, ⟨1, ![0, 1, 0], ![0, 1, 0], 1, 1, ![0, 1, 0], ![0, 0, 1]⟩,
    ⟨2, ![0, 0, 1], ![0, 0, 1], 1, 1, 0, ![0, 2, 0]⟩]

example (svd : Mat3 → Mat3 × Mat3) (hsvd : ∀ H, ∃ σ, Spec.IsSvd H (svd H).1 (svd H).2 σ)
    (D : Matrix (Fin 4) (Fin 4) ℝ → Fin 4 → ℂ)
    (V : Matrix (Fin 4) (Fin 4) ℝ → Matrix (Fin 4) (Fin 4) ℂ) (sort : (Fin 4 → ℂ) → Equiv.Perm (Fin 4))
    (step : Vec3 → ℝ → Vec3 → Vec3) (rnd : ℕ → Vec3) :
    ge svd D V sort step 1 rnd wholeSacGe = some none := by
  refine (C70_ge_no_parallax svd hsvd D V sort step 1 one_pos rnd wholeSacGe 1 ⟨by simp, by simp⟩ ?_ _ _ _
    List.mem_cons_self (List.mem_cons_of_mem _ List.mem_cons_self)
    (List.mem_cons_of_mem _ (List.mem_cons_of_mem _ List.mem_cons_self)) ?_ ?_ ?_).2
  · intro d hd
    simp only [wholeSacGe, List.mem_cons, List.not_mem_nil, or_false] at hd
    rcases hd with rfl | rfl | rfl <;> simp
  · intro e
    have := congrFun e 0
    simp at this
  · intro e
    have := congrFun e 0
    simp at this
  · intro e
    have := congrFun e 1
    simp at this

end OpenGV.Props
