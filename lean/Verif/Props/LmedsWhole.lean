import Verif.Proof.LmedsWhole
import Verif.Model.LmedsNan
import Verif.Spec.StrictWeak
import Verif.Props.WholeSac
import Mathlib.Analysis.Real.Sqrt

/-!
# Property C71: LMedS tolerates less than half outliers
-/

namespace OpenGV.Props

open Matrix hiding single
open OpenGV.Spec Sac WholeSac

/-- **C71 (breakdown point).** If a scored hypothesis has more than half of its distances at most `e`, LMedS
on a fresh object returns true, and for the returned model at least half of the distances are at most `e`,
and more than half at most `√2 e`. -/
theorem C71_breakdown {σ M : Type} (U : UserProblem σ M) (rng : ℕ → ℕ) (indices : List ℤ) (thr : ℝ)
    (hthr : thr ≠ dblMax) (maxIt : ℤ) (hdist : ∀ m, (U.dist m indices).length = indices.length)
    (obj : RansacObj (σ × List ℤ × ℕ) (List ℤ) M (List ℤ)) (hfresh : obj.model = none)
    (hpool : obj.world.2.1.Perm indices) (fuel : ℕ) (r : LmReturn σ M)
    (h : lmedsCompute U rng indices thr maxIt obj fuel = .done r) (x : List ℤ × M)
    (hx : x ∈ r.final.scored) (e : ℝ) (he : 0 ≤ e) (hmax : e ^ 2 < (2 - 2⁻¹ ^ 52) * 2 ^ 1023)
    (hhalf : indices.length / 2 < (U.dist x.2 indices).countP fun d => d ≤ e) :
    r.ret = true ∧ ∃ m, r.obj.coeffs = some m ∧
      (indices.length + 1) / 2 ≤ ((U.dist m indices).countP fun d => d ≤ e) ∧
      indices.length / 2 < ((U.dist m indices).countP fun d => d ≤ √2 * e) ∧
      (e ≤ thr → (indices.length + 1) / 2 ≤ r.obj.inliers.length) ∧
      (√2 * e ≤ thr → indices.length / 2 < r.obj.inliers.length) := by
  have hne : indices ≠ [] := by
    rintro rfl
    have : U.dist x.2 [] = [] := List.length_eq_zero_iff.1 (hdist x.2)
    rw [this] at hhalf
    simp at hhalf
  have hdm : dblMax = (2 - 2⁻¹ ^ 52) * 2 ^ 1023 := by
    rw [dblMax, inv_pow, one_div]
  have hxne : U.dist x.2 indices ≠ [] := by
    rw [← List.length_pos_iff, hdist]
    exact List.length_pos_iff.2 hne
  obtain ⟨vx, hvx, -⟩ := C10_median_exists_unique _ hxne
  have hvxe : vx ≤ e ^ 2 := by
    refine median_le hvx ?_
    rw [countP_sq _ he rfl, List.length_map, hdist]
    exact hhalf
  have hret : r.ret = true :=
    (C11_return_value U rng indices thr hthr hne maxIt hdist obj hfresh hpool r fuel h).2
      ⟨x, hx, vx, hvx, by rw [hdm]; exact hvxe.trans_lt hmax⟩
  obtain ⟨pre, s, m, post, v, h1, h2, h3, -, -, hv, hpre, hpost⟩ := C10_minimal_median U rng indices thr
    maxIt hdist obj hfresh hpool r fuel h hret
  have hvle : v ≤ vx := by
    rw [h1] at hx
    rcases List.mem_append.1 hx with hx | hx
    · exact (hpre _ hx _ hvx).le
    · rcases List.mem_cons.1 hx with hx | hx
      · subst hx
        exact (isMedian_unique _ _ _ hv hvx).le
      · exact hpost _ hx _ hvx
  obtain ⟨c1, c2⟩ := le_of_median hv (hvle.trans hvxe) (by
    intro y hy
    obtain ⟨d, -, rfl⟩ := List.mem_map.1 hy
    positivity) (by
    rw [← List.length_pos_iff, List.length_map, hdist]
    exact List.length_pos_iff.2 hne)
  rw [List.length_map, hdist, countP_sq _ he rfl] at c1
  rw [List.length_map, hdist, countP_sq _ (mul_nonneg (Real.sqrt_nonneg 2) he) (by
    rw [mul_pow, Real.sq_sqrt (by norm_num)])] at c2
  obtain ⟨m', f1, f2⟩ := (C11_inliers U rng indices thr maxIt hdist obj r fuel h).1 hret
  rw [h3] at f1
  cases f1
  have hlen := selected_length (· ≤ thr) _ _ _ f2
  refine ⟨hret, m, h3, c1, c2, fun ht => ?_, fun ht => ?_⟩
  · rw [hlen]
    exact c1.trans (countP_le_mono _ ht)
  · rw [hlen]
    exact c2.trans_le (countP_le_mono _ ht)

/-- A problem with two indices: the hypothesis 5 fits the first exactly and not the second, the hypothesis 6
fits both badly. -/
noncomputable def halfProblem : UserProblem Unit ℤ where
  sampleSize := 1
  isSampleGood := fun _ _ => true
  compute := fun w s => (s.head?, w)
  dist := fun m _ => if m = 5 then [0, 10] else [1, 1]
  distEffect := fun w _ => w

/-- **C71 (half is not enough).** If only half of the distances of a scored hypothesis are zero, the returned
model may have none that is zero. -/
theorem C71_half_not_enough : ∃ r, lmedsCompute halfProblem (fun k => k) [5, 6] 2 2
    ⟨((), [5, 6], 0), 0, none, none, []⟩ 3 = .done r ∧ r.ret = true ∧
    ([5], 5) ∈ r.final.scored ∧ ((halfProblem.dist 5 [5, 6]).countP fun d => d ≤ 0) = 1 ∧
    ∃ m, r.obj.coeffs = some m ∧ ((halfProblem.dist m [5, 6]).countP fun d => d ≤ 0) = 0 := by
  have hlt : (50 : ℝ) < dblMax := by
    have h1 : (2 : ℝ) ^ 6 ≤ 2 ^ 1023 := pow_le_pow_right₀ (by norm_num) (by norm_num)
    have h2 : (1 : ℝ) ≤ 2 - 1 / 2 ^ 52 := by norm_num
    unfold dblMax
    generalize (2 : ℝ) ^ 1023 = x at *
    nlinarith
  have hne : (2 : ℝ) ≠ dblMax := by
    intro e
    rw [← e] at hlt
    norm_num at hlt
  have hms : maxSkipOf 2 = some 20 := by rfl
  refine ⟨?_, ?_, ?_, ?_, ?_, ?_⟩
  rotate_left
  · unfold lmedsCompute
    rw [if_neg hne, hms]
    simp [lmedsLoop, lmedsInit, lmedsBody, single, halfProblem, getSamples,
      getSamplesLoop, maxSampleChecks, drawIndexSample, drawLoop, drawStep, vecSwap, lmedsScore,
      lmedsPenalty, clipSquare]
    norm_num [List.insertionSort, List.orderedInsert, hlt]
    simp [clipSquare]
    norm_num [List.insertionSort, List.orderedInsert]
    rfl
  · rfl
  · simp
  · norm_num [halfProblem]
  · exact ⟨6, rfl, by norm_num [halfProblem]⟩

/-- **C71 (every sample can win).** As for RANSAC, every sample that gives a hypothesis is the first one
scored for some generator outputs. -/
theorem C71_reachable {σ M : Type} (U : UserProblem σ M) (indices : List ℤ) (thr : ℝ) (hthr : thr ≠ dblMax)
    (maxIt : ℤ) (hmax : 1 ≤ maxIt) (hbig : 10 * maxIt ≤ intMax)
    (hdist : ∀ m, (U.dist m indices).length = indices.length)
    (obj : RansacObj (σ × List ℤ × ℕ) (List ℤ) M (List ℤ)) (hfresh : obj.model = none)
    (hpool : obj.world.2.1.Perm indices) (s : List ℤ) (hne : s ≠ [])
    (hs : IsSampleOf indices U.sampleSize s) (hgood : U.isSampleGood obj.world.1 s = true) (m : M)
    (hm : (U.compute obj.world.1 s).1 = some m) :
    ∃ rng r, (∀ fuel : ℕ, 11 * maxIt + 1 ≤ fuel →
      lmedsCompute U rng indices thr maxIt obj fuel = .done r) ∧ (s, m) ∈ r.final.scored := by
  obtain ⟨⟨w, pool, pos⟩, it, mo, co, ins⟩ := obj
  simp only at hfresh hpool hgood hm
  have hlen := hs.1
  have hsub := isSampleOf_subperm hs
  have hsp : IsSampleOf pool s.length s :=
    ⟨rfl, isSampleOf_of_subperm _ _ (hsub.trans hpool.symm.subperm)⟩
  have hine : indices ≠ [] := by
    rintro rfl
    exact hne (List.subperm_nil.1 hsub)
  obtain ⟨rng, pool', pos', hd⟩ := C03_every_sample_reachable pool s pos hsp
  obtain ⟨r, hr, -⟩ := C11_terminates_within_budget U rng indices thr hthr maxIt (by omega) hbig hdist
    ⟨(w, pool, pos), it, mo, co, ins⟩ hpool (by rw [hfresh]; simp)
  have hrun := hr (11 * maxIt + 1).toNat (by omega)
  have hget : (single U rng indices).getSamples (w, pool, pos) = some (.sample s, w, pool', pos') := by
    have h1 : getSamples rng (U.isSampleGood w) U.sampleSize indices pos pool =
        some (.sample s, pool', pos') := by
      unfold getSamples
      rw [if_neg (by rw [← hlen]; exact not_lt.2 hsub.length_le)]
      rw [show maxSampleChecks = 9 + 1 from rfl, getSamplesLoop, ← hlen, hd]
      simp [hgood]
    simp only [single, h1]
  have hp' : pool'.Perm indices := by
    obtain ⟨res, w', h1, h2, -⟩ := single_getSamples U rng indices (w, pool, pos) hpool
    rw [hget] at h1
    cases h1
    exact h2
  exact ⟨rng, r, hr, lmeds_scores_first U rng indices hine thr hthr maxIt hmax hbig hdist
    ⟨(w, pool, pos), it, mo, co, ins⟩ s hne (w, pool', pos') hp' hget m hm _ r hrun⟩

/-- **C71 (point clouds, exact recovery).** If at least `⌈n/2⌉ + 2` of the `n` points are moved by the same
rigid transformation, no three of them are on a line, and one sample of such points is scored, LMedS returns
exactly this transformation, whatever the other points are. The inliers contain these points. -/
theorem C71_point_cloud_exact (svd : Mat3 → Mat3 × Mat3)
    (hsvd : ∀ H, ∃ σ, Spec.IsSvd H (svd H).1 (svd H).2 σ) (data : ℤ → Vec3 × Vec3) (rng : ℕ → ℕ)
    (indices : List ℤ) (hnodup : indices.Nodup) (thr : ℝ) (hthr : thr ≠ dblMax) (maxIt : ℤ)
    (obj : RansacObj (Unit × List ℤ × ℕ) (List ℤ) Pose (List ℤ)) (hfresh : obj.model = none)
    (hpool : obj.world.2.1.Perm indices) (fuel : ℕ) (r : LmReturn Unit Pose)
    (h : lmedsCompute (pointCloud svd data) rng indices thr maxIt obj fuel = .done r)
    (t : Vec3) (R : Mat3) (hR : IsRot R) (good : ℤ → Bool)
    (hgood : ∀ i ∈ indices, good i = true → (data i).1 = R *ᵥ (data i).2 + t)
    (hgeneral : ∀ a ∈ indices, ∀ b ∈ indices, ∀ c ∈ indices, good a = true → good b = true →
      good c = true → a ≠ b → a ≠ c → b ≠ c →
      crossProduct ((data b).2 - (data a).2) ((data c).2 - (data a).2) ≠ 0)
    (hcount : (indices.length + 1) / 2 + 2 ≤ indices.countP good)
    (x : List ℤ × Pose) (hx : x ∈ r.final.scored) (hclean : ∀ i ∈ x.1, good i = true) :
    r.ret = true ∧ r.obj.coeffs = some (t, R) ∧
      (0 ≤ thr → ∀ i ∈ indices, good i = true → i ∈ r.obj.inliers) := by
  have hdist : ∀ m, ((pointCloud svd data).dist m indices).length = indices.length :=
    fun m => by simp [pointCloud]
  have hex : ∀ (a b c : ℤ) (t : Vec3) (R : Mat3), IsRot R →
      (∀ i ∈ [a, b, c], (data i).1 = R *ᵥ (data i).2 + t) →
      crossProduct ((data b).2 - (data a).2) ((data c).2 - (data a).2) ≠ 0 →
      arunComplete svd ([a, b, c].map data) = some (t, R) := by
    intro a b c t R hR hall hline
    have e : [a, b, c].map data = ([a, b, c].map fun i => (data i).2).map fun q => (R *ᵥ q + t, q) := by
      rw [List.map_map]
      exact List.map_congr_left fun i hi => Prod.ext (hall i hi) rfl
    rw [e]
    exact C24_points_exact svd hsvd R hR t _ (data a).2 (data b).2 (data c).2 (by simp) (by simp) (by simp)
      hline
  obtain ⟨hl3, hsub, w, hw⟩ := lmeds_scored _ rng indices thr hthr maxIt hdist obj hpool fuel r h x hx
  obtain ⟨s, m0⟩ := x
  obtain ⟨a, b, c, rfl⟩ := List.length_eq_three.1 hl3
  have hnd : [a, b, c].Nodup := by
    obtain ⟨l, hl, hl2⟩ := hsub
    exact hl.nodup_iff.1 (hl2.nodup hnodup)
  simp only [List.nodup_cons, List.mem_cons, List.not_mem_nil, or_false, not_or] at hnd
  have hmem : ∀ i ∈ [a, b, c], i ∈ indices := fun i hi => hsub.subset hi
  have hm0 : m0 = (t, R) := by
    simp only [pointCloud] at hw
    rw [hex a b c t R hR (fun i hi => hgood i (hmem i hi) (hclean i hi))
      (hgeneral a (hmem a (by simp)) b (hmem b (by simp)) c (hmem c (by simp)) (hclean a (by simp))
        (hclean b (by simp)) (hclean c (by simp)) hnd.1.1 hnd.1.2 hnd.2.1)] at hw
    exact (Option.some.inj hw).symm
  subst hm0
  have hscore : ∀ i ∈ indices, good i = true → cloudScore (t, R) (data i).1 (data i).2 = 0 := by
    intro i hi gi
    simp only [cloudScore]
    rw [hgood i hi gi, sub_self]
    simp [norm3]
  have hhalf : indices.length / 2 <
      ((pointCloud svd data).dist (t, R) indices).countP fun d => decide (d ≤ 0) := by
    have : indices.countP good ≤ ((pointCloud svd data).dist (t, R) indices).countP fun d => decide (d ≤ 0) := by
      simp only [pointCloud]
      rw [List.countP_map]
      exact List.countP_mono_left fun i hi gi => by simp [hscore i hi gi]
    omega
  obtain ⟨hret, m, hm, -, hmaj, -⟩ := C71_breakdown _ rng indices thr hthr maxIt hdist obj hfresh hpool fuel r
    h _ hx 0 le_rfl (by norm_num) hhalf
  rw [mul_zero] at hmaj
  have hmR : IsRot m.2 := by
    obtain ⟨-, s', m', -, -, -, -, e3, ⟨w', hw'⟩, hs', -⟩ := C10_minimal_median _ rng indices thr maxIt hdist obj
      hfresh hpool r fuel h hret
    rw [hm] at e3
    cases e3
    have hne : s'.map data ≠ [] := by
      have : s'.length = 3 := hs'.1
      rw [← List.length_pos_iff, List.length_map]
      omega
    obtain ⟨t', R', e, h1, h2, -⟩ := C23_alignment_optimal svd hsvd (s'.map data) hne
    simp only [pointCloud] at hw'
    rw [e] at hw'
    rw [← Option.some.inj hw']
    exact ⟨h1, h2⟩
  have hm2 : m = (t, R) := by
    simp only [pointCloud] at hmaj
    rw [List.countP_map] at hmaj
    have h3 := countP_and good ((fun d => decide (d ≤ 0)) ∘ fun i => cloudScore m (data i).1 (data i).2) indices
    obtain ⟨a, b, c, ⟨ia, pa⟩, ⟨ib, pb⟩, ⟨ic, pc⟩, hab, hac, hbc⟩ := three_of_countP _ indices hnodup
      (show 3 ≤ indices.countP (fun i => good i &&
        ((fun d => decide (d ≤ 0)) ∘ fun i => cloudScore m (data i).1 (data i).2) i) by omega)
    simp only [Bool.and_eq_true, Function.comp, decide_eq_true_eq] at pa pb pc
    have hfit : ∀ i, cloudScore m (data i).1 (data i).2 ≤ 0 → (data i).1 = m.2 *ᵥ (data i).2 + m.1 := by
      intro i hi
      have h0 : cloudScore m (data i).1 (data i).2 = 0 := le_antisymm hi (norm3_nonneg _)
      exact sub_eq_zero.1 (norm3_eq_zero.1 h0)
    have hline := hgeneral a ia b ib c ic pa.1 pb.1 pc.1 hab hac hbc
    have e1 := hex a b c t R hR (by
      intro i hi
      simp only [List.mem_cons, List.not_mem_nil, or_false] at hi
      rcases hi with rfl | rfl | rfl
      · exact hgood _ ia pa.1
      · exact hgood _ ib pb.1
      · exact hgood _ ic pc.1) hline
    have e2 := hex a b c m.1 m.2 hmR (by
      intro i hi
      simp only [List.mem_cons, List.not_mem_nil, or_false] at hi
      rcases hi with rfl | rfl | rfl
      · exact hfit _ pa.2
      · exact hfit _ pb.2
      · exact hfit _ pc.2) hline
    rw [e1] at e2
    exact (Option.some.inj e2).symm
  subst hm2
  refine ⟨hret, hm, fun h0 i hi gi => ?_⟩
  obtain ⟨m', f1, f2⟩ := (C11_inliers _ rng indices thr maxIt hdist obj r fuel h).1 hret
  rw [hm] at f1
  cases f1
  refine (selected_map _ (fun i => cloudScore (t, R) (data i).1 (data i).2) indices _ f2 i).2 ⟨hi, ?_⟩
  rw [hscore i hi gi]
  exact h0

/-- **C71 (rotation only, exact recovery).** If at least `⌈n/2⌉ + 1` of the `n` correspondences of unit
vectors are related by the same rotation, no two of them are parallel, and one sample of such
correspondences is scored, LMedS returns exactly this rotation. -/
theorem C71_rotation_exact (svd : Mat3 → Mat3 × Mat3)
    (hsvd : ∀ H, ∃ σ, Spec.IsSvd H (svd H).1 (svd H).2 σ) (data : ℤ → Vec3 × Vec3) (rng : ℕ → ℕ)
    (indices : List ℤ) (hnodup : indices.Nodup) (thr : ℝ) (hthr : thr ≠ dblMax) (maxIt : ℤ)
    (obj : RansacObj (Unit × List ℤ × ℕ) (List ℤ) Mat3 (List ℤ)) (hfresh : obj.model = none)
    (hpool : obj.world.2.1.Perm indices) (fuel : ℕ) (r : LmReturn Unit Mat3)
    (h : lmedsCompute (rotationProblem svd data) rng indices thr maxIt obj fuel = .done r)
    (R : Mat3) (hR : IsRot R) (good : ℤ → Bool)
    (hgood : ∀ i ∈ indices, good i = true → (data i).1 = R *ᵥ (data i).2 ∧ (data i).2 ⬝ᵥ (data i).2 = 1)
    (hgeneral : ∀ a ∈ indices, ∀ b ∈ indices, good a = true → good b = true → a ≠ b →
      crossProduct (data a).2 (data b).2 ≠ 0)
    (hcount : (indices.length + 1) / 2 + 1 ≤ indices.countP good)
    (x : List ℤ × Mat3) (hx : x ∈ r.final.scored) (hclean : ∀ i ∈ x.1, good i = true) :
    r.ret = true ∧ r.obj.coeffs = some R ∧
      (0 ≤ thr → ∀ i ∈ indices, good i = true → i ∈ r.obj.inliers) := by
  have hdist : ∀ m, ((rotationProblem svd data).dist m indices).length = indices.length :=
    fun m => by simp [rotationProblem]
  have hex : ∀ (a b : ℤ) (R : Mat3), IsRot R → (data a).1 = R *ᵥ (data a).2 → (data b).1 = R *ᵥ (data b).2 →
      crossProduct (data a).2 (data b).2 ≠ 0 → twoptRotationOnly svd (data a) (data b) = R := by
    intro a b R hR ha hb hpar
    have ea : data a = (R *ᵥ (data a).2, (data a).2) := Prod.ext ha rfl
    have eb : data b = (R *ᵥ (data b).2, (data b).2) := Prod.ext hb rfl
    rw [ea, eb]
    exact C24_twopt_rotation_exact svd hsvd R hR _ _ hpar
  have hunit : ∀ i ∈ indices, good i = true → (data i).1 ⬝ᵥ (data i).1 = 1 := by
    intro i hi gi
    obtain ⟨e, u⟩ := hgood i hi gi
    rw [e, rot_dot hR.1, u]
  obtain ⟨hl2, hsub, w, hw⟩ := lmeds_scored _ rng indices thr hthr maxIt hdist obj hpool fuel r h x hx
  obtain ⟨s, m0⟩ := x
  obtain ⟨a, b, rfl⟩ := List.length_eq_two.1 hl2
  have hnd : [a, b].Nodup := by
    obtain ⟨l, hl, hl2⟩ := hsub
    exact hl.nodup_iff.1 (hl2.nodup hnodup)
  simp only [List.nodup_cons, List.mem_cons, List.not_mem_nil, or_false] at hnd
  have ia : a ∈ indices := hsub.subset (by simp)
  have ib : b ∈ indices := hsub.subset (by simp)
  have ga := hclean a (by simp)
  have gb := hclean b (by simp)
  have hm0 : m0 = R := by
    simp only [rotationProblem] at hw
    rw [hex a b R hR (hgood a ia ga).1 (hgood b ib gb).1 (hgeneral a ia b ib ga gb hnd.1)] at hw
    exact (Option.some.inj hw).symm
  subst hm0
  rename' m0 => R
  have hscore : ∀ i ∈ indices, good i = true → rotScore R (data i).1 (data i).2 = 0 := by
    intro i hi gi
    have := hunit i hi gi
    simp only [rotScore]
    rw [← (hgood i hi gi).1, this, sub_self]
  have hhalf : indices.length / 2 <
      ((rotationProblem svd data).dist R indices).countP fun d => decide (d ≤ 0) := by
    have : indices.countP good ≤ ((rotationProblem svd data).dist R indices).countP fun d => decide (d ≤ 0) := by
      simp only [rotationProblem]
      rw [List.countP_map]
      exact List.countP_mono_left fun i hi gi => by simp [hscore i hi gi]
    omega
  obtain ⟨hret, m, hm, -, hmaj, -⟩ := C71_breakdown _ rng indices thr hthr maxIt hdist obj hfresh hpool fuel r
    h _ hx 0 le_rfl (by norm_num) hhalf
  rw [mul_zero] at hmaj
  have hmR : IsRot m := by
    obtain ⟨-, s', m', -, -, -, -, e3, ⟨w', hw'⟩, hs', -⟩ := C10_minimal_median _ rng indices thr maxIt hdist obj
      hfresh hpool r fuel h hret
    rw [hm] at e3
    cases e3
    have hl : s'.length = 2 := hs'.1
    obtain ⟨c, d, rfl⟩ := List.length_eq_two.1 hl
    simp only [rotationProblem, Option.some.injEq] at hw'
    rw [← hw', twoptRotationOnly]
    obtain ⟨σ, hσ⟩ := hsvd (0 + vecMulVec ((data c).2 - (3 : ℝ)⁻¹ • ((data c).2 + (data d).2))
      ((data c).1 - (3 : ℝ)⁻¹ • ((data c).1 + (data d).1)) +
      vecMulVec ((data d).2 - (3 : ℝ)⁻¹ • ((data c).2 + (data d).2))
      ((data d).1 - (3 : ℝ)⁻¹ • ((data c).1 + (data d).1)))
    have := C22_arun_optimal _ _ _ σ hσ
    exact ⟨this.1, this.2.1⟩
  have hm2 : m = R := by
    simp only [rotationProblem] at hmaj
    rw [List.countP_map] at hmaj
    have h3 := countP_and good ((fun d => decide (d ≤ 0)) ∘ fun i => rotScore m (data i).1 (data i).2) indices
    obtain ⟨a, b, ⟨ia, pa⟩, ⟨ib, pb⟩, hab⟩ := two_of_countP _ indices hnodup
      (show 2 ≤ indices.countP (fun i => good i &&
        ((fun d => decide (d ≤ 0)) ∘ fun i => rotScore m (data i).1 (data i).2) i) by omega)
    simp only [Bool.and_eq_true, Function.comp, decide_eq_true_eq] at pa pb
    have hfit : ∀ i ∈ indices, good i = true → rotScore m (data i).1 (data i).2 ≤ 0 →
        (data i).1 = m *ᵥ (data i).2 := by
      intro i hi gi hs
      have h0 := C50_rotation_and_cloud m (data i).1 (data i).2 hmR.1 (hunit i hi gi) (hgood i hi gi).2 (0, 1) 0 0
      exact h0.2.2.1.1 (le_antisymm hs h0.1)
    have hpar := hgeneral a ia b ib pa.1 pb.1 hab
    rw [← hex a b m hmR (hfit a ia pa.1 pa.2) (hfit b ib pb.1 pb.2) hpar,
      hex a b R hR (hgood a ia pa.1).1 (hgood b ib pb.1).1 hpar]
  subst hm2
  refine ⟨hret, hm, fun h0 i hi gi => ?_⟩
  obtain ⟨m', f1, f2⟩ := (C11_inliers _ rng indices thr maxIt hdist obj r fuel h).1 hret
  rw [hm] at f1
  cases f1
  refine (selected_map _ (fun i => rotScore m (data i).1 (data i).2) indices _ f2 i).2 ⟨hi, ?_⟩
  rw [hscore i hi gi]
  exact h0

/-- **C71 (NaN, defect).** The comparison that `std::sort` uses on the squared distances is a strict weak
order, as it has to be, exactly if no distance is NaN, or if all others are the same after clipping. -/
theorem C71_nan_sort (d : List (Option ℝ)) :
    StrictWeakOn nanLt (lmedsKeys d) ↔
      none ∉ d ∨ ∀ x y, some x ∈ d → some y ∈ d → max x 0 = max y 0 := by
  have hk : ∀ k, k ∈ lmedsKeys d ↔ (k = none ∧ none ∈ d) ∨ ∃ x, some x ∈ d ∧ k = some ((max x 0) ^ 2) := by
    intro k
    simp only [lmedsKeys, List.mem_map, clipSquare_eq]
    constructor
    · rintro ⟨o, ho, rfl⟩
      cases o with
      | none => exact Or.inl ⟨rfl, ho⟩
      | some x => exact Or.inr ⟨x, ho, rfl⟩
    · rintro (⟨rfl, h⟩ | ⟨x, h, rfl⟩)
      · exact ⟨none, h, rfl⟩
      · exact ⟨some x, h, rfl⟩
  constructor
  · rintro ⟨-, -, h⟩
    by_contra hc
    simp only [not_or, not_not, not_forall] at hc
    obtain ⟨hn, x, y, hx, hy, hxy⟩ := hc
    have hh := h (some ((max x 0) ^ 2)) ((hk _).2 (Or.inr ⟨x, hx, rfl⟩)) none ((hk _).2 (Or.inl ⟨rfl, hn⟩))
      (some ((max y 0) ^ 2)) ((hk _).2 (Or.inr ⟨y, hy, rfl⟩)) (by simp [nanLt]) (by simp [nanLt])
      (by simp [nanLt]) (by simp [nanLt])
    simp only [nanLt, not_lt] at hh
    exact hxy ((pow_left_inj₀ (le_max_right _ _) (le_max_right _ _) two_ne_zero).1 (le_antisymm hh.2 hh.1))
  · rintro h
    refine ⟨?_, ?_, ?_⟩
    · rintro (_ | x) - <;> simp [nanLt]
    · rintro (_ | x) - (_ | y) - (_ | z) - h1 h2 <;> simp only [nanLt] at h1 h2 ⊢
      exact h1.trans h2
    · intro x hx y hy z hz h1 h2 h3 h4
      rw [hk] at hx hy hz
      rcases h with h | h
      · obtain ⟨a, -, rfl⟩ := hx.resolve_left fun e => h e.2
        obtain ⟨b, -, rfl⟩ := hy.resolve_left fun e => h e.2
        obtain ⟨c, -, rfl⟩ := hz.resolve_left fun e => h e.2
        simp only [nanLt, not_lt] at h1 h2 h3 h4 ⊢
        exact ⟨h3.trans h1, h2.trans h4⟩
      · rcases hx with ⟨rfl, -⟩ | ⟨a, ha, rfl⟩
        · simp [nanLt]
        · rcases hz with ⟨rfl, -⟩ | ⟨c, hc, rfl⟩
          · simp [nanLt]
          · rw [h a c ha hc]
            simp [nanLt]

theorem lt_dblMax : (1 : ℝ) / 10 ≠ dblMax := by
  have h1 : (1 : ℝ) ≤ 2 ^ 1023 := one_le_pow₀ (by norm_num)
  have h2 : (1 : ℝ) ≤ 2 - 1 / 2 ^ 52 := by norm_num
  refine ne_of_lt ?_
  unfold dblMax
  generalize (2 : ℝ) ^ 1023 = x at *
  nlinarith

/-- Points on the curve `(s, s², s³)` that are moved by `(1, 2, 3)`, except the point 5. -/
noncomputable def lmedsEx (i : ℤ) : Vec3 × Vec3 :=
  if i = 5 then (0, ![5, 25, 125]) else (![i + 1, i ^ 2 + 2, i ^ 3 + 3], ![(i : ℝ), i ^ 2, i ^ 3])

/-- Five correct points of six: some run returns the translation exactly. -/
example (svd : Mat3 → Mat3 × Mat3) (hsvd : ∀ H, ∃ σ, Spec.IsSvd H (svd H).1 (svd H).2 σ) :
    ∃ rng r, lmedsCompute (pointCloud svd lmedsEx) rng [0, 1, 2, 3, 4, 5] (1 / 10) 10
      (freshObj () [0, 1, 2, 3, 4, 5]) 200 = .done r ∧ r.ret = true ∧
      r.obj.coeffs = some (![1, 2, 3], 1) ∧ ∀ i ∈ [(0 : ℤ), 1, 2, 3, 4], i ∈ r.obj.inliers := by
  obtain ⟨m, hm⟩ : ∃ m, ((pointCloud svd lmedsEx).compute () [1, 3, 4]).1 = some m := ⟨_, rfl⟩
  obtain ⟨rng, r, hr, hsc⟩ := C71_reachable (pointCloud svd lmedsEx) [0, 1, 2, 3, 4, 5] (1 / 10)
    lt_dblMax 10 (by norm_num) (by norm_num [intMax]) (fun m => by simp [pointCloud])
    (freshObj () [0, 1, 2, 3, 4, 5]) rfl (List.Perm.refl _) [1, 3, 4] (by simp)
    ⟨rfl, isSampleOf_of_subperm _ _ (by decide)⟩ rfl m hm
  have h := hr 200 (by norm_num)
  obtain ⟨h1, h2, h3⟩ := C71_point_cloud_exact svd hsvd lmedsEx rng [0, 1, 2, 3, 4, 5] (by decide) (1 / 10)
    lt_dblMax 10 (freshObj () [0, 1, 2, 3, 4, 5]) rfl (List.Perm.refl _) 200 r h ![1, 2, 3] 1
    ⟨by simp, by simp⟩ (fun i => decide (i ≠ 5))
    (by
      intro i _ gi
      have gi : i ≠ 5 := by simpa using gi
      rw [one_mulVec]
      funext k
      fin_cases k <;> simp [lmedsEx, gi])
    (by
      intro a _ b _ c _ ga gb gc hab hac hbc e
      have ga : a ≠ 5 := by simpa using ga
      have gb : b ≠ 5 := by simpa using gb
      have gc : c ≠ 5 := by simpa using gc
      have h2 := congrFun e 2
      simp only [lmedsEx, ga, gb, gc, if_false, cross_apply, vcons2, cons_val_one, cons_val_zero, Pi.sub_apply,
        Pi.zero_apply] at h2
      have h3 : ((b : ℝ) - a) * ((c : ℝ) - a) * ((c : ℝ) - b) = 0 := by linear_combination h2
      rcases mul_eq_zero.1 h3 with h3 | h3
      · rcases mul_eq_zero.1 h3 with h3 | h3
        · exact hab (by exact_mod_cast (sub_eq_zero.1 h3).symm)
        · exact hac (by exact_mod_cast (sub_eq_zero.1 h3).symm)
      · exact hbc (by exact_mod_cast (sub_eq_zero.1 h3).symm))
    (by decide) _ hsc (by simp)
  exact ⟨rng, r, h, h1, h2, fun i hi => h3 (by norm_num) i (by revert i; decide) (by revert i; decide)⟩

/-- The axes rotated by a quarter turn, and a wrong correspondence. -/
noncomputable def lmedsRot (i : ℤ) : Vec3 × Vec3 :=
  if i = 0 then (![0, 1, 0], ![1, 0, 0])
  else if i = 1 then (![-1, 0, 0], ![0, 1, 0])
  else if i = 2 then (![0, 0, 1], ![0, 0, 1]) else (![1, 0, 0], ![0, 0, 1])

example (svd : Mat3 → Mat3 × Mat3) (hsvd : ∀ H, ∃ σ, Spec.IsSvd H (svd H).1 (svd H).2 σ) :
    ∃ rng r, lmedsCompute (rotationProblem svd lmedsRot) rng [0, 1, 2, 3] (1 / 10) 10
      (freshObj () [0, 1, 2, 3]) 200 = .done r ∧ r.ret = true ∧
      r.obj.coeffs = some !![0, -1, 0; 1, 0, 0; 0, 0, 1] := by
  obtain ⟨m, hm⟩ : ∃ m, ((rotationProblem svd lmedsRot).compute () [2, 0]).1 = some m := ⟨_, rfl⟩
  obtain ⟨rng, r, hr, hsc⟩ := C71_reachable (rotationProblem svd lmedsRot) [0, 1, 2, 3] (1 / 10)
    lt_dblMax 10 (by norm_num) (by norm_num [intMax]) (fun m => by simp [rotationProblem])
    (freshObj () [0, 1, 2, 3]) rfl (List.Perm.refl _) [2, 0] (by simp)
    ⟨rfl, isSampleOf_of_subperm _ _ (by decide)⟩ rfl m hm
  have h := hr 200 (by norm_num)
  obtain ⟨h1, h2, -⟩ := C71_rotation_exact svd hsvd lmedsRot rng [0, 1, 2, 3] (by decide) (1 / 10)
    lt_dblMax 10 (freshObj () [0, 1, 2, 3]) rfl (List.Perm.refl _) 200 r h !![0, -1, 0; 1, 0, 0; 0, 0, 1]
    ⟨by apply mat3_ext <;> simp [Matrix.mul_apply, Fin.sum_univ_three, vcons2],
      by simp [det_fin_three]⟩ (fun i => i = 0 ∨ i = 1 ∨ i = 2)
    (by
      intro i _ hi
      simp only [decide_eq_true_eq] at hi
      rcases hi with rfl | rfl | rfl <;> refine ⟨?_, by norm_num [lmedsRot, dot3, vcons2]⟩ <;> funext k <;>
        fin_cases k <;> norm_num [lmedsRot, mulVec, dotProduct, Fin.sum_univ_three, vcons2])
    (by
      intro a _ b _ ga gb hab e
      simp only [decide_eq_true_eq] at ga gb
      have e0 := congrFun e 0
      have e1 := congrFun e 1
      have e2 := congrFun e 2
      rcases ga with rfl | rfl | rfl <;> rcases gb with rfl | rfl | rfl <;>
        first
        | exact hab rfl
        | (norm_num [lmedsRot, cross_apply, vcons2] at e0; done)
        | (norm_num [lmedsRot, cross_apply, vcons2] at e1; done)
        | norm_num [lmedsRot, cross_apply, vcons2] at e2)
    (by decide) _ hsc (by simp)
  exact ⟨rng, r, h, h1, h2⟩

/-- A camera at a world point, with two other points: the distances cannot be sorted. -/
example : ¬StrictWeakOn nanLt (lmedsKeys [absScore (0, 1) 0 1 0 ![0, 0, 1], absScore (0, 1) 0 1 ![0, 0, 4] ![0, 0, 1],
    absScore (0, 1) 0 1 ![0, 0, 4] ![0, 1, 0]]) := by
  have h0 : absScore (0, 1) 0 1 0 ![0, 0, 1] = none :=
    (C50_absolute (0, 1) 0 1 0 ![0, 0, 1] (by norm_num [dot3, vcons2])).1.2 (by simp [absReprojection])
  have hn : norm3 (![0, 0, 4] : Vec3) = 4 := by
    rw [norm3, show (![0, 0, 4] : Vec3) ⬝ᵥ ![0, 0, 4] = 4 ^ 2 by norm_num [dot3, vcons2]]
    exact Real.sqrt_sq (by norm_num)
  have hr : absReprojection (0, 1) 0 1 ![0, 0, 4] = ![0, 0, 4] := by simp [absReprojection]
  have h1 : absScore (0, 1) 0 1 ![0, 0, 4] ![0, 0, 1] = some 0 := by
    rw [absScore, hr, normalize3, hn]
    norm_num [dot3, vcons2]
  have h2 : absScore (0, 1) 0 1 ![0, 0, 4] ![0, 1, 0] = some 1 := by
    rw [absScore, hr, normalize3, hn]
    norm_num [dot3, vcons2]
  rw [C71_nan_sort, not_or, h0, h1, h2]
  refine ⟨by simp, fun h => ?_⟩
  have := h 0 1 (by simp) (by simp)
  norm_num at this

end OpenGV.Props
