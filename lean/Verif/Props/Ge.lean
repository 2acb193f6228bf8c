import Verif.Proof.GeDescent
import Verif.Proof.EigenSystem

/-!
# Properties of the generalised eigensolver (C40, C55, C56)
-/

namespace OpenGV.Props

open Matrix OpenGV.Spec

/-- The residual of a correspondence. -/
noncomputable abbrev corrResidual (d : GeCorr) (R : Mat3) (v : Fin 4 → ℝ) : ℝ :=
  genResidual d.camRotation1 d.camRotation2 d.f1 d.f2 d.camOffset1 d.camOffset2 R v

theorem genRow_residual (d : GeCorr) (c : Vec3) (v : Fin 4 → ℝ) :
    genRow (cayley2rot c) (d.camRotation1 *ᵥ d.f1) (d.camRotation2 *ᵥ d.f2) d.camOffset1
      d.camOffset2 ⬝ᵥ v = corrResidual d (cayley2rot c) v :=
  genRow_dot (cayley2rot_isRot c) _ _ _ _ v

/-- **C40 (quadratic form).** For every list of correspondences and every parameter vector,
`composeG` is symmetric, and its quadratic form is `(1 + |c|^2)^2` times the weighted sum of the
squared generalised epipolar residuals. -/
theorem C40_form (cs : List GeCorr) (c : Vec3) :
    (composeG (geSums cs) c).transpose = composeG (geSums cs) c ∧
    ∀ v : Fin 4 → ℝ, v ⬝ᵥ (composeG (geSums cs) c *ᵥ v) = (1 + c ⬝ᵥ c) ^ 2 *
      (cs.map fun d => d.weight * corrResidual d (cayley2rot c) v ^ 2).sum := by
  refine ⟨composeG_transpose _ _, fun v => ?_⟩
  rw [composeG_eq, smul_mulVec, dotProduct_smul, smul_eq_mul, genGram_form]
  simp only [genRow_residual]

/-- **C40 (true pose).** When the rays of every correspondence meet for the relative pose `(t, R)`,
the homogeneous vector `(t, 1)` is in the null space of `composeG` at `R`. -/
theorem C40_true_pose (cs : List GeCorr) (c t : Vec3)
    (h : ∀ d ∈ cs, RaysMeet d.camRotation1 d.camRotation2 d.f1 d.f2 d.camOffset1 d.camOffset2 t
      (cayley2rot c)) :
    composeG (geSums cs) c *ᵥ ![t 0, t 1, t 2, 1] = 0 := by
  rw [composeG_eq, smul_mulVec, genGram_mulVec]
  have : (cs.map fun d => (d.weight * (genRow (cayley2rot c) (d.camRotation1 *ᵥ d.f1)
      (d.camRotation2 *ᵥ d.f2) d.camOffset1 d.camOffset2 ⬝ᵥ ![t 0, t 1, t 2, 1])) •
      genRow (cayley2rot c) (d.camRotation1 *ᵥ d.f1) (d.camRotation2 *ᵥ d.f2) d.camOffset1
        d.camOffset2) = cs.map fun _ => (0 : Fin 4 → ℝ) :=
    List.map_congr_left fun d hd => by
      obtain ⟨a, b, e⟩ := h d hd
      rw [genRow_residual, corrResidual, genResidual]
      have e2 : ![(![t 0, t 1, t 2, 1] : Fin 4 → ℝ) 0, (![t 0, t 1, t 2, 1] : Fin 4 → ℝ) 1,
          (![t 0, t 1, t 2, 1] : Fin 4 → ℝ) 2] + (![t 0, t 1, t 2, 1] : Fin 4 → ℝ) 3 •
          (cayley2rot c *ᵥ d.camOffset2 - d.camOffset1) = a • (d.camRotation1 *ᵥ d.f1) -
          b • (cayley2rot c *ᵥ (d.camRotation2 *ᵥ d.f2)) := by
        have e3 : t + cayley2rot c *ᵥ d.camOffset2 - d.camOffset1 = a • (d.camRotation1 *ᵥ d.f1) -
            b • (cayley2rot c *ᵥ (d.camRotation2 *ᵥ d.f2)) := by
          rw [mulVec_add, mulVec_smul] at e
          rw [sub_eq_sub_iff_add_eq_add, add_comm (a • _), e]
          abel
        rw [← e3]
        apply ext3 <;> simp <;> ring
      rw [e2, dotProduct_sub, dotProduct_smul, dotProduct_smul, dotProduct_comm, dot_self_cross,
        dotProduct_comm, dot_cross_self]
      simp
  rw [this]
  simp

/-- **C40 (pose).** Noise-free correspondences with positive weights for which the generalised
epipolar constraints leave only one solution up to scale: if the descent ends at the true rotation,
the translation returned is the true one with its scale, and the smallest eigenvalue is zero. -/
theorem C40_pose (cs : List GeCorr) (c t : Vec3)
    (D : Fin 4 → ℂ) (V : Matrix (Fin 4) (Fin 4) ℂ) (π : Equiv.Perm (Fin 4))
    (hw : ∀ d ∈ cs, 0 < d.weight)
    (hdata : ∀ d ∈ cs, RaysMeet d.camRotation1 d.camRotation2 d.f1 d.f2 d.camOffset1 d.camOffset2 t
      (cayley2rot c))
    (huniq : ∀ v : Fin 4 → ℝ, (∀ d ∈ cs, corrResidual d (cayley2rot c) v = 0) →
      ∃ k : ℝ, v = k • ![t 0, t 1, t 2, 1])
    (heig : IsEigenSystem (composeG (geSums cs) c) D V)
    (hsort : ∀ i j, i ≤ j → (D (π j)).re ≤ (D (π i)).re) :
    ∃ out, geFinish c D V π = some out ∧ out.translation = ![t 0, t 1, t 2, 1] ∧
      out.rotation = cayley2rot c ∧ out.eigenvalues 3 = 0 := by
  obtain ⟨hMs, hform⟩ := C40_form cs c
  set M := composeG (geSums cs) c with hM
  have hpos : 0 < (1 + c ⬝ᵥ c) ^ 2 := by
    have := dot_self_nonneg3 c
    positivity
  have hMt : M *ᵥ ![t 0, t 1, t 2, 1] = 0 := C40_true_pose cs c t hdata
  have ht0 : (![t 0, t 1, t 2, 1] : Fin 4 → ℝ) ≠ 0 := fun h => by
    have := congrFun h 3
    simp at this
  have hreal := eigenSystem_symm heig hMs
  have hnnl : ∀ v : Fin 4 → ℝ, ∀ x ∈ cs.map fun d => d.weight *
      corrResidual d (cayley2rot c) v ^ 2, 0 ≤ x := by
    intro v x hx
    obtain ⟨d, hd, rfl⟩ := List.mem_map.1 hx
    have := hw d hd
    positivity
  have hD0 : ∀ i, 0 ≤ (D i).re := by
    intro i
    obtain ⟨e1, e2⟩ := eigenSystem_re heig (hreal i)
    have h1 := hform fun j => (V j i).re
    rw [e1, dotProduct_smul, e2, smul_eq_mul, mul_one] at h1
    rw [h1]
    exact mul_nonneg hpos.le (List.sum_nonneg (hnnl _))
  have hzero : (D (π 3)).re = 0 := by
    obtain ⟨i, hi⟩ := eigenvalues_mem heig.values ht0 (x := 0) (by rw [hMt, zero_smul])
    have h1 := hsort (π.symm i) 3 (Fin.le_last _)
    rw [Equiv.apply_symm_apply, hi] at h1
    exact le_antisymm (by simpa using h1) (hD0 _)
  set v : Fin 4 → ℝ := fun j => (V j (π 3)).re with hv
  obtain ⟨ev1, ev2⟩ := eigenSystem_re heig (hreal (π 3))
  rw [← hv, hzero, zero_smul] at ev1
  rw [← hv] at ev2
  obtain ⟨k, hk⟩ := huniq v fun d hd => by
    have h1 := hform v
    rw [ev1, dotProduct_zero] at h1
    have h2 := list_sum_zero (hnnl v) ((mul_eq_zero.1 h1.symm).resolve_left hpos.ne') _
      (List.mem_map_of_mem hd)
    exact pow_eq_zero_iff two_ne_zero |>.1 ((mul_eq_zero.1 h2).resolve_left (hw d hd).ne')
  have hk0 : k ≠ 0 := by
    rintro rfl
    rw [hk] at ev2
    simp at ev2
  have h3 : (V 3 (π 3)).re = k := by
    have := congrFun hk 3
    simpa [hv] using this
  refine ⟨_, if_neg (by simpa [h3] using hk0), ?_, rfl, hzero⟩
  have : (fun j => (of fun j i => (V j (π i)).re : Matrix (Fin 4) (Fin 4) ℝ) j 3) = v := rfl
  show (1 / (V 3 (π 3)).re) • v = _
  rw [h3, hk, smul_smul, one_div_mul_cancel hk0, one_smul]

/- Three correspondences that fix the translation `(1,0,0)`; the third one is seen by a camera away
from the origin. -/
example : ∃ (cs : List GeCorr) (c t : Vec3)
    (D : Fin 4 → ℂ) (V : Matrix (Fin 4) (Fin 4) ℂ) (π : Equiv.Perm (Fin 4)),
    (∀ d ∈ cs, 0 < d.weight) ∧
    (∀ d ∈ cs, RaysMeet d.camRotation1 d.camRotation2 d.f1 d.f2 d.camOffset1 d.camOffset2 t
      (cayley2rot c)) ∧
    (∀ v : Fin 4 → ℝ, (∀ d ∈ cs, corrResidual d (cayley2rot c) v = 0) →
      ∃ k : ℝ, v = k • ![t 0, t 1, t 2, 1]) ∧
    IsEigenSystem (composeG (geSums cs) c) D V ∧
    (∀ i j, i ≤ j → (D (π j)).re ≤ (D (π i)).re) ∧ t = ![1, 0, 0] := by
  have hR : cayley2rot 0 = 1 := by
    apply mat3_ext <;> simp [cayley2rot]
  set cs : List GeCorr := [⟨1, ![1, 0, 1], ![0, 0, 1], 1, 1, 0, 0⟩,
    ⟨2, ![1, 1, 0], ![0, 1, 0], 1, 1, 0, 0⟩,
    ⟨3, ![0, -1, 1], ![0, 0, 1], 1, 1, ![1, 1, 0], 0⟩] with hcs
  obtain ⟨D, V, hDV⟩ := exists_eigenSystem (composeG (geSums cs) 0)
  obtain ⟨π, hπ⟩ := exists_sort_desc fun i => (D i).re
  refine ⟨cs, 0, ![1, 0, 0], D, V, π, by simp [hcs], ?_, ?_, hDV, hπ, rfl⟩
  · intro d hd
    rw [hR]
    simp only [hcs, List.mem_cons, List.not_mem_nil, or_false] at hd
    rcases hd with rfl | rfl | rfl
    · exact ⟨1, 1, by apply ext3 <;> simp⟩
    · exact ⟨1, 1, by apply ext3 <;> simp⟩
    · exact ⟨1, 1, by apply ext3 <;> simp⟩
  · intro v hv
    rw [hR] at hv
    have h0 := hv _ (by rw [hcs]; exact List.mem_cons_self)
    have h1 := hv _ (by rw [hcs]; exact List.mem_cons_of_mem _ List.mem_cons_self)
    have h2 := hv _ (by
      rw [hcs]; exact List.mem_cons_of_mem _ (List.mem_cons_of_mem _ List.mem_cons_self))
    simp [corrResidual, genResidual, cross_apply] at h0 h1 h2
    refine ⟨v 3, ext4 ?_ ?_ ?_ ?_⟩ <;> simp <;> linarith

/-- **C55 (closed-form eigenvalues).** For arbitrary summation terms and parameters: `getEV` is
undefined (a NaN) exactly when an eigenvalue of `composeG` has multiplicity three or more, and
otherwise returns the second smallest and the smallest eigenvalue. -/
theorem C55_getEV (s : GeSums) (c : Vec3) :
    (getEV (composeG s c) = none ↔ ∃ x y : ℝ, ∀ z : ℝ,
      (z • (1 : Matrix (Fin 4) (Fin 4) ℝ) - composeG s c).det = (z - x) ^ 3 * (z - y)) ∧
    ∀ e2 e3, getEV (composeG s c) = some (e2, e3) → ∃ e0 e1 : ℝ, e1 ≤ e0 ∧ e2 ≤ e1 ∧ e3 ≤ e2 ∧
      ∀ z : ℝ, (z • (1 : Matrix (Fin 4) (Fin 4) ℝ) - composeG s c).det =
        (z - e0) * (z - e1) * (z - e2) * (z - e3) := by
  have hG := composeG_transpose s c
  obtain ⟨V, l, hV, hd, hl⟩ := exists_sorted_diag (composeG s c) hG
  have h : ∀ x : ℝ, x ^ 4 + quarticB (composeG s c) * x ^ 3 + quarticC (composeG s c) * x ^ 2 +
      quarticD (composeG s c) * x + quarticE (composeG s c) =
      (x - l 0) * (x - l 1) * (x - l 2) * (x - l 3) := fun x => by
    rw [← det_quartic hG, diag_det4 hV hd]
  by_cases hne : (l 0 = l 1 ∧ l 1 = l 2) ∨ (l 1 = l 2 ∧ l 2 = l 3)
  · have hn : getEV (composeG s c) = none := quarticRoots_none h hne
    refine ⟨⟨fun _ => ?_, fun _ => hn⟩, fun e2 e3 he => by rw [hn] at he; simp at he⟩
    rcases hne with ⟨h1, h2⟩ | ⟨h1, h2⟩
    · exact ⟨l 0, l 3, fun z => by rw [diag_det4 hV hd, ← h2, ← h1]; ring⟩
    · exact ⟨l 1, l 0, fun z => by rw [diag_det4 hV hd, ← h2, ← h1]; ring⟩
  · have hs : getEV (composeG s c) = some (l 2, l 3) :=
      quarticRoots_spec h (hl 0 1 (by decide)) (hl 1 2 (by decide)) (hl 2 3 (by decide))
        (not_or.1 hne)
    refine ⟨⟨fun hn => by rw [hs] at hn; simp at hn, ?_⟩, fun e2 e3 he => ?_⟩
    · rintro ⟨x, y, hxy⟩
      exact quarticRoots_none (B := quarticB (composeG s c)) (C := quarticC (composeG s c))
        (D := quarticD (composeG s c)) (E := quarticE (composeG s c)) (x0 := y) (x1 := x)
        (x2 := x) (x3 := x) (fun z => by rw [← det_quartic hG, hxy]; ring) (Or.inr ⟨rfl, rfl⟩)
    · rw [hs] at he
      simp only [Option.some.injEq, Prod.mk.injEq] at he
      obtain ⟨rfl, rfl⟩ := he
      exact ⟨l 0, l 1, hl 0 1 (by decide), hl 1 2 (by decide), hl 2 3 (by decide),
        diag_det4 hV hd⟩

/-- **C55 (costs).** The cost of step 1, which the descent minimises, is the smallest eigenvalue: no
vector has a smaller Rayleigh quotient. The cost of step 0 is the second smallest eigenvalue. -/
theorem C55_cost (s : GeSums) (c : Vec3) (x : ℝ) :
    (getCost s c 1 = some x → (∃ v : Fin 4 → ℝ, v ≠ 0 ∧ composeG s c *ᵥ v = x • v) ∧
      ∀ v : Fin 4 → ℝ, x * (v ⬝ᵥ v) ≤ v ⬝ᵥ (composeG s c *ᵥ v)) ∧
    (getCost s c 0 = some x → ∃ y, getCost s c 1 = some y ∧ y ≤ x ∧
      ∃ e0 e1 : ℝ, x ≤ e1 ∧ e1 ≤ e0 ∧ ∀ z : ℝ,
        (z • (1 : Matrix (Fin 4) (Fin 4) ℝ) - composeG s c).det =
          (z - e0) * (z - e1) * (z - x) * (z - y)) := by
  constructor
  · intro h
    obtain ⟨⟨a, b⟩, hab, hb⟩ := Option.map_eq_some_iff.1 h
    simp only [one_ne_zero, if_false] at hb
    subst hb
    obtain ⟨e0, e1, h01, h12, h23, hdet⟩ := (C55_getEV s c).2 a b hab
    set G := composeG s c with hGd
    have hG : G.transpose = G := composeG_transpose s c
    obtain ⟨V, l, hV, hd, hl⟩ := exists_sorted_diag G hG
    have hVV : V * V.transpose = 1 := mul_eq_one_comm.1 hV
    have hmem : ∀ i, b ≤ l i := by
      intro i
      have h1 := hdet (l i)
      rw [diag_det4 hV hd] at h1
      have h0 : (l i - l 0) * (l i - l 1) * (l i - l 2) * (l i - l 3) = 0 := by
        fin_cases i <;> simp
      rw [h0] at h1
      rcases mul_eq_zero.1 h1.symm with h2 | h2
      · rcases mul_eq_zero.1 h2 with h2 | h2
        · rcases mul_eq_zero.1 h2 with h2 | h2 <;> linarith
        · linarith
      · linarith
    constructor
    · obtain ⟨v, hv, e⟩ := exists_mulVec_eq_zero_iff.2 (show (b • (1 : Matrix (Fin 4) (Fin 4) ℝ) -
        G).det = 0 by rw [hdet]; ring)
      rw [sub_mulVec, smul_mulVec, one_mulVec, sub_eq_zero] at e
      exact ⟨v, hv, e.symm⟩
    · intro v
      set u := V.transpose *ᵥ v with hu
      have hv : v = V *ᵥ u := by rw [hu, mulVec_mulVec, hVV, one_mulVec]
      have e1 : v ⬝ᵥ v = u ⬝ᵥ u := by
        rw [hv, dotProduct_mulVec, vecMul_mulVec, hV, vecMul_one]
      have e2 : v ⬝ᵥ (G *ᵥ v) = ∑ i, l i * u i ^ 2 := by
        have hGV : G = V * (diagonal l * V.transpose) := by
          rw [← hd, Matrix.mul_assoc, Matrix.mul_assoc, hVV, Matrix.mul_one, ← Matrix.mul_assoc, hVV,
            Matrix.one_mul]
        have e3 : G *ᵥ v = V *ᵥ (diagonal l *ᵥ u) := by
          rw [hu, mulVec_mulVec, mulVec_mulVec, Matrix.mul_assoc, ← hGV]
        rw [e3, dotProduct_mulVec, ← mulVec_transpose, ← hu, dotProduct]
        exact Finset.sum_congr rfl fun i _ => by rw [mulVec_diagonal]; ring
      rw [e1, e2, dotProduct, Finset.mul_sum]
      exact Finset.sum_le_sum fun i _ => by
        have := mul_le_mul_of_nonneg_right (hmem i) (sq_nonneg (u i))
        rw [← sq]; exact this
  · intro h
    obtain ⟨⟨a, b⟩, hab, hb⟩ := Option.map_eq_some_iff.1 h
    simp only [if_true] at hb
    subst hb
    obtain ⟨e0, e1, h01, h12, h23, hdet⟩ := (C55_getEV s c).2 a b hab
    exact ⟨b, by rw [getCost, hab]; simp, h23, e0, e1, h12, h01, hdet⟩

/-- Three correspondences of a single camera whose normals are the axes. -/
def axesCentral : List GeCorr :=
  [⟨1, ![0, 1, 0], ![0, 0, 1], 1, 1, 0, 0⟩, ⟨2, ![0, 0, 1], ![1, 0, 0], 1, 1, 0, 0⟩,
    ⟨3, ![1, 0, 0], ![0, 1, 0], 1, 1, 0, 0⟩]

/- The eigenvalues are 3, 2, 1 and 0. -/
example : getCost (geSums axesCentral) 0 0 = some 1 ∧ getCost (geSums axesCentral) 0 1 = some 0 := by
  have hR : cayley2rot 0 = 1 := by
    apply mat3_ext <;> simp [cayley2rot]
  have hG : composeG (geSums axesCentral) 0 = diagonal ![1, 2, 3, 0] := by
    rw [composeG_eq, hR]
    ext i j
    fin_cases i <;> fin_cases j <;> simp [genGram, axesCentral, genRow, cross_apply]
  have h : getEV (composeG (geSums axesCentral) 0) = some (1, 0) := by
    rw [hG]
    apply quarticRoots_spec (x0 := 3) (x1 := 2)
    · intro x
      simp [quarticB, quarticC, quarticD, quarticE]
      ring
    all_goals norm_num
  simp [getCost, h]

/-- **C56 (descent).** For every result of `ge_main2` that is not a NaN there is one of the five
starting points such that, when the cost at the result is defined, it is not larger than the cost at
that starting point. The later starting points differ from the first by at most 0.6 per
component. -/
theorem C56_descent (s : GeSums) (step : Vec3 → ℝ → Vec3 → Vec3) (fuel : ℕ) (start : Vec3)
    (rnd : ℕ → Vec3) (hrnd : ∀ k i, 0 ≤ rnd k i ∧ rnd k i ≤ 1) (c : Vec3)
    (h : geSearch s step fuel start rnd = some (some c)) :
    ∃ p : Vec3, (∀ i, |p i - start i| ≤ 0.6) ∧
      ∀ y, getCost s c 1 = some y → ∃ x, getCost s p 1 = some x ∧ y ≤ x := by
  obtain ⟨j, hj, hc⟩ := geTrials_spec _ _ step fuel start rnd 5 0 none c (fun v hv => by simp at hv) h
  refine ⟨geStart start rnd j, fun i => ?_, hc⟩
  obtain ⟨h0, h1⟩ := hrnd j i
  unfold geStart
  split_ifs <;>
    simp only [Pi.add_apply, add_sub_cancel_left, sub_self] <;>
    rw [abs_le] <;> constructor <;> linarith

/-- **C56 (direction).** The direction of the descent is the gradient of the cost, up to the step of
the forward differences: with second derivatives bounded by `2 * L` along the axes the error of each
component is at most `L * 10⁻⁸`. -/
theorem C56_direction (cost : Vec3 → Option ℝ) (c : Vec3) (v : ℝ) (g : Vec3) (L : ℝ)
    (h : ∀ j, ∃ y, cost (c + (10 ^ (-8 : ℤ) : ℝ) • Pi.single j 1) = some y ∧
      |y - v - 10 ^ (-8 : ℤ) * g j| ≤ L * (10 ^ (-8 : ℤ)) ^ 2) :
    ∃ J : Vec3, getQuickJacobian cost c (some v) = some J ∧
      ∀ j, |J j / 10 ^ (-8 : ℤ) - g j| ≤ L * 10 ^ (-8 : ℤ) := by
  have e8 : (10 ^ (-8 : ℤ) : ℝ) = 0.00000001 := by norm_num
  rw [e8] at h ⊢
  have hu : ∀ j, Function.update c j (c j + 0.00000001) =
      c + (0.00000001 : ℝ) • (Pi.single j 1 : Vec3) := by
    intro j
    funext i
    by_cases hij : i = j
    · subst hij
      simp
    · simp [Function.update_of_ne hij, Pi.single_eq_of_ne hij]
  obtain ⟨y0, h0, b0⟩ := h 0
  obtain ⟨y1, h1, b1⟩ := h 1
  obtain ⟨y2, h2, b2⟩ := h 2
  refine ⟨![y0 - v, y1 - v, y2 - v], ?_, fun j => ?_⟩
  · simp [getQuickJacobian, hu, h0, h1, h2]
  · have key : ∀ y gj : ℝ, |y - v - 0.00000001 * gj| ≤ L * 0.00000001 ^ 2 →
        |(y - v) / 0.00000001 - gj| ≤ L * 0.00000001 := by
      intro y gj hb
      have e : (y - v) / 0.00000001 - gj = (y - v - 0.00000001 * gj) / 0.00000001 := by ring
      rw [e, abs_div, abs_of_pos (show (0 : ℝ) < 0.00000001 by norm_num), div_le_iff₀ (by norm_num)]
      linarith
    fin_cases j
    · exact key _ _ b0
    · exact key _ _ b1
    · exact key _ _ b2

/- A quadratic cost. -/
example : ∀ j, ∃ y, (fun c : Vec3 => some (c ⬝ᵥ c + 3 * c 0)) (![1, 2, -1] +
      (10 ^ (-8 : ℤ) : ℝ) • Pi.single j 1) = some y ∧
    |y - 9 - 10 ^ (-8 : ℤ) * (![5, 4, -2] : Vec3) j| ≤ 1 * (10 ^ (-8 : ℤ)) ^ 2 := by
  intro j
  refine ⟨_, rfl, ?_⟩
  rw [dot3]
  simp only [Pi.add_apply, Pi.smul_apply, Pi.single_apply, smul_eq_mul]
  have e2 : (![1, 2, -1] : Vec3) 2 = -1 := rfl
  have n0 : ((2 : Fin 3) = 0) = False := by decide
  have n1 : ((2 : Fin 3) = 1) = False := by decide
  have n2 : ((2 : Fin 3) = ⟨2, by norm_num⟩) = True := by decide
  rw [e2]
  fin_cases j <;> norm_num [abs_le, n0, n1, n2]

/-- **C56 (termination).** When steps that are small enough leave the point unchanged (rounding),
every run of `ge_main2` ends: there is a number of rounds of the backtracking loops that no
run exceeds. -/
theorem C56_terminates (s : GeSums) (step : Vec3 → ℝ → Vec3 → Vec3)
    (hs : ∀ c d, ∃ δ : ℝ, 0 < δ ∧ ∀ l, 0 < l → l < δ → step c l d = c) (start : Vec3)
    (rnd : ℕ → Vec3) :
    ∃ r N, ∀ fuel, N ≤ fuel → geSearch s step fuel start rnd = some r :=
  geTrials_terminates _ _ step hs start rnd 5 0 none

/- Steps rounded to multiples of 2^-50 towards zero. -/
example : ∀ c d : Vec3, ∃ δ : ℝ, 0 < δ ∧ ∀ l, 0 < l → l < δ →
    (fun (c : Vec3) (l : ℝ) (d : Vec3) => fun i => c i - SignType.sign (l * d i) *
      (⌊|l * d i| * 2 ^ 50⌋ / 2 ^ 50)) c l d = c := by
  intro c d
  refine ⟨1 / (2 ^ 50 * (1 + |d 0| + |d 1| + |d 2|)), by positivity, fun l hl h => ?_⟩
  rw [lt_div_iff₀ (by positivity)] at h
  funext i
  have hd : |d i| ≤ |d 0| + |d 1| + |d 2| := by
    have := abs_nonneg (d 0)
    have := abs_nonneg (d 1)
    have := abs_nonneg (d 2)
    fin_cases i <;> simp only [Fin.zero_eta, Fin.mk_one, Fin.reduceFinMk] <;> linarith
  have h0 : ⌊|l * d i| * 2 ^ 50⌋ = 0 := by
    rw [Int.floor_eq_zero_iff, abs_mul, abs_of_pos hl]
    refine ⟨by positivity, ?_⟩
    have := mul_le_mul_of_nonneg_left hd hl.le
    nlinarith
  simp only [h0, Int.cast_zero, zero_div, mul_zero, sub_zero]

/-- **C56 (the rounding is needed).** In exact arithmetic the backtracking loop does not end at a
strict minimum: for the cost `|c|^2` started at zero no number of rounds is enough. -/
theorem C56_exact_loop (fuel : ℕ) :
    geDescend (fun c => some (c ⬝ᵥ c)) (fun c l d => c - l • d) fuel 50 true
      ⟨some 0, some 0, 0.01⟩ = none := by
  set cost : Vec3 → Option ℝ := fun c => some (c ⬝ᵥ c) with hcost
  obtain ⟨d, hd, hd0⟩ : ∃ d : Vec3, normalizedJacobian (getQuickJacobian cost 0 (some 0)) = some d ∧
      0 < d ⬝ᵥ d := by
    have hj : getQuickJacobian cost 0 (some 0) =
        some ![0.00000001 ^ 2, 0.00000001 ^ 2, 0.00000001 ^ 2] := by
      simp [getQuickJacobian, hcost, dot3]
      norm_num
    rw [hj]
    have hpos : 0 < √((0.00000001 ^ 2 : ℝ) ^ 2 + (0.00000001 ^ 2) ^ 2 + (0.00000001 ^ 2) ^ 2) :=
      Real.sqrt_pos.2 (by norm_num)
    refine ⟨_, if_neg (by simpa using hpos.ne'), ?_⟩
    rw [dot3]
    simp only [Pi.smul_apply, smul_eq_mul, Matrix.cons_val]
    positivity
  have hpos : ∀ l : ℝ, 0 < l → nanLt (some 0) (cost (0 - l • d)) := by
    intro l hl
    have e : (0 - l • d) ⬝ᵥ (0 - l • d) = l ^ 2 * (d ⬝ᵥ d) := by
      rw [zero_sub, neg_dotProduct_neg, smul_dotProduct, dotProduct_smul, smul_eq_mul, smul_eq_mul]
      ring
    simp only [hcost, nanLt, e]
    positivity
  have hshrink : ∀ n l, 0 < l → shrinkLoop (fun l => cost (0 - l • d)) (some 0) n l
      (cost (0 - l • d)) = none := by
    intro n
    induction n with
    | zero => intro l _; rfl
    | succ n ih =>
      intro l hl
      rw [shrinkLoop, if_pos (hpos l hl)]
      exact ih (l / 2) (by linarith)
  have hgrow : growLoop (fun l => cost (0 - l • d)) 4 0.01 (some 0) (cost (0 - (0.01 : ℝ) • d)) =
      (0.01, some 0, cost (0 - (0.01 : ℝ) • d)) := by
    rw [growLoop, if_neg]
    intro h
    exact nanLt_irrefl _ (nanLt_trans (hpos 0.01 (by norm_num)) h)
  rw [geDescend]
  simp only [geIteration, Option.bind_some, hd, Option.map_some, if_true, hgrow]
  rw [hshrink _ _ (by norm_num)]
  rfl

/-- **C56 (central cameras).** When all camera positions are the origin of their frame (a single
camera), the cost is zero at every rotation, the Jacobian is zero, and the result of `ge_main2` is
a NaN for every starting point, whatever the correspondences. -/
theorem C56_central (cs : List GeCorr) (hw : ∀ d ∈ cs, 0 ≤ d.weight)
    (hoff : ∀ d ∈ cs, d.camOffset1 = 0 ∧ d.camOffset2 = 0) (step : Vec3 → ℝ → Vec3 → Vec3)
    (fuel : ℕ) (hf : 0 < fuel) (start : Vec3) (rnd : ℕ → Vec3) :
    (∀ c y, getCost (geSums cs) c 1 = some y → y = 0) ∧
    geSearch (geSums cs) step fuel start rnd = some none := by
  have hzero : ∀ c y, getCost (geSums cs) c 1 = some y → y = 0 := by
    intro c y hy
    obtain ⟨⟨v, hv, e⟩, hmin⟩ := (C55_cost (geSums cs) c y).1 hy
    obtain ⟨-, hform⟩ := C40_form cs c
    apply le_antisymm
    · have h1 := hmin ![0, 0, 0, 1]
      rw [hform, dot4] at h1
      have h2 : (cs.map fun d => d.weight * corrResidual d (cayley2rot c) ![0, 0, 0, 1] ^ 2) =
          cs.map fun _ => (0 : ℝ) := List.map_congr_left fun d hd => by
        have h3 : corrResidual d (cayley2rot c) ![0, 0, 0, 1] = 0 := by
          rw [corrResidual, genResidual, (hoff d hd).1, (hoff d hd).2]
          simp [show (![0, 0, 0] : Vec3) = 0 by apply ext3 <;> simp]
        rw [h3]; ring
      rw [h2] at h1
      simpa using h1
    · have h1 := hform v
      rw [e, dotProduct_smul, smul_eq_mul] at h1
      have hvv : 0 < v ⬝ᵥ v := by
        rw [dot4]
        obtain ⟨i, hi⟩ := Function.ne_iff.1 hv
        have hi2 : 0 < v i * v i := mul_self_pos.2 hi
        have h0 := mul_self_nonneg (v 0)
        have h1 := mul_self_nonneg (v 1)
        have h2 := mul_self_nonneg (v 2)
        have h3 := mul_self_nonneg (v 3)
        fin_cases i <;> simp only [Fin.zero_eta, Fin.mk_one, Fin.reduceFinMk] at hi2 <;> linarith
      have hnn : 0 ≤ (cs.map fun d => d.weight * corrResidual d (cayley2rot c) v ^ 2).sum :=
        List.sum_nonneg fun x hx => by
          obtain ⟨d, hd, rfl⟩ := List.mem_map.1 hx
          have := hw d hd
          positivity
      have h2 : 0 ≤ y * (v ⬝ᵥ v) := by
        rw [h1]; exact mul_nonneg (sq_nonneg _) hnn
      exact nonneg_of_mul_nonneg_left h2 hvv
  exact ⟨hzero, geTrials_const _ _ step fuel hf start rnd 0 hzero 4 0 none⟩

example : (∀ d ∈ axesCentral, 0 ≤ d.weight) ∧
    (∀ d ∈ axesCentral, d.camOffset1 = 0 ∧ d.camOffset2 = 0) := by
  simp [axesCentral]

end OpenGV.Props
