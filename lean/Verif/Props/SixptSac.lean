import Verif.Proof.SixptSac
import Verif.Props.Sixpt
import Verif.Props.SacProblems

/-!
# Property C66: the six point hypotheses of the non-central problems
-/

namespace OpenGV.Props

open Matrix Adapters

/-- **C66 (objective).** For a rotation `R`, the quadratic form of `G` at a translation `t` (with a one
appended) is the sum of the squared deviations from coplanarity: `f1`, `R f2` and the vector between
the two camera positions are coplanar exactly when the term of a correspondence is zero. -/
theorem C66_objective (obs : Fin 6 → RelObs) (R : Mat3) (hR : IsRot R) (t : Vec3) :
    ![t 0, t 1, t 2, 1] ⬝ᵥ (sixG obs R *ᵥ ![t 0, t 1, t 2, 1]) =
      ∑ i, (crossProduct ((obs i).rot1 *ᵥ (obs i).f1) (R *ᵥ ((obs i).rot2 *ᵥ (obs i).f2)) ⬝ᵥ
        (t - (obs i).off1 + R *ᵥ (obs i).off2)) ^ 2 := by
  have h := sixG_quad obs R (homog t)
  simp only [sixNormal_homog _ hR] at h
  exact h

theorem sixG_true {obs : Fin 6 → RelObs} {R : Mat3} (hR : IsRot R) {t : Vec3} {a b : Fin 6 → ℝ}
    (h : ∀ i, (obs i).off1 + a i • ((obs i).rot1 *ᵥ (obs i).f1) =
      R *ᵥ ((obs i).off2 + b i • ((obs i).rot2 *ᵥ (obs i).f2)) + t) :
    sixG obs R *ᵥ homog t = 0 := by
  rw [sixG_mulVec]
  refine Finset.sum_eq_zero fun i _ => ?_
  have e : t - (obs i).off1 + R *ᵥ (obs i).off2 =
      a i • ((obs i).rot1 *ᵥ (obs i).f1) - b i • (R *ᵥ ((obs i).rot2 *ᵥ (obs i).f2)) := by
    have := h i
    rw [mulVec_add, mulVec_smul] at this
    rw [sub_add_eq_add_sub, sub_eq_iff_eq_add, sub_add_eq_add_sub, eq_sub_iff_add_eq]
    rw [add_comm (a i • _), this]
    abel
  rw [sixNormal_homog _ hR, e, dotProduct_sub, dotProduct_smul, dotProduct_smul]
  have h1 : crossProduct ((obs i).rot1 *ᵥ (obs i).f1) (R *ᵥ ((obs i).rot2 *ᵥ (obs i).f2)) ⬝ᵥ
      ((obs i).rot1 *ᵥ (obs i).f1) = 0 := by
    rw [dotProduct_comm]; exact dot_self_cross _ _
  have h2 : crossProduct ((obs i).rot1 *ᵥ (obs i).f1) (R *ᵥ ((obs i).rot2 *ᵥ (obs i).f2)) ⬝ᵥ
      (R *ᵥ ((obs i).rot2 *ᵥ (obs i).f2)) = 0 := by
    rw [dotProduct_comm]; exact dot_cross_self _ _
  rw [h1, h2]
  simp

/-- **C66 (translation).** Six correspondences without noise, the true rotation `R`, and translations
determined up to the equations (the null space of `G` is a line): the translation read from the first
eigenvector of `G` is the true one exactly when the first eigenvalue is zero, which is the case when
the solver lists the smallest eigenvalue first. -/
theorem C66_translation (obs : Fin 6 → RelObs) (R : Mat3) (hR : IsRot R) (t : Vec3) (a b : Fin 6 → ℝ)
    (h : ∀ i, (obs i).off1 + a i • ((obs i).rot1 *ᵥ (obs i).f1) =
      R *ᵥ ((obs i).off2 + b i • ((obs i).rot2 *ᵥ (obs i).f2)) + t)
    (hone : ∀ x, sixG obs R *ᵥ x = 0 → ∃ k : ℝ, x = k • ![t 0, t 1, t 2, 1])
    (D : Fin 4 → ℂ) (V : Matrix (Fin 4) (Fin 4) ℂ) (hV : Spec.IsEigenSystem (sixG obs R) D V) :
    (sixTranslation V = some t ↔ D 0 = 0) ∧ ((∀ j, (D 0).re ≤ (D j).re) → sixTranslation V = some t) := by
  have hker := sixG_true hR h
  have hre := eigenSystem_re hV (eigenSystem_symm hV (sixG_symm obs R) 0)
  have him := eigenSystem_symm hV (sixG_symm obs R) 0
  have key : sixTranslation V = some t ↔ D 0 = 0 := by
    constructor
    · intro ht
      obtain ⟨h3, e⟩ := sixTranslation_some.1 ht
      have h1 := hre.1
      rw [e, mulVec_smul, hker, smul_zero] at h1
      have h2 := congrFun h1 3
      simp only [Pi.zero_apply, Pi.smul_apply, smul_eq_mul] at h2
      rw [show homog t 3 = 1 from rfl, mul_one] at h2
      rcases mul_eq_zero.1 h2.symm with h4 | h4
      · exact Complex.ext h4 him
      · exact absurd h4 h3
    · intro h0
      have h1 := hre.1
      rw [h0, Complex.zero_re, zero_smul] at h1
      obtain ⟨k, hk⟩ := hone _ h1
      have hk' : (fun i => (V i 0).re) = k • homog t := hk
      have h3 : (V 3 0).re = k := by
        have := congrFun hk' 3
        simpa [homog] using this
      refine sixTranslation_some.2 ⟨?_, by rw [h3]; exact hk'⟩
      intro hz
      rw [hz] at h3
      have := hre.2
      rw [hk', ← h3] at this
      simp at this
  refine ⟨key, fun hmin => key.2 ?_⟩
  -- the smallest eigenvalue is zero
  have hb : homog t ≠ 0 := fun e => one_ne_zero (congrFun e 3)
  obtain ⟨j, hj⟩ := eigenvalues_mem hV.values (x := 0) hb (by rw [hker, zero_smul])
  have hle := hmin j
  rw [hj, Complex.ofReal_zero, Complex.zero_re] at hle
  have hpos : 0 ≤ (D 0).re := by
    have hq := sixG_quad obs R fun i => (V i 0).re
    rw [hre.1, dotProduct_smul, hre.2, smul_eq_mul, mul_one] at hq
    rw [hq]
    exact Finset.sum_nonneg fun i _ => sq_nonneg _
  exact Complex.ext (le_antisymm hle hpos) him

/-- **C66 (other columns).** If the first eigenvalue is not zero, the translation that is read is wrong:
its scalar product with the true translation is `-1`. -/
theorem C66_other_column (obs : Fin 6 → RelObs) (R : Mat3) (hR : IsRot R) (t : Vec3) (a b : Fin 6 → ℝ)
    (h : ∀ i, (obs i).off1 + a i • ((obs i).rot1 *ᵥ (obs i).f1) =
      R *ᵥ ((obs i).off2 + b i • ((obs i).rot2 *ᵥ (obs i).f2)) + t)
    (D : Fin 4 → ℂ) (V : Matrix (Fin 4) (Fin 4) ℂ) (hV : Spec.IsEigenSystem (sixG obs R) D V)
    (h0 : D 0 ≠ 0) (t' : Vec3) (ht : sixTranslation V = some t') : t' ⬝ᵥ t = -1 ∧ t' ≠ t := by
  have hker := sixG_true hR h
  have him := eigenSystem_symm hV (sixG_symm obs R) 0
  have hre := (eigenSystem_re hV him).1
  have hne : (D 0).re ≠ 0 := fun e => h0 (Complex.ext e him)
  obtain ⟨h3, e⟩ := sixTranslation_some.1 ht
  have h1 : homog t ⬝ᵥ (sixG obs R *ᵥ fun i => (V i 0).re) = 0 := by
    rw [dotProduct_mulVec, ← mulVec_transpose, sixG_symm, hker, zero_dotProduct]
  rw [hre, e, dotProduct_smul, dotProduct_smul, smul_eq_mul, smul_eq_mul] at h1
  have h2 : homog t ⬝ᵥ homog t' = 0 := by
    rcases mul_eq_zero.1 h1 with h | h
    · exact absurd h hne
    · exact (mul_eq_zero.1 h).resolve_left h3
  have h4 : t' ⬝ᵥ t = -1 := by
    rw [dotProduct, Fin.sum_univ_four] at h2
    simp only [homog, cons_val] at h2
    rw [dot3]
    linarith
  refine ⟨h4, fun e => ?_⟩
  rw [e] at h4
  have := dotProduct_self_star_nonneg t
  simp only [star_trivial] at this
  linarith

theorem mem_sixPoses {obs : Fin 6 → RelObs} {eig4 : Matrix (Fin 4) (Fin 4) ℝ → Matrix (Fin 4) (Fin 4) ℂ}
    {l : List (Option Mat3)} {t : Vec3} {R : Mat3} :
    some (t, R) ∈ sixPoses obs eig4 l ↔ some R ∈ l ∧ sixTranslation (eig4 (sixG obs R)) = some t := by
  unfold sixPoses
  rw [List.mem_map]
  constructor
  · rintro ⟨r, hr, e⟩
    rw [Option.bind_eq_some_iff] at e
    obtain ⟨R', rfl, e⟩ := e
    rw [Option.map_eq_some_iff] at e
    obtain ⟨t', e1, e2⟩ := e
    obtain ⟨rfl, rfl⟩ := Prod.mk.inj e2
    exact ⟨hr, e1⟩
  · rintro ⟨hr, e⟩
    exact ⟨some R, hr, by simp [e]⟩

theorem quality_zero_iff (score : ℕ → Option ℝ) (h0 : ∀ k s, score k = some s → 0 ≤ s) :
    ∀ ks : List ℕ, (∀ q, quality score ks = some q → 0 ≤ q) ∧
      (quality score ks = some 0 ↔ ∀ k ∈ ks, score k = some 0) := by
  intro ks
  induction ks with
  | nil => exact ⟨fun q hq => by simp [quality] at hq; exact hq.le, by simp [quality]⟩
  | cons k ks ih =>
    rw [quality]
    cases hs : score k with
    | none => simp [hs]
    | some s =>
      cases hq : quality score ks with
      | none =>
        refine ⟨by simp, ?_⟩
        rw [hq] at ih
        simp only [reduceCtorEq, List.mem_cons, forall_eq_or_imp, false_iff, not_and]
        exact fun _ h => by simpa using ih.2.2 h
      | some q =>
        have hs0 := h0 k s hs
        have hq0 := ih.1 q hq
        refine ⟨fun q' e => by simp only [Option.some.injEq] at e; linarith, ?_⟩
        rw [hq] at ih
        simp only [Option.some.injEq] at ih
        simp only [Option.some.injEq, List.mem_cons, forall_eq_or_imp, hs]
        constructor
        · intro e
          exact ⟨by linarith, ih.2.1 (by linarith)⟩
        · rintro ⟨e1, e2⟩
          rw [e1, ih.2.2 e2, add_zero]

/-- The choice of a transformation. -/
theorem sixSac_spec {obs : ℕ → RelObs} {eig : Matrix (Fin 64) (Fin 64) ℝ → Matrix (Fin 64) (Fin 64) ℂ}
    {eig4 : Matrix (Fin 4) (Fin 4) ℝ → Matrix (Fin 4) (Fin 4) ℂ} {l : List (Option Mat3)}
    (hl : sixpt (fun i => obs i) eig = some l) :
    (sixSac obs eig eig4 = none ∧
      ∀ P q, some P ∈ sixPoses (fun i => obs i) eig4 l → sixQuality obs (some P) = some q → 1000000 ≤ q) ∨
    ∃ P q, sixSac obs eig eig4 = some P ∧ some P ∈ sixPoses (fun i => obs i) eig4 l ∧
      sixQuality obs (some P) = some q ∧
      ∀ P' q', some P' ∈ sixPoses (fun i => obs i) eig4 l → sixQuality obs (some P') = some q' → q ≤ q' := by
  unfold sixSac
  rw [hl]
  simp only [Option.bind_some]
  generalize sixPoses (fun i => obs i) eig4 l = poses
  rcases minLoop_spec (poses.map (sixQuality obs)) 0 initialScore none with
    ⟨h1, h2⟩ | ⟨k, s, h1, h2, h3, h4, -⟩
  · left
    rw [h1]
    exact ⟨rfl, fun P q hP hq => h2 q (List.mem_map.2 ⟨_, hP, hq⟩)⟩
  · right
    rw [h1, Option.bind_some, Nat.zero_add]
    rw [List.getElem?_map, Option.map_eq_some_iff] at h2
    obtain ⟨P, hP, hq⟩ := h2
    cases P with
    | none => simp [sixQuality] at hq
    | some P =>
      rw [hP]
      exact ⟨P, s, rfl, List.mem_of_getElem? hP, hq, fun P' q' hP' hq' => h4 q' (List.mem_map.2 ⟨_, hP', hq'⟩)⟩

theorem directRotation_orth {R C1 C2 : Mat3} (hR : R.transpose * R = 1) (h1 : C1.transpose * C1 = 1)
    (h2 : C2.transpose * C2 = 1) :
    (directRotation R C1 C2).transpose * directRotation R C1 C2 = 1 := by
  unfold directRotation
  rw [transpose_mul, transpose_mul, transpose_transpose]
  have h3 := rot_mul_transpose h1
  calc C2ᵀ * (Rᵀ * C1) * (C1ᵀ * R * C2) = C2ᵀ * (Rᵀ * (C1 * C1ᵀ) * R) * C2 := by
        simp only [Matrix.mul_assoc]
    _ = 1 := by rw [h3, Matrix.mul_one, hR, Matrix.mul_one, h2]

/-- The meaning of score zero: the two viewing rays meet in front of both cameras. -/
theorem sixScore_zero (P : Pose) (o : RelObs) (hR : P.2.transpose * P.2 = 1)
    (hC1 : o.rot1.transpose * o.rot1 = 1) (hC2 : o.rot2.transpose * o.rot2 = 1)
    (hf1 : o.f1 ⬝ᵥ o.f1 = 1) (hf2 : o.f2 ⬝ᵥ o.f2 = 1) :
    (∀ s, sixScore P o = some s → 0 ≤ s) ∧
    (sixScore P o = some 0 ↔
      crossProduct (o.rot1 *ᵥ o.f1) (P.2 *ᵥ (o.rot2 *ᵥ o.f2)) ≠ 0 ∧
      ∃ a b : ℝ, 0 < a ∧ 0 < b ∧
        o.off1 + a • (o.rot1 *ᵥ o.f1) = P.2 *ᵥ (o.off2 + b • (o.rot2 *ᵥ o.f2)) + P.1) := by
  have hD := directRotation_orth hR hC1 hC2
  have h := C50_two_view (directTranslation P.1 P.2 o.off1 o.off2 o.rot1) (directRotation P.2 o.rot1 o.rot2)
    o.f1 o.f2 hD hf1 hf2
  refine ⟨fun s hs => (h.1 s hs).1, ?_⟩
  unfold sixScore noncentralRelScore
  rw [h.2]
  have hC1' := rot_mul_transpose hC1
  have key : ∀ a b : ℝ, ∀ v : Vec3, a • o.f1 = o.rot1.transpose *ᵥ v + b • (directRotation P.2 o.rot1 o.rot2 *ᵥ o.f2) ↔
      a • (o.rot1 *ᵥ o.f1) = v + b • (P.2 *ᵥ (o.rot2 *ᵥ o.f2)) := by
    intro a b v
    constructor
    · intro e
      have := congrArg (fun w => o.rot1 *ᵥ w) e
      simp only [mulVec_add, mulVec_smul, directRotation, mulVec_mulVec, ← Matrix.mul_assoc, hC1', one_mulVec,
        Matrix.one_mul] at this
      rw [this, mulVec_mulVec]
    · intro e
      have := congrArg (fun w => o.rot1.transpose *ᵥ w) e
      simp only [mulVec_add, mulVec_smul, mulVec_mulVec, hC1, one_mulVec] at this
      rw [this, directRotation]
      simp only [Matrix.mul_assoc]
  constructor
  · rintro ⟨h1, a, b, ha, hb, e⟩
    refine ⟨fun hc => h1 ?_, a, b, ha, hb, ?_⟩
    · obtain ⟨a, b, hab, e⟩ := (cross_eq_zero_iff _ _).1 hc
      refine ⟨a, b, hab, ?_⟩
      have := (key a b 0).2 (by rw [zero_add]; exact e)
      rwa [mulVec_zero, zero_add] at this
    · have := (key a b _).1 e
      rw [this, mulVec_add, mulVec_smul]
      abel
  · rintro ⟨h1, a, b, ha, hb, e⟩
    refine ⟨fun ⟨a, b, hab, e⟩ => h1 ?_, a, b, ha, hb, ?_⟩
    · rw [cross_eq_zero_iff]
      refine ⟨a, b, hab, ?_⟩
      have := (key a b 0).1 (by rw [mulVec_zero, zero_add]; exact e)
      rwa [zero_add] at this
    · refine (key a b _).2 ?_
      rw [mulVec_add, mulVec_smul] at e
      rw [sub_add_eq_add_sub, sub_add_eq_add_sub, eq_sub_iff_add_eq, add_comm, e]
      abel

/-- **C66 (choice).** For a sample with unit bearing vectors and cameras with rotations: if a
transformation among the candidates explains the three further correspondences (the viewing rays of
each meet in front of both cameras, and are not parallel), then the problem returns a transformation,
one of the candidates, that explains them. -/
theorem C66_choice (obs : ℕ → RelObs) (eig : Matrix (Fin 64) (Fin 64) ℝ → Matrix (Fin 64) (Fin 64) ℂ)
    (eig4 : Matrix (Fin 4) (Fin 4) ℝ → Matrix (Fin 4) (Fin 4) ℂ) {l : List (Option Mat3)}
    (hl : sixpt (fun i => obs i) eig = some l)
    (hC : ∀ k, (obs k).rot1.transpose * (obs k).rot1 = 1 ∧ (obs k).rot2.transpose * (obs k).rot2 = 1)
    (hf : ∀ k, (obs k).f1 ⬝ᵥ (obs k).f1 = 1 ∧ (obs k).f2 ⬝ᵥ (obs k).f2 = 1) :
    let explains : Pose → Prop := fun P => ∀ k ∈ [6, 7, 8],
      crossProduct ((obs k).rot1 *ᵥ (obs k).f1) (P.2 *ᵥ ((obs k).rot2 *ᵥ (obs k).f2)) ≠ 0 ∧
      ∃ a b : ℝ, 0 < a ∧ 0 < b ∧ (obs k).off1 + a • ((obs k).rot1 *ᵥ (obs k).f1) =
        P.2 *ᵥ ((obs k).off2 + b • ((obs k).rot2 *ᵥ (obs k).f2)) + P.1
    ∀ P, some P ∈ sixPoses (fun i => obs i) eig4 l → explains P →
      ∃ Q, sixSac obs eig eig4 = some Q ∧ some Q ∈ sixPoses (fun i => obs i) eig4 l ∧ explains Q := by
  intro explains P hP hex
  have hrot : ∀ Q : Pose, some Q ∈ sixPoses (fun i => obs i) eig4 l → Q.2.transpose * Q.2 = 1 := fun Q hQ =>
    ((C65_rotations _ eig hl).2 Q.2 (mem_sixPoses.1 hQ).1).1
  have hsc : ∀ Q : Pose, some Q ∈ sixPoses (fun i => obs i) eig4 l → ∀ k, _ := fun Q hQ k =>
    sixScore_zero Q (obs k) (hrot Q hQ) (hC k).1 (hC k).2 (hf k).1 (hf k).2
  have hq : ∀ Q : Pose, some Q ∈ sixPoses (fun i => obs i) eig4 l →
      (∀ q, sixQuality obs (some Q) = some q → 0 ≤ q) ∧ (sixQuality obs (some Q) = some 0 ↔ explains Q) := by
    intro Q hQ
    have := quality_zero_iff (fun k => sixScore Q (obs k)) (fun k => (hsc Q hQ k).1) [6, 7, 8]
    refine ⟨this.1, ?_⟩
    show quality _ _ = _ ↔ _
    rw [this.2]
    exact forall₂_congr fun k _ => (hsc Q hQ k).2
  have hP0 := (hq P hP).2.2 hex
  rcases sixSac_spec (eig4 := eig4) hl with ⟨-, h⟩ | ⟨Q, q, h1, h2, h3, h4⟩
  · have := h P 0 hP hP0
    norm_num at this
  · have h5 := h4 P 0 hP hP0
    have h6 := (hq Q h2).1 q h3
    obtain rfl : q = 0 := le_antisymm h5 h6
    exact ⟨Q, h1, h2, (hq Q h2).2.1 h3⟩

/-- **C66 (true pose).** Nine correspondences without noise: under the conditions of `C65_true_rotation`
and `C66_translation`, and if the eigenvalue solver lists the smallest eigenvalue of `G` first, the
true pose is among the candidates. -/
theorem C66_true_pose (obs : ℕ → RelObs) (c t : Vec3) (a b : Fin 6 → ℝ)
    (h1 : ∀ i : Fin 6, ((obs i).rot1 *ᵥ (obs i).f1) ⬝ᵥ ((obs i).rot1 *ᵥ (obs i).f1) = 1)
    (h2 : ∀ i : Fin 6, ((obs i).rot2 *ᵥ (obs i).f2) ⬝ᵥ ((obs i).rot2 *ᵥ (obs i).f2) = 1)
    (h : ∀ i : Fin 6, (obs i).off1 + a i • ((obs i).rot1 *ᵥ (obs i).f1) =
      (cayley2rot c)ᵀ *ᵥ ((obs i).off2 + b i • ((obs i).rot2 *ᵥ (obs i).f2)) + t)
    {Action} (hs : sixSetup (sixL1 fun i => obs i) (sixL2 fun i => obs i) = some Action)
    (hone : ∀ y z : Fin 64 → ℝ, Action *ᵥ y = c 2 • y → Action *ᵥ z = c 2 • z → z ≠ 0 → ∃ k : ℝ, y = k • z)
    (hone4 : ∀ x, sixG (fun i => obs i) (cayley2rot c)ᵀ *ᵥ x = 0 → ∃ k : ℝ, x = k • ![t 0, t 1, t 2, 1])
    (D : Fin 64 → ℂ) (eig : Matrix (Fin 64) (Fin 64) ℝ → Matrix (Fin 64) (Fin 64) ℂ)
    (hV : Spec.IsEigenSystem Action D (eig Action))
    (D4 : Fin 4 → ℂ) (eig4 : Matrix (Fin 4) (Fin 4) ℝ → Matrix (Fin 4) (Fin 4) ℂ)
    (hV4 : Spec.IsEigenSystem (sixG (fun i => obs i) (cayley2rot c)ᵀ) D4
      (eig4 (sixG (fun i => obs i) (cayley2rot c)ᵀ)))
    (hfirst : ∀ j, (D4 0).re ≤ (D4 j).re) :
    ∃ l, sixpt (fun i => obs i) eig = some l ∧ some (t, (cayley2rot c)ᵀ) ∈ sixPoses (fun i => obs i) eig4 l := by
  obtain ⟨l, hl, hm⟩ := C65_true_rotation (fun i => obs i) c t a b h1 h2 h hs hone D eig hV
  refine ⟨l, hl, mem_sixPoses.2 ⟨hm, ?_⟩⟩
  exact (C66_translation _ _ (cayley2rot_isRot c).transpose t a b h hone4 D4 _ hV4).2 hfirst

/-- **C66 (defect).** The order of the eigenvalues is not specified for the solver that is used. For
every sample without noise (and `G` not zero) there is an eigenvalue solver that meets its
specification on all matrices, for which the true pose is not among the candidates, and is
not the result. -/
theorem C66_order_defect (obs : ℕ → RelObs) (R : Mat3) (hR : IsRot R) (t : Vec3) (a b : Fin 6 → ℝ)
    (h : ∀ i : Fin 6, (obs i).off1 + a i • ((obs i).rot1 *ᵥ (obs i).f1) =
      R *ᵥ ((obs i).off2 + b i • ((obs i).rot2 *ᵥ (obs i).f2)) + t)
    (hG : sixG (fun i => obs i) R ≠ 0) :
    ∃ eig4 : Matrix (Fin 4) (Fin 4) ℝ → Matrix (Fin 4) (Fin 4) ℂ,
      (∀ M, ∃ D, Spec.IsEigenSystem M D (eig4 M)) ∧
      ∀ eig : Matrix (Fin 64) (Fin 64) ℝ → Matrix (Fin 64) (Fin 64) ℂ,
        (∀ l, sixpt (fun i => obs i) eig = some l → some (t, R) ∉ sixPoses (fun i => obs i) eig4 l) ∧
        sixSac obs eig eig4 ≠ some (t, R) := by
  obtain ⟨D, V, hV⟩ := exists_eigenSystem (sixG (fun i : Fin 6 => obs i) R)
  have hnz : ∃ j, D j ≠ 0 := by
    by_contra hc
    push Not at hc
    exact hG (eq_zero_of_eigenvalues (sixG_symm _ _) hV.values hc)
  obtain ⟨j, hj⟩ := hnz
  have hV' := isEigenSystem_perm hV (Equiv.swap 0 j)
  choose D0 V0 h0 using fun M : Matrix (Fin 4) (Fin 4) ℝ => exists_eigenSystem M
  classical
  refine ⟨fun M => if M = sixG (fun i => obs i) R then V.submatrix id (Equiv.swap 0 j) else V0 M, ?_, ?_⟩
  · intro M
    simp only
    split
    · rename_i hM
      rw [hM]
      exact ⟨_, hV'⟩
    · exact ⟨_, h0 M⟩
  intro eig
  set eig4 : Matrix (Fin 4) (Fin 4) ℝ → Matrix (Fin 4) (Fin 4) ℂ :=
    fun M => if M = sixG (fun i => obs i) R then V.submatrix id (Equiv.swap 0 j) else V0 M with heig
  have hnot : ∀ l, some (t, R) ∉ sixPoses (fun i => obs i) eig4 l := by
    intro l hm
    have ht := (mem_sixPoses.1 hm).2
    have he : eig4 (sixG (fun i => obs i) R) = V.submatrix id (Equiv.swap 0 j) := by
      rw [heig]; exact if_pos rfl
    rw [he] at ht
    exact (C66_other_column (fun i => obs i) R hR t a b h _ _ hV' (by simpa using hj) t ht).2 rfl
  refine ⟨fun l _ => hnot l, fun hres => ?_⟩
  cases hl : sixpt (fun i => obs i) eig with
  | none => simp [sixSac, hl] at hres
  | some l =>
    rcases sixSac_spec (eig4 := eig4) hl with ⟨hn, -⟩ | ⟨P, q, e1, e2, -⟩
    · rw [hn] at hres; simp at hres
    · rw [e1] at hres
      obtain rfl := Option.some.inj hres
      exact hnot l e2

/-! ## The example -/

theorem sixCay_rot : (cayley2rot sixCay)ᵀ = !![0, 1, 0; 0, 0, 1; 1, 0, 0] := by
  apply mat3_ext <;> simp [cayley2rot, sixCay] <;> norm_num

/-- A sample: the correspondences of the example, the first three once more. -/
noncomputable def sixNine (k : ℕ) : RelObs := sixObs ⟨k % 6, Nat.mod_lt _ (by norm_num)⟩

theorem sixNine_six : (fun i : Fin 6 => sixNine i) = sixObs := by
  funext i
  unfold sixNine
  congr 1
  exact Fin.ext (Nat.mod_eq_of_lt i.2)

theorem sixObs_cross :
    crossProduct ((sixObs 0).rot1 *ᵥ (sixObs 0).f1) ((cayley2rot sixCay)ᵀ *ᵥ ((sixObs 0).rot2 *ᵥ (sixObs 0).f2)) =
      ![5 / 9, -6 / 9, -2 / 9] ∧
    crossProduct ((sixObs 1).rot1 *ᵥ (sixObs 1).f1) ((cayley2rot sixCay)ᵀ *ᵥ ((sixObs 1).rot2 *ᵥ (sixObs 1).f2)) =
      ![-6 / 9, -6 / 9, -3 / 9] ∧
    crossProduct ((sixObs 2).rot1 *ᵥ (sixObs 2).f1) ((cayley2rot sixCay)ᵀ *ᵥ ((sixObs 2).rot2 *ᵥ (sixObs 2).f2)) =
      ![4 / 9, 0, 4 / 9] := by
  rw [sixCay_rot]
  refine ⟨?_, ?_, ?_⟩ <;> apply ext3 <;>
    simp [sixObs, sixF1, sixF2, cross_apply, vecHead, vecTail] <;> norm_num

theorem sixObs_ker (x : Fin 4 → ℝ) (hx : sixG sixObs (cayley2rot sixCay)ᵀ *ᵥ x = 0) :
    ∃ k : ℝ, x = k • ![sixTr 0, sixTr 1, sixTr 2, 1] := by
  have ht := sixG_true (cayley2rot_isRot sixCay).transpose sixObs_exact
  have hy : ∀ i, sixNormal (sixObs i) (cayley2rot sixCay)ᵀ ⬝ᵥ (x - x 3 • homog sixTr) = 0 := fun i =>
    sixG_ker (by rw [mulVec_sub, mulVec_smul, hx, ht, smul_zero, sub_zero]) i
  set y := x - x 3 • homog sixTr with hyd
  have y3 : y 3 = 0 := by
    show x 3 - x 3 * 1 = 0
    ring
  have hn : ∀ i, crossProduct ((sixObs i).rot1 *ᵥ (sixObs i).f1)
      ((cayley2rot sixCay)ᵀ *ᵥ ((sixObs i).rot2 *ᵥ (sixObs i).f2)) ⬝ᵥ ![y 0, y 1, y 2] = 0 := by
    intro i
    rw [← hy i, dot3]
    simp [sixNormal, dotProduct, Fin.sum_univ_four, y3]
  obtain ⟨c0, c1, c2⟩ := sixObs_cross
  have h0 := hn 0
  have h1 := hn 1
  have h2 := hn 2
  rw [c0, dot3] at h0
  rw [c1, dot3] at h1
  rw [c2, dot3] at h2
  simp only [cons_val] at h0 h1 h2
  refine ⟨x 3, ?_⟩
  have hz : y = 0 := by
    funext i
    fin_cases i
    · show y 0 = 0; linarith
    · show y 1 = 0; linarith
    · show y 2 = 0; linarith
    · exact y3
  exact sub_eq_zero.1 hz

theorem sixNine_explained : ∀ k ∈ [6, 7, 8],
    crossProduct ((sixNine k).rot1 *ᵥ (sixNine k).f1)
      ((cayley2rot sixCay)ᵀ *ᵥ ((sixNine k).rot2 *ᵥ (sixNine k).f2)) ≠ 0 ∧
    ∃ a b : ℝ, 0 < a ∧ 0 < b ∧ (sixNine k).off1 + a • ((sixNine k).rot1 *ᵥ (sixNine k).f1) =
      (cayley2rot sixCay)ᵀ *ᵥ ((sixNine k).off2 + b • ((sixNine k).rot2 *ᵥ (sixNine k).f2)) + sixTr := by
  have hd : ∀ i : Fin 6, 0 < sixDepth 0 i ∧ 0 < sixDepth 1 i := by decide +kernel
  have hpos : ∀ i : Fin 6, ∃ a b : ℝ, 0 < a ∧ 0 < b ∧ (sixObs i).off1 + a • ((sixObs i).rot1 *ᵥ (sixObs i).f1) =
      (cayley2rot sixCay)ᵀ *ᵥ ((sixObs i).off2 + b • ((sixObs i).rot2 *ᵥ (sixObs i).f2)) + sixTr := fun i =>
    ⟨3 * sixDepth 0 i, 3 * sixDepth 1 i, by have := (hd i).1; positivity, by have := (hd i).2; positivity,
      sixObs_exact i⟩
  obtain ⟨c0, c1, c2⟩ := sixObs_cross
  intro k hk
  simp only [List.mem_cons, List.not_mem_nil, or_false] at hk
  rcases hk with rfl | rfl | rfl
  · refine ⟨fun h => ?_, hpos 0⟩
    have e := congrFun (c0.symm.trans h) 0
    norm_num at e
  · refine ⟨fun h => ?_, hpos 1⟩
    have e := congrFun (c1.symm.trans h) 0
    norm_num at e
  · refine ⟨fun h => ?_, hpos 2⟩
    have e := congrFun (c2.symm.trans h) 0
    norm_num at e

theorem sixG_ne_zero : sixG sixObs (cayley2rot sixCay)ᵀ ≠ 0 := by
  intro h
  obtain ⟨k, hk⟩ := sixObs_ker ![0, 1, 0, 0] (by rw [h, zero_mulVec])
  have h1 := congrFun hk 1
  have h3 : sixTr 1 = 0 := rfl
  simp [h3] at h1

/-- An eigenvalue solver that lists the smallest eigenvalue of a symmetric matrix first. -/
theorem exists_sorted (M : Matrix (Fin 4) (Fin 4) ℝ) :
    ∃ D V, Spec.IsEigenSystem M D V ∧ ∀ j, (D 0).re ≤ (D j).re := by
  obtain ⟨D, V, h⟩ := exists_eigenSystem M
  obtain ⟨π, hπ⟩ := exists_sort_desc fun i => -(D i).re
  refine ⟨_, _, isEigenSystem_perm h π, fun j => ?_⟩
  have := hπ 0 j (Fin.zero_le j)
  simpa using this

example : (∀ i, (sixObs i).off1 + (3 * sixDepth 0 i : ℝ) • ((sixObs i).rot1 *ᵥ (sixObs i).f1) =
      (cayley2rot sixCay)ᵀ *ᵥ ((sixObs i).off2 + (3 * sixDepth 1 i : ℝ) • ((sixObs i).rot2 *ᵥ (sixObs i).f2)) +
        sixTr) ∧
    (∀ x, sixG sixObs (cayley2rot sixCay)ᵀ *ᵥ x = 0 → ∃ k : ℝ, x = k • ![sixTr 0, sixTr 1, sixTr 2, 1]) ∧
    (∃ D V, Spec.IsEigenSystem (sixG sixObs (cayley2rot sixCay)ᵀ) D V ∧ ∀ j, (D 0).re ≤ (D j).re) ∧
    ∃ D V, Spec.IsEigenSystem (sixG sixObs (cayley2rot sixCay)ᵀ) D V ∧ D 0 ≠ 0 := by
  refine ⟨sixObs_exact, sixObs_ker, exists_sorted _, ?_⟩
  obtain ⟨D, V, hV⟩ := exists_eigenSystem (sixG sixObs (cayley2rot sixCay)ᵀ)
  have hnz : ∃ j, D j ≠ 0 := by
    by_contra hc
    push Not at hc
    exact sixG_ne_zero (eq_zero_of_eigenvalues (sixG_symm _ _) hV.values hc)
  obtain ⟨j, hj⟩ := hnz
  exact ⟨_, _, isEigenSystem_perm hV (Equiv.swap 0 j), by simpa using hj⟩

/-- The conditions of `C66_choice`, `C66_true_pose` and `C66_order_defect` can be met, and then the
result explains the three further correspondences. -/
example : ∃ (eig : Matrix (Fin 64) (Fin 64) ℝ → Matrix (Fin 64) (Fin 64) ℂ)
    (eig4 : Matrix (Fin 4) (Fin 4) ℝ → Matrix (Fin 4) (Fin 4) ℂ),
    (∃ l, sixpt (fun i => sixNine i) eig = some l ∧
      some (sixTr, (cayley2rot sixCay)ᵀ) ∈ sixPoses (fun i => sixNine i) eig4 l) ∧
    ∃ Q, sixSac sixNine eig eig4 = some Q := by
  obtain ⟨A, hA, huniq⟩ := sixObs_setup
  obtain ⟨D, V, hV⟩ := exists_eigenSystem A
  obtain ⟨D4, V4, hV4, hfirst⟩ := exists_sorted (sixG sixObs (cayley2rot sixCay)ᵀ)
  have hex := C66_true_pose sixNine sixCay sixTr (fun i => 3 * sixDepth 0 i) (fun i => 3 * sixDepth 1 i)
    (fun i => by rw [show sixNine i = sixObs i from congrFun sixNine_six i]; exact sixObs_unit.1 i)
    (fun i => by rw [show sixNine i = sixObs i from congrFun sixNine_six i]; exact sixObs_unit.2 i)
    (fun i => by rw [show sixNine i = sixObs i from congrFun sixNine_six i]; exact sixObs_exact i)
    (by rw [sixNine_six]; exact hA)
    (by
      intro y z hy hz hz0
      rw [show sixCay 2 = 1 from rfl] at hy hz
      have hz7 : z 63 ≠ 0 := fun h => hz0 (huniq z hz h)
      refine ⟨y 63 / z 63, ?_⟩
      have := huniq (y - (y 63 / z 63) • z)
        (by rw [mulVec_sub, mulVec_smul, hy, hz, smul_sub, smul_comm])
        (by simp [div_mul_cancel₀ _ hz7])
      exact sub_eq_zero.1 this)
    (by rw [sixNine_six]; exact sixObs_ker)
    D (fun _ => V) hV D4 (fun _ => V4) (by rw [sixNine_six]; exact hV4) hfirst
  obtain ⟨l, hl, hm⟩ := hex
  obtain ⟨Q, hQ, -⟩ := C66_choice sixNine (fun _ => V) (fun _ => V4) hl
    (fun k => by simp [sixNine, sixObs])
    (fun k => ⟨by simpa [sixNine, sixObs] using sixObs_unit.1 _, by simpa [sixNine, sixObs] using sixObs_unit.2 _⟩)
    _ hm sixNine_explained
  exact ⟨_, _, ⟨l, hl, hm⟩, Q, hQ⟩

example : ∃ (obs : ℕ → RelObs) (R : Mat3) (t : Vec3) (a b : Fin 6 → ℝ), IsRot R ∧
    (∀ i : Fin 6, (obs i).off1 + a i • ((obs i).rot1 *ᵥ (obs i).f1) =
      R *ᵥ ((obs i).off2 + b i • ((obs i).rot2 *ᵥ (obs i).f2)) + t) ∧ sixG (fun i => obs i) R ≠ 0 :=
  ⟨sixNine, (cayley2rot sixCay)ᵀ, sixTr, fun i => 3 * sixDepth 0 i, fun i => 3 * sixDepth 1 i,
    (cayley2rot_isRot _).transpose,
    fun i => by rw [show sixNine i = sixObs i from congrFun sixNine_six i]; exact sixObs_exact i,
    by rw [sixNine_six]; exact sixG_ne_zero⟩

end OpenGV.Props
