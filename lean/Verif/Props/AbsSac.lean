import Verif.Model.AbsSac
import Verif.Props.SacProblems
import Verif.Props.P3p
import Verif.Props.Epnp
import Verif.Props.Gp3p

/-!
# Property C68: hypotheses of the absolute pose problems
-/

namespace OpenGV.Props

open Matrix OpenGV.Spec Adapters

/-- A body with the pose `(T, Q)` sees the point of the correspondence with one of its cameras, at a
positive depth. -/
def BodySees (T : Vec3) (Q : Mat3) (o : AbsObs) : Prop :=
  ∃ l : ℝ, 0 < l ∧ o.p = Q *ᵥ (l • (o.rot *ᵥ o.f) + o.off) + T

theorem bodySees_reprojection {T : Vec3} {Q : Mat3} (hQ : IsRot Q) {o : AbsObs}
    (hC : o.rotᵀ * o.rot = 1) :
    BodySees T Q o ↔ ∃ d : ℝ, 0 < d ∧ absReprojection (T, Q) o.off o.rot o.p = d • o.f := by
  have hQ' := rot_mul_transpose hQ.1
  have hC' := rot_mul_transpose hC
  refine exists_congr fun l => and_congr_right fun _ => ?_
  simp only [absReprojection]
  constructor
  · intro h
    rw [h, mulVec_add, mulVec_mulVec, hQ.1, one_mulVec]
    rw [show l • (o.rot *ᵥ o.f) + o.off + Qᵀ *ᵥ T + -(Qᵀ *ᵥ T) - o.off = l • (o.rot *ᵥ o.f) by abel,
      mulVec_smul, mulVec_mulVec, hC, one_mulVec]
  · intro h
    have h1 := congrArg (fun x => o.rot *ᵥ x) h
    simp only [mulVec_mulVec, hC', one_mulVec, mulVec_smul] at h1
    rw [← h1, sub_add_cancel, mulVec_add, mulVec_neg, mulVec_mulVec, mulVec_mulVec, hQ', one_mulVec,
      one_mulVec]
    abel

/-- A camera with the extrinsics `(o, C)` of a body with the pose `(T, Q)` has the pose
`(T + Q o, Q C)`. -/
theorem bodySees_camera {T : Vec3} {Q : Mat3} {o : AbsObs} (h : BodySees T Q o) :
    Spec.Sees (T + Q *ᵥ o.off) (Q * o.rot) o.f o.p := by
  obtain ⟨l, hl, e⟩ := h
  refine ⟨l, hl, ?_⟩
  rw [e, mulVec_add, mulVec_smul, ← mulVec_mulVec]
  abel

theorem toBodyAbs_camera {T : Vec3} {Q : Mat3} {o : Vec3} {C : Mat3} (hC : Cᵀ * C = 1) :
    toBodyAbs (T + Q *ᵥ o, Q * C) o C = (T, Q) := by
  have hC' := rot_mul_transpose hC
  simp only [toBodyAbs, Matrix.mul_assoc, hC', Matrix.mul_one, add_sub_cancel_right]

/-- **C68 (bounds).** For a sample of the size the problem asks for, with valid indices, nothing is read
outside a vector, whatever the solvers return. -/
theorem C68_in_bounds (alg : AbsAlg) (S : AbsSolvers) (A : AbsAdapter) (R : Mat3) (idx : List ℕ)
    (hlen : idx.length = absSampleSize alg) (hidx : ∀ i ∈ idx, ∃ o, A.read i = some o) :
    absSac alg S A R idx ≠ .outside := by
  have hread : ∀ k, k < idx.length → ∃ o, sampleRead A idx k = some o := fun k hk => by
    unfold sampleRead
    rw [List.getElem?_eq_getElem hk]
    exact hidx _ (List.getElem_mem hk)
  have hchoose : ∀ l : List (Option Pose), (3 < idx.length ∨ ∃ P, l = [P]) →
      absChoose A idx (.sols l) ≠ .outside := by
    intro l hl
    unfold absChoose
    split
    · rename_i h
      cases h
    · rename_i h
      cases h
    · simp
    · simp
    · rename_i l' hl1 hl2 h
      cases h
      rcases hl with hl | ⟨P, rfl⟩
      · obtain ⟨o, ho⟩ := hread 3 hl
        rw [ho]
        simp only
        split <;> simp
      · exact absurd rfl (hl2 P)
  unfold absSac
  cases alg with
  | twopt =>
    obtain ⟨a, ha⟩ := hread 0 (by rw [hlen]; decide)
    obtain ⟨b, hb⟩ := hread 1 (by rw [hlen]; decide)
    simp only [absSolutions, ha, hb]
    split
    · simp [absChoose]
    · exact hchoose _ (Or.inr ⟨_, rfl⟩)
  | kneip =>
    obtain ⟨a, ha⟩ := hread 0 (by rw [hlen]; decide)
    obtain ⟨b, hb⟩ := hread 1 (by rw [hlen]; decide)
    obtain ⟨c, hc⟩ := hread 2 (by rw [hlen]; decide)
    simp only [absSolutions, ha, hb, hc]
    exact hchoose _ (Or.inl (by rw [hlen]; decide))
  | gao =>
    obtain ⟨a, ha⟩ := hread 0 (by rw [hlen]; decide)
    obtain ⟨b, hb⟩ := hread 1 (by rw [hlen]; decide)
    obtain ⟨c, hc⟩ := hread 2 (by rw [hlen]; decide)
    simp only [absSolutions, ha, hb, hc]
    exact hchoose _ (Or.inl (by rw [hlen]; decide))
  | epnp =>
    have : ∀ l : List ℕ, (∀ i ∈ l, ∃ o, A.read i = some o) → ∃ m, l.mapM A.read = some m ∧
        m.length = l.length := by
      intro l
      induction l with
      | nil => exact fun _ => ⟨[], rfl, rfl⟩
      | cons x xs ih =>
        intro h
        obtain ⟨o, ho⟩ := h x (by simp)
        obtain ⟨m, hm, hl⟩ := ih fun i hi => h i (by simp [hi])
        exact ⟨o :: m, by simp [List.mapM_cons, ho, hm], by simp [hl]⟩
    obtain ⟨m, hm, hl⟩ := this idx hidx
    rw [hlen] at hl
    cases m with
    | nil => cases hl
    | cons a as =>
      simp only [absSolutions, hm]
      split
      · exact hchoose _ (Or.inr ⟨_, rfl⟩)
      · exact hchoose _ (Or.inr ⟨_, rfl⟩)
      · simp [absChoose]
  | gp3p =>
    match idx, hlen with
    | [i0, i1, i2, i3], _ =>
      obtain ⟨a, ha⟩ := hidx i0 (by simp)
      obtain ⟨b, hb⟩ := hidx i1 (by simp)
      obtain ⟨c, hc⟩ := hidx i2 (by simp)
      have h := (rfl : OpenGV.gp3p A i0 i1 i2 S.eig = OpenGV.gp3p A i0 i1 i2 S.eig)
      conv_rhs at h => unfold OpenGV.gp3p
      rw [ha, hb, hc] at h
      simp only [absSolutions, h]
      split
      · rename_i h'
        cases h'
      · simp [absChoose]
      · exact hchoose _ (Or.inl (by simp))

/-- If the true pose is among the solutions and the fourth correspondence is seen by it, the model that
is returned sees the fourth correspondence, too. -/
theorem absChoose_exact {A : AbsAdapter} {idx : List ℕ} {l : List (Option Pose)} {T : Vec3} {Q : Mat3}
    (hmem : some (T, Q) ∈ l) {o : AbsObs} (ho : sampleRead A idx 3 = some o) (hf : o.f ⬝ᵥ o.f = 1)
    (hs : ∃ d : ℝ, 0 < d ∧ absReprojection (T, Q) o.off o.rot o.p = d • o.f) :
    ∃ P, some P ∈ l ∧ absChoose A idx (.sols l) = .model (some P) ∧
      ∃ d : ℝ, 0 < d ∧ absReprojection P o.off o.rot o.p = d • o.f := by
  unfold absChoose
  split
  · rename_i h
    cases h
  · rename_i h
    cases h
  · rename_i h
    cases h
    simp at hmem
  · rename_i h
    cases h
    rw [List.mem_singleton] at hmem
    subst hmem
    exact ⟨(T, Q), by simp, rfl, hs⟩
  · rename_i l' h1 h2 h
    cases h
    have hlen : l.length ≠ 1 := by
      intro h
      obtain ⟨x, rfl⟩ := List.length_eq_one_iff.1 h
      exact h2 x rfl
    have hz : absCandScore o (some (T, Q)) = some 0 :=
      (C50_absolute (T, Q) o.off o.rot o.p o.f hf).2.2.2 hs
    obtain ⟨c1, c2⟩ := (C48_best_candidate (absCandScore o) l).2 hlen
    rw [ho]
    simp only
    cases hr : pickCandidate (absCandScore o) l with
    | none =>
      have := c1.1 hr _ hmem 0 hz
      norm_num at this
    | some X =>
      obtain ⟨k, s, a, b, -, c, -⟩ := c2 X hr
      cases X with
      | none => cases b
      | some P =>
        have hs0 : s = 0 := le_antisymm (c _ hmem 0 hz)
          ((C50_absolute P o.off o.rot o.p o.f hf).2.1 s b).1
        rw [hs0] at b
        exact ⟨P, List.mem_of_getElem? a, rfl, (C50_absolute P o.off o.rot o.p o.f hf).2.2.1 b⟩

theorem mem_posesToBody {l : List (Option Pose)} {T : Vec3} {Q : Mat3} {o : Vec3} {C : Mat3}
    (hC : Cᵀ * C = 1) (h : some (T + Q *ᵥ o, Q * C) ∈ l) : some (T, Q) ∈ posesToBody l o C := by
  unfold posesToBody
  rw [List.mem_map]
  exact ⟨_, h, by rw [Option.map_some, toBodyAbs_camera hC]⟩

/-- **C68 (KNEIP).** Four correspondences without noise, seen by one camera of a body with the pose
`(T, Q)`. If `p3p_kneip` returns a pose at all and the third point does not have the exceptional position
of C42, the true pose is among the solutions, and the model that is returned sees the fourth point
exactly as it was measured. -/
theorem C68_kneip (S : AbsSolvers) (A : AbsAdapter) (R : Mat3) (idx : List ℕ) (a b c o : AbsObs)
    (h0 : sampleRead A idx 0 = some a) (h1 : sampleRead A idx 1 = some b)
    (h2 : sampleRead A idx 2 = some c) (h3 : sampleRead A idx 3 = some o)
    (hC : IsRot a.rot) (hb : b.rot = a.rot ∧ b.off = a.off) (hc : c.rot = a.rot ∧ c.off = a.off)
    (ho : o.rot = a.rot) (ua : a.f ⬝ᵥ a.f = 1) (ub : b.f ⬝ᵥ b.f = 1) (uo : o.f ⬝ᵥ o.f = 1)
    (T : Vec3) (Q : Mat3) (hQ : IsRot Q) (sa : BodySees T Q a) (sb : BodySees T Q b)
    (sc : BodySees T Q c) (so : BodySees T Q o)
    (hcirc : ¬ ProjectionConcyclic a.p b.p c.p (T + Q *ᵥ a.off))
    (hfin : ∃ P, some P ∈ p3pKneip a.f b.f c.f a.p b.p c.p) :
    ∃ l, absSolutions .kneip S A R idx = .sols l ∧ some (T, Q) ∈ l ∧
      ∃ P, some P ∈ l ∧ absSac .kneip S A R idx = .model (some P) ∧
        ∃ d : ℝ, 0 < d ∧ absReprojection P o.off o.rot o.p = d • o.f := by
  have ka := bodySees_camera sa
  have kb := bodySees_camera sb
  have kc := bodySees_camera sc
  rw [hb.1, hb.2] at kb
  rw [hc.1, hc.2] at kc
  have hR : IsRot (Q * a.rot) := hQ.mul hC
  have hmem := mem_posesToBody hC.1
    (C42_true_pose a.f b.f c.f a.p b.p c.p _ _ ua ub hR.1 hR.2 ka kb kc hcirc hfin)
  have hs : absSolutions .kneip S A R idx =
      .sols (posesToBody (p3pKneip a.f b.f c.f a.p b.p c.p) a.off a.rot) := by
    simp only [absSolutions, h0, h1, h2]
  refine ⟨_, hs, hmem, ?_⟩
  unfold absSac
  rw [hs]
  exact absChoose_exact hmem h3 uo ((bodySees_reprojection hQ (by rw [ho]; exact hC.1)).1 so)

/-- **C68 (GAO).** As for KNEIP, for points that are not on a line and every singular value
decomposition. -/
theorem C68_gao (S : AbsSolvers) (hS : ∀ H, ∃ σ, IsSvd H (S.svd H).1 (S.svd H).2 σ) (A : AbsAdapter)
    (R : Mat3) (idx : List ℕ) (a b c o : AbsObs)
    (h0 : sampleRead A idx 0 = some a) (h1 : sampleRead A idx 1 = some b)
    (h2 : sampleRead A idx 2 = some c) (h3 : sampleRead A idx 3 = some o)
    (hC : IsRot a.rot) (hb : b.rot = a.rot ∧ b.off = a.off) (hc : c.rot = a.rot ∧ c.off = a.off)
    (ho : o.rot = a.rot) (ua : a.f ⬝ᵥ a.f = 1) (ub : b.f ⬝ᵥ b.f = 1) (uc : c.f ⬝ᵥ c.f = 1)
    (uo : o.f ⬝ᵥ o.f = 1) (T : Vec3) (Q : Mat3) (hQ : IsRot Q) (sa : BodySees T Q a)
    (sb : BodySees T Q b) (sc : BodySees T Q c) (so : BodySees T Q o)
    (hcol : crossProduct (b.p - a.p) (c.p - a.p) ≠ 0)
    (hfin : ∃ P, some P ∈ p3pGao S.svd a.f b.f c.f a.p b.p c.p) :
    ∃ l, absSolutions .gao S A R idx = .sols l ∧ some (T, Q) ∈ l ∧
      ∃ P, some P ∈ l ∧ absSac .gao S A R idx = .model (some P) ∧
        ∃ d : ℝ, 0 < d ∧ absReprojection P o.off o.rot o.p = d • o.f := by
  have ka := bodySees_camera sa
  have kb := bodySees_camera sb
  have kc := bodySees_camera sc
  rw [hb.1, hb.2] at kb
  rw [hc.1, hc.2] at kc
  have hR : IsRot (Q * a.rot) := hQ.mul hC
  have hmem := mem_posesToBody hC.1
    (C43_true_pose S.svd hS a.f b.f c.f a.p b.p c.p _ _ ua ub uc hR.1 hR.2 ka kb kc hcol hfin)
  have hs : absSolutions .gao S A R idx =
      .sols (posesToBody (p3pGao S.svd a.f b.f c.f a.p b.p c.p) a.off a.rot) := by
    simp only [absSolutions, h0, h1, h2]
  refine ⟨_, hs, hmem, ?_⟩
  unfold absSac
  rw [hs]
  exact absChoose_exact hmem h3 uo ((bodySees_reprojection hQ (by rw [ho]; exact hC.1)).1 so)

/-- **C68 (GP3P).** Four correspondences without noise, seen by any cameras of a body with the pose
`(T, Q)`, the rotation not a half-turn. If the elimination does not divide by zero and the eigenvectors
for the first Cayley parameter form a line, the true pose is among the solutions, and the model that is
returned sees the fourth point exactly as it was measured. -/
theorem C68_gp3p (S : AbsSolvers) (A : AbsAdapter) (R : Mat3) (i0 i1 i2 i3 : ℕ) (a b c o : AbsObs)
    (h0 : A.read i0 = some a) (h1 : A.read i1 = some b) (h2 : A.read i2 = some c)
    (h3 : A.read i3 = some o) (ho : IsRot o.rot) (uo : o.f ⬝ᵥ o.f = 1)
    (T : Vec3) (Q : Mat3) (hQ : IsRot Q) (htr : Q.trace ≠ -1) (sa : BodySees T Q a)
    (sb : BodySees T Q b) (sc : BodySees T Q c) (so : BodySees T Q o) (G : GMat ℝ)
    (hG : gRun (Gp3p.init (Matrix.of ![a.rot *ᵥ a.f, b.rot *ᵥ b.f, c.rot *ᵥ c.f])ᵀ
      (Matrix.of ![a.off, b.off, c.off])ᵀ (Matrix.of ![a.p, b.p, c.p])ᵀ) Gp3p.compute = some G)
    (hline : ∀ u w : Fin 8 → ℂ, u ≠ 0 →
      (gp3pM G).map (fun r => (r : ℂ)) *ᵥ u = (((Q 1 2 - Q 2 1) / (1 + Q.trace) : ℝ) : ℂ) • u →
      (gp3pM G).map (fun r => (r : ℂ)) *ᵥ w = (((Q 1 2 - Q 2 1) / (1 + Q.trace) : ℝ) : ℂ) • w →
      ∃ k : ℂ, w = k • u)
    (he : IsEigenSystem (gp3pM G) (S.eig (gp3pM G)).1 (S.eig (gp3pM G)).2) :
    ∃ l, absSolutions .gp3p S A R [i0, i1, i2, i3] = .sols l ∧ some (T, Q) ∈ l ∧
      ∃ P, some P ∈ l ∧ absSac .gp3p S A R [i0, i1, i2, i3] = .model (some P) ∧
        ∃ d : ℝ, 0 < d ∧ absReprojection P o.off o.rot o.p = d • o.f := by
  obtain ⟨la, -, ea⟩ := sa
  obtain ⟨lb, -, eb⟩ := sb
  obtain ⟨lc, -, ec⟩ := sc
  obtain ⟨L, hL, hm⟩ := C67_recovers A i0 i1 i2 a b c h0 h1 h2 Q T hQ htr ![la, lb, lc] ea eb ec G hG
    hline S.eig he
  have hs : absSolutions .gp3p S A R [i0, i1, i2, i3] = .sols (L.map fun P => P.map fun P => (P.2, P.1)) := by
    simp only [absSolutions, hL]
  have hmem : some (T, Q) ∈ L.map fun P : Option (Mat3 × Vec3) => P.map fun P => (P.2, P.1) := List.mem_map.2 ⟨_, hm, rfl⟩
  refine ⟨_, hs, hmem, ?_⟩
  unfold absSac
  rw [hs]
  exact absChoose_exact hmem h3 uo ((bodySees_reprojection hQ ho.1).1 so)

/-- **C68 (TWOPT).** Two correspondences without noise, seen by one camera of the body, the rotation of
the camera stored in the adapter, and the points not in the exceptional position of C41: the model is the
true pose of the body. -/
theorem C68_twopt (S : AbsSolvers) (A : AbsAdapter) (idx : List ℕ) (a b : AbsObs)
    (h0 : sampleRead A idx 0 = some a) (h1 : sampleRead A idx 1 = some b) (hC : IsRot a.rot)
    (hb : b.rot = a.rot ∧ b.off = a.off) (ua : a.f ⬝ᵥ a.f = 1) (ub : b.f ⬝ᵥ b.f = 1)
    (hne : crossProduct a.f b.f ≠ 0) (T : Vec3) (Q : Mat3) (hQ : IsRot Q) (sa : BodySees T Q a)
    (sb : BodySees T Q b) (hP : a.p ≠ b.p)
    (htie : ¬(|(b.p - a.p) 0| = |(b.p - a.p) 1| ∧ (b.p - a.p) 2 = 0)) :
    absSac .twopt S A (Q * a.rot) idx = .model (some (T, Q)) := by
  obtain ⟨la, -, ea⟩ := bodySees_camera sa
  have kb := bodySees_camera sb
  rw [hb.1, hb.2] at kb
  obtain ⟨lb, -, eb⟩ := kb
  have hR : IsRot (Q * a.rot) := hQ.mul hC
  have hp := C41_p2p_exact (Q * a.rot) a.f b.f a.p b.p _ la lb hR.1 hR.2 ua ub hne ea eb hP htie
  simp only [absSac, absSolutions, h0, h1, hp, absChoose, toBodyAbs_camera hC.1]

/-- **C68 (the prior after a refinement).** `optimizeModelCoefficients` stores the rotation of the body
in the adapter, where TWOPT expects the rotation of the camera. So after a refinement that has found the
true pose of the body, no sample gives its rotation any more, if the camera is turned against the
body. -/
theorem C68_twopt_prior (S : AbsSolvers) (A : AbsAdapter) (idx : List ℕ) (a : AbsObs)
    (h0 : sampleRead A idx 0 = some a) (hC1 : a.rot ≠ 1) (T : Vec3) (Q : Mat3)
    (hQ : IsRot Q) (P : Pose)
    (h : absSac .twopt S A (absPriorAfterOptimize (T, Q)) idx = .model (some P)) : P.2 ≠ Q := by
  intro hP
  apply hC1
  have hrot : P.2 = Q * a.rotᵀ := by
    simp only [absSac, absSolutions, h0, absPriorAfterOptimize] at h
    cases hb : sampleRead A idx 1 with
    | none => simp [hb, absChoose] at h
    | some b =>
      rw [hb] at h
      cases hp : p2p Q a.f b.f a.p b.p with
      | none => simp [hp, absChoose] at h
      | some t =>
        simp only [hp, absChoose, AbsResult.model.injEq, Option.some.injEq] at h
        rw [← h]
        rfl
  rw [hP] at hrot
  have h1 : Qᵀ * Q = Qᵀ * (Q * a.rotᵀ) := congrArg (Qᵀ * ·) hrot
  rw [← Matrix.mul_assoc, hQ.1, Matrix.one_mul] at h1
  rw [← transpose_transpose a.rot, ← h1, transpose_one]

/-- **C68 (EPNP).** Correspondences without noise, seen by one camera of the body, that meet the
conditions of C46: the model is the true pose of the body, or memory is read that was never written. -/
theorem C68_epnp (S : AbsSolvers)
    (h3 : ∀ A, IsSvd A (S.epnp.svd3 A).1 (S.epnp.svd3 A).2.1 (S.epnp.svd3 A).2.2)
    (h12 : ∀ A, ∃ V σ, IsSvd A (S.epnp.svd12 A) V σ)
    (h4 : ∀ A b, IsLeastSquares A b (S.epnp.solve4 A b)) (A : AbsAdapter) (R : Mat3) (idx : List ℕ)
    (obs : List AbsObs) (hobs : idx.mapM A.read = some obs) (hne : obs ≠ []) (off : Vec3) (C : Mat3)
    (hC : IsRot C) (hcam : ∀ o ∈ obs, o.off = off ∧ o.rot = C) (T : Vec3) (Q : Mat3) (hQ : IsRot Q)
    (hsee : ∀ o ∈ obs, BodySees T Q o) (cs : List EpnpCorr)
    (hcs : ((obs.map fun o => (o.p, o.f)).mapM fun o => epnpAdd o.1 o.2) = some cs)
    (hpl : ¬ Coplanar (obs.map fun o => o.p))
    (hu : ∀ (M : Mat3) (x : Vec3), (∀ o ∈ obs, crossProduct o.f (M *ᵥ o.p + x) = 0) →
      ∃ k : ℝ, M = k • (Q * C)ᵀ ∧ x = k • -((Q * C)ᵀ *ᵥ (T + Q *ᵥ off)))
    (hinj : ∀ d, epnpL4 (epnpL (S.epnp.svd12 (epnpMtM (epnpCws cs (S.epnp.svd3 (epnpCov cs)).1
      (S.epnp.svd3 (epnpCov cs)).2.2) cs))) *ᵥ d = 0 → d = 0) :
    absSac .epnp S A R idx = .model (some (T, Q)) ∨ absSac .epnp S A R idx = .unknown := by
  have h := C46_exact S.epnp h3 h12 h4 (obs.map fun o => (o.p, o.f)) cs hcs (Q * C) (hQ.mul hC)
    (T + Q *ᵥ off) (by
      intro x hx
      rw [List.mem_map] at hx
      obtain ⟨o, ho, rfl⟩ := hx
      obtain ⟨l, hl, e⟩ := bodySees_camera (hsee o ho)
      rw [(hcam o ho).1, (hcam o ho).2] at e
      exact ⟨l, hl, by rw [mulVec_smul, add_comm]; exact e⟩)
    (by rw [List.map_map]; exact hpl)
    (fun M x hx => hu M x fun o ho => hx (o.p, o.f) (List.mem_map.2 ⟨o, ho, rfl⟩)) hinj
  cases obs with
  | nil => exact absurd rfl hne
  | cons a as =>
    obtain ⟨e1, e2⟩ := hcam a (by simp)
    simp only [absSac, absSolutions, hobs]
    rcases h with h | h
    · left
      rw [h]
      simp only [absChoose]
      rw [e1, e2, toBodyAbs_camera hC.1]
    · right
      rw [h]
      rfl

/-- **C68 (several cameras).** The problem with several cameras treats a sample as the single camera
problem does with GP3P. As a central problem it agrees with KNEIP exactly in the camera: the solutions
are moved with the camera of the correspondence 0, so they are the same if this camera is that of the
first correspondence of the sample. -/
theorem C68_multi (S : AbsSolvers) (A : AbsAdapter) (R : Mat3) (idx : List ℕ) :
    multiAbsSac false S A idx = absSac .gp3p S A R idx ∧
    ∀ a z, sampleRead A idx 0 = some a → A.read 0 = some z → z.off = a.off → z.rot = a.rot →
      multiAbsSac true S A idx = absSac .kneip S A R idx := by
  refine ⟨rfl, ?_⟩
  intro a z ha hz e1 e2
  have hz' : A.getCamOffset 0 = some a.off ∧ A.getCamRotation 0 = some a.rot := by
    unfold AbsAdapter.read at hz
    split at hz
    · rename_i f p o C _ _ h3 h4
      cases hz
      simp only at e1 e2
      rw [h3, h4, e1, e2]
      exact ⟨rfl, rfl⟩
    · cases hz
  unfold multiAbsSac absSac
  simp only [absSolutions, ha, hz'.1, hz'.2]
  cases sampleRead A idx 1 <;> cases sampleRead A idx 2 <;> rfl

/-! ## Examples -/

/-- An adapter for a list of correspondences. -/
def listAdapter (obs : List AbsObs) : AbsAdapter where
  getBearingVector i := (obs[i]?).map AbsObs.f
  getWeight i := (obs[i]?).map fun _ => 1
  getPoint i := (obs[i]?).map AbsObs.p
  getCamOffset i := (obs[i]?).map AbsObs.off
  getCamRotation i := (obs[i]?).map AbsObs.rot
  getNumberCorrespondences := obs.length

theorem listAdapter_read (obs : List AbsObs) (i : ℕ) : (listAdapter obs).read i = obs[i]? := by
  unfold AbsAdapter.read listAdapter
  cases h : obs[i]? <;> simp [h]

theorem sampleRead_list {obs : List AbsObs} {idx : List ℕ} {k i : ℕ} (h : idx[k]? = some i) :
    sampleRead (listAdapter obs) idx k = obs[i]? := by
  unfold sampleRead
  rw [h]
  exact listAdapter_read obs i

/-- A camera turned by a right angle and shifted. -/
def sacExC : Mat3 := !![0, -1, 0; 1, 0, 0; 0, 0, 1]

theorem sacExC_rot : IsRot sacExC := by
  constructor
  · ext i j
    fin_cases i <;> fin_cases j <;> simp [sacExC, Matrix.mul_apply, Fin.sum_univ_three]
  · simp [sacExC, Matrix.det_fin_three]

theorem sacExC_ne : sacExC ≠ 1 := by
  intro h
  have := congrFun (congrFun h 0) 0
  simp [sacExC] at this

/-- The data of the example for C42, seen by this camera, and a fourth point. -/
noncomputable def sacExObs : List AbsObs :=
  [⟨![1, 0, 0], ![0, 0, 0], ![1, 0, 0], sacExC⟩, ⟨![4/5, 3/5, 0], ![15, 0, 0], ![1, 0, 0], sacExC⟩,
    ⟨![132/325, 224/325, -195/325], ![19, 13, 0], ![1, 0, 0], sacExC⟩,
    ⟨![0, 0, 1], ![15, 13, 16], ![1, 0, 0], sacExC⟩]

/-- The pose of the body. -/
noncomputable def sacExQ : Mat3 := !![-4/5, -3/5, 0; 12/25, -16/25, -3/5; 9/25, -12/25, 4/5]

/-- The position of the body. -/
noncomputable def sacExT : Vec3 := ![79/5, 388/25, 291/25]

theorem sacExQ_rot : IsRot sacExQ := by
  constructor
  · ext i j
    fin_cases i <;> fin_cases j <;> simp [sacExQ, Matrix.mul_apply, Fin.sum_univ_three] <;> norm_num
  · simp [sacExQ, Matrix.det_fin_three]
    norm_num

theorem sacEx_sees : ∀ o ∈ sacExObs, BodySees sacExT sacExQ o := by
  intro o ho
  have hC : ∀ x y z : ℝ, sacExC *ᵥ ![x, y, z] = ![-y, x, z] := fun x y z => by
    funext k
    fin_cases k <;> simp [sacExC, mulVec, dotProduct, Fin.sum_univ_three]
  simp only [sacExObs, List.mem_cons, List.not_mem_nil, or_false] at ho
  rcases ho with rfl | rfl | rfl | rfl
  · refine ⟨25, by norm_num, ?_⟩
    simp only [hC]
    funext k
    fin_cases k <;> simp [sacExQ, sacExT] <;> norm_num
  · refine ⟨20, by norm_num, ?_⟩
    simp only [hC]
    funext k
    fin_cases k <;> simp [sacExQ, sacExT] <;> norm_num
  · refine ⟨13, by norm_num, ?_⟩
    simp only [hC]
    funext k
    fin_cases k <;> simp [sacExQ, sacExT] <;> norm_num
  · refine ⟨5, by norm_num, ?_⟩
    simp only [hC]
    funext k
    fin_cases k <;> simp [sacExQ, sacExT] <;> norm_num

theorem sacEx_position : sacExT + sacExQ *ᵥ ![1, 0, 0] = ![15, 16, 12] := by
  funext k
  fin_cases k <;> simp [sacExQ, sacExT] <;> norm_num

/-- The sample `0, 1, 2, 3` of the example. -/
theorem sacEx_read (k : ℕ) (hk : k < 4) :
    sampleRead (listAdapter sacExObs) [0, 1, 2, 3] k = sacExObs[k]? := by
  interval_cases k <;> exact sampleRead_list rfl

/-- With KNEIP. -/
example (S : AbsSolvers) (R : Mat3) : ∃ P o, sacExObs[3]? = some o ∧
    absSac .kneip S (listAdapter sacExObs) R [0, 1, 2, 3] = .model (some P) ∧
      ∃ d : ℝ, 0 < d ∧ absReprojection P o.off o.rot o.p = d • o.f := by
  obtain ⟨l, -, -, P, -, h1, h2⟩ := C68_kneip S (listAdapter sacExObs) R [0, 1, 2, 3] _ _ _ _
    (sacEx_read 0 (by norm_num)) (sacEx_read 1 (by norm_num)) (sacEx_read 2 (by norm_num))
    (sacEx_read 3 (by norm_num)) sacExC_rot ⟨rfl, rfl⟩ ⟨rfl, rfl⟩ rfl
    (by norm_num [vcons2, dot3]) (by norm_num [vcons2, dot3]) (by norm_num [vcons2, dot3])
    sacExT sacExQ sacExQ_rot (sacEx_sees _ (by simp [sacExObs])) (sacEx_sees _ (by simp [sacExObs]))
    (sacEx_sees _ (by simp [sacExObs])) (sacEx_sees _ (by simp [sacExObs]))
    (by rw [sacEx_position]; exact kneip_example_circle) kneip_example
  exact ⟨P, _, rfl, h1, h2⟩

/-- With GAO. -/
example (S : AbsSolvers) (hS : ∀ H, ∃ σ, IsSvd H (S.svd H).1 (S.svd H).2 σ) (R : Mat3) :
    ∃ P o, sacExObs[3]? = some o ∧
    absSac .gao S (listAdapter sacExObs) R [0, 1, 2, 3] = .model (some P) ∧
      ∃ d : ℝ, 0 < d ∧ absReprojection P o.off o.rot o.p = d • o.f := by
  obtain ⟨l, -, -, P, -, h1, h2⟩ := C68_gao S hS (listAdapter sacExObs) R [0, 1, 2, 3] _ _ _ _
    (sacEx_read 0 (by norm_num)) (sacEx_read 1 (by norm_num)) (sacEx_read 2 (by norm_num))
    (sacEx_read 3 (by norm_num)) sacExC_rot ⟨rfl, rfl⟩ ⟨rfl, rfl⟩ rfl
    (by norm_num [vcons2, dot3]) (by norm_num [vcons2, dot3]) (by norm_num [vcons2, dot3])
    (by norm_num [vcons2, dot3])
    sacExT sacExQ sacExQ_rot (sacEx_sees _ (by simp [sacExObs])) (sacEx_sees _ (by simp [sacExObs]))
    (sacEx_sees _ (by simp [sacExObs])) (sacEx_sees _ (by simp [sacExObs]))
    (by
      intro h
      have := congrFun h 2
      norm_num [vcons2, cross_apply] at this) (gao_example S.svd hS)
  exact ⟨P, _, rfl, h1, h2⟩

/-- With TWOPT: the true pose. -/
example (S : AbsSolvers) : absSac .twopt S (listAdapter sacExObs) (sacExQ * sacExC) [1, 2] =
    .model (some (sacExT, sacExQ)) := by
  refine C68_twopt S (listAdapter sacExObs) [1, 2] ⟨![4/5, 3/5, 0], ![15, 0, 0], ![1, 0, 0], sacExC⟩
    ⟨![132/325, 224/325, -195/325], ![19, 13, 0], ![1, 0, 0], sacExC⟩
    (sampleRead_list (i := 1) rfl) (sampleRead_list (i := 2) rfl) sacExC_rot ⟨rfl, rfl⟩
    (by norm_num [vcons2, dot3]) (by norm_num [vcons2, dot3]) ?_ sacExT sacExQ sacExQ_rot
    (sacEx_sees _ (by simp [sacExObs])) (sacEx_sees _ (by simp [sacExObs])) ?_ ?_
  · intro h
    have := congrFun h 0
    norm_num [vcons2, cross_apply] at this
  · intro h
    have := congrFun h 1
    norm_num [vcons2] at this
  · rintro ⟨h, -⟩
    norm_num [vcons2] at h

/-- After a refinement the same sample gives another rotation. -/
example (S : AbsSolvers) (P : Pose) (h : absSac .twopt S (listAdapter sacExObs)
    (absPriorAfterOptimize (sacExT, sacExQ)) [1, 2] = .model (some P)) : P.2 ≠ sacExQ :=
  C68_twopt_prior S (listAdapter sacExObs) [1, 2] _ (sampleRead_list (i := 1) rfl) sacExC_ne sacExT
    sacExQ sacExQ_rot P h

example (S : AbsSolvers) (R : Mat3) :
    absSac .gp3p S (listAdapter sacExObs) R [3, 2, 1, 0] ≠ .outside :=
  C68_in_bounds _ S _ R _ rfl fun i hi => by
    simp only [listAdapter_read]
    simp only [List.mem_cons, List.not_mem_nil, or_false] at hi
    rcases hi with rfl | rfl | rfl | rfl <;> exact ⟨_, rfl⟩

/-- As a central problem with several cameras. -/
example (S : AbsSolvers) (R : Mat3) : multiAbsSac true S (listAdapter sacExObs) [1, 2, 3, 0] =
    absSac .kneip S (listAdapter sacExObs) R [1, 2, 3, 0] :=
  (C68_multi S (listAdapter sacExObs) R [1, 2, 3, 0]).2 _ _ (sampleRead_list (k := 0) (i := 1) rfl)
    (listAdapter_read _ _) rfl rfl

/-- With GP3P: the cameras of the example for C67 and a fourth point. -/
example : ∃ S P, absSac .gp3p S (listAdapter [gp3pExObs 0, gp3pExObs 1, gp3pExObs 2,
      ⟨![0, 0, 1], ![2, 7, 2], ![0, 0, 0], 1⟩]) 1 [0, 1, 2, 3] = .model (some P) ∧
    ∃ d : ℝ, 0 < d ∧ absReprojection P ![0, 0, 0] 1 ![2, 7, 2] = d • ![0, 0, 1] := by
  obtain ⟨G, hG, hline⟩ := Gp3p.ex_run
  rw [← gp3pEx_eq.1, ← gp3pEx_eq.2.1, ← gp3pEx_eq.2.2] at hG
  obtain ⟨D, V, hDV⟩ := exists_eigenSystem (gp3pM G)
  have htr : gp3pExR.trace = -3 / 7 := by
    simp [gp3pExR, Matrix.trace, Fin.sum_univ_three]
    norm_num
  have e : (gp3pExR 1 2 - gp3pExR 2 1) / (1 + gp3pExR.trace) = 1 := by
    rw [htr]
    simp [gp3pExR]
    norm_num
  have hC : ∀ x y z : ℝ, (!![0, -1, 0; 1, 0, 0; 0, 0, 1] : Mat3) *ᵥ ![x, y, z] = ![-y, x, z] :=
    fun x y z => by
      funext k
      fin_cases k <;> simp [mulVec, dotProduct, Fin.sum_univ_three]
  obtain ⟨l, -, -, P, -, h1, h2⟩ := C68_gp3p
    ⟨fun _ => (1, 1), ⟨fun _ => (1, 1, 0), fun _ => 1, fun _ _ => 0, fun _ _ => 0, fun _ _ => 0⟩,
      fun _ => (D, V)⟩ (listAdapter [gp3pExObs 0, gp3pExObs 1, gp3pExObs 2,
      ⟨![0, 0, 1], ![2, 7, 2], ![0, 0, 0], 1⟩]) 1 0 1 2 3 (gp3pExObs 0) (gp3pExObs 1) (gp3pExObs 2)
      ⟨![0, 0, 1], ![2, 7, 2], ![0, 0, 0], 1⟩ (listAdapter_read _ _) (listAdapter_read _ _)
      (listAdapter_read _ _) (listAdapter_read _ _) ⟨by simp, by simp⟩ (by norm_num [vcons2, dot3])
      ![0, 1, -1] gp3pExR gp3pExR_rot (by rw [htr]; norm_num)
      ⟨1 / 7, by norm_num, by
        funext k
        fin_cases k <;>
          simp [gp3pExObs, gp3pExR, mulVec, dotProduct, Fin.sum_univ_three] <;> norm_num⟩
      ⟨1 / 7, by norm_num, by
        show ![0, -2, -1] = gp3pExR *ᵥ ((1 / 7 : ℝ) • (!![0, -1, 0; 1, 0, 0; 0, 0, 1] *ᵥ ![16, 1, -11]) +
          ![1, -1, -1]) + ![0, 1, -1]
        rw [hC]
        funext k
        fin_cases k <;>
          simp [gp3pExR, mulVec, dotProduct, Fin.sum_univ_three] <;> norm_num⟩
      ⟨1 / 7, by norm_num, by
        funext k
        fin_cases k <;>
          simp [gp3pExObs, gp3pExR, mulVec, dotProduct, Fin.sum_univ_three] <;> norm_num⟩
      ⟨7, by norm_num, by
        funext k
        fin_cases k <;>
          simp [gp3pExR, mulVec, dotProduct, Fin.sum_univ_three] <;> norm_num⟩
      G hG (by rw [e]; exact hline) hDV
  exact ⟨_, P, h1, h2⟩

/-- The corners of a cube, seen by a camera in the body frame. -/
noncomputable def sacCubeObs : List AbsObs := epnpExampleObs.map fun o => ⟨o.2, o.1, 0, 1⟩

theorem sacCube_read : [0, 1, 2, 3, 4, 5, 6, 7].mapM (listAdapter sacCubeObs).read =
    some sacCubeObs := by
  have h : ∀ o0 o1 o2 o3 o4 o5 o6 o7 : AbsObs, [0, 1, 2, 3, 4, 5, 6, 7].mapM
      (listAdapter [o0, o1, o2, o3, o4, o5, o6, o7]).read = some [o0, o1, o2, o3, o4, o5, o6, o7] := by
    intros
    simp only [List.mapM_cons, List.mapM_nil, listAdapter_read]
    rfl
  exact h _ _ _ _ _ _ _ _

theorem sacCube_sees : ∀ o ∈ epnpExampleObs, ∃ l : ℝ, 0 < l ∧
    o.1 = epnpExampleR.transpose *ᵥ (l • o.2) + ![-4, -4, -4] := by
  intro o ho
  refine ⟨1, one_pos, ?_⟩
  simp only [epnpExampleObs, List.mem_cons, List.not_mem_nil, or_false] at ho
  rcases ho with rfl | rfl | rfl | rfl | rfl | rfl | rfl | rfl <;>
    · funext i
      fin_cases i <;> simp [epnpExampleR, mulVec, dotProduct, Fin.sum_univ_three] <;> norm_num

/-- With EPNP: the corners of a cube. -/
example : ∃ (S : AbsSolvers) (Q : Mat3), IsRot Q ∧
    (absSac .epnp S (listAdapter sacCubeObs) 1
      [0, 1, 2, 3, 4, 5, 6, 7] = .model (some (![-4, -4, -4], Q)) ∨
    absSac .epnp S (listAdapter sacCubeObs) 1
      [0, 1, 2, 3, 4, 5, 6, 7] = .unknown) := by
  obtain ⟨S, h3, h12, h4, e1, e2⟩ := epnpExample_svds
  have hQT : -(epnpExampleR.transpose.transpose *ᵥ (![-4, -4, -4] : Vec3)) = ![4, 4, 4] := by
    funext i
    fin_cases i <;> simp [epnpExampleR]
  have hrot : IsRot epnpExampleR.transpose := by
    constructor
    · ext i j
      fin_cases i <;> fin_cases j <;> simp [epnpExampleR, Matrix.mul_apply, Fin.sum_univ_three]
    · simp [epnpExampleR, det_fin_three]
  have hid : ∀ l : List (Vec3 × Vec3),
      ((l.map fun o => (⟨o.2, o.1, 0, 1⟩ : AbsObs)).map fun o => (o.p, o.f)) = l := fun l => by
    induction l with
    | nil => rfl
    | cons x xs ih => rw [List.map_cons, List.map_cons, ih]
  have hid' : ∀ l : List (Vec3 × Vec3),
      ((l.map fun o => (⟨o.2, o.1, 0, 1⟩ : AbsObs)).map fun o => o.p) = l.map Prod.fst := fun l => by
    induction l with
    | nil => rfl
    | cons x xs ih => rw [List.map_cons, List.map_cons, List.map_cons, ih]
  refine ⟨⟨fun _ => (1, 1), S, fun _ => (0, 0)⟩, epnpExampleR.transpose, hrot, ?_⟩
  refine C68_epnp ⟨fun _ => (1, 1), S, fun _ => (0, 0)⟩ h3 h12 h4 (listAdapter sacCubeObs) 1
    [0, 1, 2, 3, 4, 5, 6, 7] sacCubeObs sacCube_read ?_ 0 1 ⟨by simp, by simp⟩ ?_ ![-4, -4, -4]
    epnpExampleR.transpose hrot ?_ epnpExampleCs ?_ ?_ ?_ ?_
  · simp [sacCubeObs, epnpExampleObs]
  · intro o ho
    rw [sacCubeObs, List.mem_map] at ho
    obtain ⟨x, -, rfl⟩ := ho
    exact ⟨rfl, rfl⟩
  · intro o ho
    rw [sacCubeObs, List.mem_map] at ho
    obtain ⟨x, hx, rfl⟩ := ho
    obtain ⟨l, hl, e⟩ := sacCube_sees x hx
    exact ⟨l, hl, by simp only [one_mulVec, add_zero]; exact e⟩
  · rw [sacCubeObs, hid]
    exact epnpExample_mapM
  · rw [sacCubeObs, hid', ← (epnp_mapM epnpExample_mapM).1]
    exact epnpExample_plane
  · intro M x h
    rw [Matrix.mul_one, mulVec_zero, add_zero, hQT, transpose_transpose]
    exact epnpExample_unique M x fun o ho => h ⟨o.2, o.1, 0, 1⟩ (List.mem_map.2 ⟨o, ho, rfl⟩)
  · rw [e1, e2, epnpExample_cws]
    obtain ⟨V, σ, h⟩ := h12 (epnpMtM epnpExampleCws epnpExampleCs)
    exact epnpExample_inj h

end OpenGV.Props
