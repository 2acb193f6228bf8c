import Verif.Proof.Gao

/-!
# Properties of the minimal central solvers for the absolute pose (C41-C43)
-/

namespace OpenGV.Props

open Matrix

section
variable {n : ℕ} (a : ℝ)

theorem vcons2 (v : Fin (n + 2) → ℝ) : vecCons a v 2 = v 1 := rfl

theorem vcons3 (v : Fin (n + 3) → ℝ) : vecCons a v 3 = v 2 := rfl

theorem vcons4 (v : Fin (n + 4) → ℝ) : vecCons a v 4 = v 3 := rfl

end

/-! ## P2P -/

/-- **C41.** For noise-free data with a known rotation, unit bearing vectors that are not parallel
and distinct points, `p2p` returns exactly the position of the camera, unless the difference of the
points has the form `(d, ±d, 0)`. -/
theorem C41_p2p_exact (R : Mat3) (f0 f1 P0 P1 t : Vec3) (l0 l1 : ℝ)
    (hR : R.transpose * R = 1) (hdet : R.det = 1) (h0 : f0 ⬝ᵥ f0 = 1) (h1 : f1 ⬝ᵥ f1 = 1)
    (hne : crossProduct f0 f1 ≠ 0) (e0 : P0 = t + l0 • (R *ᵥ f0)) (e1 : P1 = t + l1 • (R *ᵥ f1))
    (hP : P0 ≠ P1) (htie : ¬(|(P1 - P0) 0| = |(P1 - P0) 1| ∧ (P1 - P0) 2 = 0)) :
    p2p R f0 f1 P0 P1 = some t := by
  have h := p2pRaw_exact ⟨hR, hdet⟩ h0 h1 hne e0 e1 hP htie
  have hc : 0 < 1 - (f0 ⬝ᵥ f1) ^ 2 := by
    rw [← norm_cross_unit h0 h1]; exact pow_pos (norm3_pos hne) 2
  unfold p2p
  rw [if_neg (fun e => hc.ne' e.1), h]
  rfl

/-- **C41, the exception.** If the difference of the points has the form `(d, ±d, 0)` then the
result of `p2p` is the zero vector, whatever the rotation and the (unit, not parallel) bearing
vectors are. -/
theorem C41_p2p_tie (R : Mat3) (f0 f1 P0 P1 : Vec3) (h0 : f0 ⬝ᵥ f0 = 1) (h1 : f1 ⬝ᵥ f1 = 1)
    (hne : crossProduct f0 f1 ≠ 0) (htie : |(P1 - P0) 0| = |(P1 - P0) 1|) (hz : (P1 - P0) 2 = 0) :
    p2p R f0 f1 P0 P1 = some 0 := by
  have hc : 0 < 1 - (f0 ⬝ᵥ f1) ^ 2 := by
    rw [← norm_cross_unit h0 h1]; exact pow_pos (norm3_pos hne) 2
  have h : p2pRaw R f0 f1 P0 P1 = none := by
    obtain ⟨T, hT⟩ := frameOf_some hne
    unfold p2pRaw
    simp only [hT]
    by_cases hd : P1 - P0 = 0
    · have : normalize3 (P1 - P0) = none := by
        rw [normalize3, if_pos (norm3_eq_zero.2 hd)]
      rw [this]; rfl
    obtain ⟨n1, hn1⟩ := normalize3_isSome hd
    obtain ⟨-, e, -⟩ := normalize3_eq_some hn1
    have : p2pNormal n1 = none := by
      rw [e, p2pNormal_smul (inv_pos.2 (norm3_pos hd)), p2pNormal_none]
      exact ⟨htie, hz⟩
    rw [hn1]
    simp only [Option.bind_eq_bind, Option.bind_some, this]
    rfl
  unfold p2p
  rw [if_neg (fun e => hc.ne' e.1), h]
  rfl

/-- A camera at `(1, 0, -2)` that looks along the z axis. -/
example : p2p 1 ![0, 0, 1] ![3/5, 0, 4/5] ![1, 0, 0] ![4, 0, 2] = some ![1, 0, -2] := by
  refine C41_p2p_exact 1 _ _ _ _ _ 2 5 (by simp) (by simp) (by norm_num [vcons2, vcons3, vcons4, dot3])
    (by norm_num [vcons2, vcons3, vcons4, dot3]) ?_ ?_ ?_ ?_ ?_
  · intro h; have := congrFun h 1; norm_num [vcons2, vcons3, vcons4, cross_apply] at this
  · apply ext3 <;> norm_num [vcons2, vcons3, vcons4]
  · apply ext3 <;> norm_num [vcons2, vcons3, vcons4]
  · intro h; have := congrFun h 0; norm_num [vcons2, vcons3, vcons4] at this
  · rintro ⟨h, -⟩; norm_num [vcons2, vcons3, vcons4] at h

/-- **C41, the defect.** The camera is at `(0, 0, -2)`, both points are in front of it, and `p2p`
returns the origin. -/
theorem C41_p2p_tie_wrong :
    ∃ f0 f1 P0 P1 t : Vec3, f0 ⬝ᵥ f0 = 1 ∧ f1 ⬝ᵥ f1 = 1 ∧ crossProduct f0 f1 ≠ 0 ∧
      Spec.Sees t 1 f0 P0 ∧ Spec.Sees t 1 f1 P1 ∧ p2p 1 f0 f1 P0 P1 ≠ some t := by
  refine ⟨![0, 0, 1], ![2/3, 2/3, 1/3], ![0, 0, 0], ![4, 4, 0], ![0, 0, -2], by norm_num [vcons2, vcons3, vcons4, dot3],
    by norm_num [vcons2, vcons3, vcons4, dot3], ?_, ⟨2, by norm_num [vcons2, vcons3, vcons4], ?_⟩, ⟨6, by norm_num [vcons2, vcons3, vcons4], ?_⟩, ?_⟩
  · intro h; have := congrFun h 0; norm_num [vcons2, vcons3, vcons4, cross_apply] at this
  · apply ext3 <;> norm_num [vcons2, vcons3, vcons4]
  · apply ext3 <;> norm_num [vcons2, vcons3, vcons4]
  · rw [C41_p2p_tie _ _ _ _ _ (by norm_num [vcons2, vcons3, vcons4, dot3]) (by norm_num [vcons2, vcons3, vcons4, dot3]) _ (by norm_num [vcons2, vcons3, vcons4])
      (by norm_num [vcons2, vcons3, vcons4])]
    · intro h
      have := congrFun (Option.some.inj h) 2
      norm_num [vcons2, vcons3, vcons4] at this
    · intro h; have := congrFun h 0; norm_num [vcons2, vcons3, vcons4, cross_apply] at this

/-! ## Kneip's P3P -/

/-- **C42.** For noise-free data, if `p3p_kneip` returns a pose with finite entries at all then the
true pose is among the poses it returns, unless the projection of the third point on the plane of
the other two points and the camera is on the circle through these. -/
theorem C42_true_pose (f1 f2 f3 P1 P2 P3 t : Vec3) (R : Mat3)
    (u1 : f1 ⬝ᵥ f1 = 1) (u2 : f2 ⬝ᵥ f2 = 1) (hR : R.transpose * R = 1) (hdet : R.det = 1)
    (s1 : Spec.Sees t R f1 P1) (s2 : Spec.Sees t R f2 P2) (s3 : Spec.Sees t R f3 P3)
    (hcirc : ¬Spec.ProjectionConcyclic P1 P2 P3 t)
    (hfin : ∃ P, some P ∈ p3pKneip f1 f2 f3 P1 P2 P3) :
    some (t, R) ∈ p3pKneip f1 f2 f3 P1 P2 P3 := by
  obtain ⟨l1, h1, e1⟩ := s1
  obtain ⟨l2, h2, e2⟩ := s2
  obtain ⟨l3, h3, e3⟩ := s3
  obtain ⟨P, hP⟩ := hfin
  obtain ⟨hcol, h⟩ := p3pKneip_shape u1 u2 hP
  rcases h with ⟨T, hT, hneg, e⟩ | ⟨T, hT, hneg, e⟩ <;> rw [e] at hP ⊢
  · exact kneipSolve_true u1 u2 ⟨hR, hdet⟩ e1 e2 e3 h1 h2 h3 hT hcol hneg hcirc
      (fun e => by rw [e] at hP; simp at hP)
  · exact kneipSolve_true u2 u1 ⟨hR, hdet⟩ e2 e1 e3 h2 h1 h3 hT (cross_swap_ne hcol) hneg
      (fun h => hcirc h.swap) (fun e => by rw [e] at hP; simp at hP)

/-- **C42, all results.** Every pose with finite entries that `p3p_kneip` returns, for any unit
bearing vectors and any points, has a rotation matrix and has the first two points on the lines of
their bearing vectors, at least one of them in front of the camera. -/
theorem C42_pose_consistent (f1 f2 f3 P1 P2 P3 C : Vec3) (R : Mat3)
    (u1 : f1 ⬝ᵥ f1 = 1) (u2 : f2 ⬝ᵥ f2 = 1) (h : some (C, R) ∈ p3pKneip f1 f2 f3 P1 P2 P3) :
    R.transpose * R = 1 ∧ R.det = 1 ∧ ∃ m1 m2 : ℝ, P1 = C + m1 • (R *ᵥ f1) ∧
      P2 = C + m2 • (R *ᵥ f2) ∧ (0 < m1 ∨ 0 < m2) := by
  obtain ⟨hcol, h'⟩ := p3pKneip_shape u1 u2 h
  rcases h' with ⟨T, hT, hneg, e⟩ | ⟨T, hT, hneg, e⟩ <;> rw [e] at h
  · obtain ⟨hR, ⟨m1, e1⟩, ⟨m2, h2, e2⟩⟩ := kneipSolve_back u1 u2 hT hcol hneg h
    exact ⟨hR.1, hR.2, m1, m2, e1, e2, .inr h2⟩
  · obtain ⟨hR, ⟨m1, e1⟩, ⟨m2, h2, e2⟩⟩ := kneipSolve_back u2 u1 hT (cross_swap_ne hcol) hneg h
    exact ⟨hR.1, hR.2, m2, m1, e2, e1, .inl h2⟩

/-- **C42, every real root.** For any data (with or without noise), the pose obtained from a real
root of the quartic explains the third point as well, up to one ambiguity: the point is seen along
`f3`, or along `f3` turned by half a turn about the normal `e` of the plane of `f1` and `f2`. -/
theorem C42_real_root (f1 f2 f3 P1 P2 P3 : Vec3) (T N : Mat3) (n1 : Vec3) (x : ℝ)
    (k : KneipData) (C : Vec3) (R : Mat3)
    (u1 : f1 ⬝ᵥ f1 = 1) (u2 : f2 ⬝ᵥ f2 = 1) (hT : frameOf f1 f2 = some T)
    (hn : normalize3 (P2 - P1) = some n1) (hN : frameOf n1 (P3 - P1) = some N)
    (hneg : (T *ᵥ f3) 2 < 0)
    (hk : k = ⟨(T *ᵥ f3) 0 / (T *ᵥ f3) 2, (T *ᵥ f3) 1 / (T *ᵥ f3) 2, (N *ᵥ (P3 - P1)) 0,
      (N *ᵥ (P3 - P1)) 1, norm3 (P2 - P1), cotOf (f1 ⬝ᵥ f2)⟩)
    (hroot : kneipFactors k 0 * x ^ 4 + kneipFactors k 1 * x ^ 3 + kneipFactors k 2 * x ^ 2 +
      kneipFactors k 3 * x + kneipFactors k 4 = 0)
    (h : kneipOne k P1 N T x = some (C, R)) :
    R.transpose * R = 1 ∧ R.det = 1 ∧
    (∃ m : ℝ, P1 = C + m • (R *ᵥ f1)) ∧ (∃ m : ℝ, 0 < m ∧ P2 = C + m • (R *ᵥ f2)) ∧
    ∃ e : Vec3, e ⬝ᵥ e = 1 ∧ e ⬝ᵥ f1 = 0 ∧ e ⬝ᵥ f2 = 0 ∧
      ∃ m : ℝ, 0 ≤ m ∧ (P3 = C + m • (R *ᵥ f3) ∨
        P3 = C + m • (R *ᵥ ((2 * (e ⬝ᵥ f3)) • e - f3))) := by
  have sT := frameOf_spec u1 hT
  obtain ⟨hne, sN⟩ := bind_frame (P1 := P1) (P2 := P2) (P3 := P3) (N := N) (by rw [hn]; exact hN)
  subst hk
  obtain ⟨hR, a, b, c⟩ := kneip_back u1 u2 sT hne sN hneg h
  refine ⟨hR.1, hR.2, a, b, T 2, sT.row2_unit, ?_, ?_, c hroot⟩
  · rw [sT.row2, smul_dotProduct, dotProduct_comm, dot_self_cross, smul_zero]
  · rw [sT.row2, smul_dotProduct, dotProduct_comm, dot_cross_self, smul_zero]

/-- **C42, a blind plane.** If the third bearing vector is in the plane of the first one and of the
normal `f1 × f2`, on the side away from the normal, then no pose with finite entries is returned. -/
theorem C42_blind_plane (f1 f2 f3 P1 P2 P3 : Vec3) (u1 : f1 ⬝ᵥ f1 = 1) (u2 : f2 ⬝ᵥ f2 = 1)
    (hneg : crossProduct f1 f2 ⬝ᵥ f3 < 0)
    (hf : crossProduct (crossProduct f1 f2) f1 ⬝ᵥ f3 = 0) (P : Vec3 × Mat3) :
    some P ∉ p3pKneip f1 f2 f3 P1 P2 P3 := by
  intro h
  obtain ⟨hcol, h'⟩ := p3pKneip_shape u1 u2 h
  rcases h' with ⟨T, hT, hn, e⟩ | ⟨T, hT, hn, e⟩
  · rw [e] at h
    have sT := frameOf_spec u1 hT
    have hT1 : (T *ᵥ f3) 1 = 0 := by
      have : (T *ᵥ f3) 1 = T 1 ⬝ᵥ f3 := rfl
      rw [this, frameOf_row1 hT, smul_dotProduct, hf, smul_zero]
    exact kneipSolve_none u1 u2 hT hcol hn hT1 P h
  · have sT := frameOf_spec u2 hT
    have : (T *ᵥ f3) 2 = T 2 ⬝ᵥ f3 := rfl
    rw [this, sT.row2, smul_dotProduct, smul_eq_mul, ← cross_anticomm, neg_dotProduct] at hn
    have := norm3_pos sT.ne
    have : 0 < (norm3 (crossProduct f2 f1))⁻¹ * -(crossProduct f1 f2 ⬝ᵥ f3) :=
      mul_pos (inv_pos.2 this) (by linarith)
    rw [cross_anticomm] at *
    linarith

/-- A camera at `(15, 16, 12)` sees the points `(0, 0, 0)`, `(15, 0, 0)` and `(19, 13, 0)` at the
depths 25, 20 and 13; a finite pose is returned. -/
theorem kneip_example : ∃ P, some P ∈ p3pKneip ![1, 0, 0] ![4/5, 3/5, 0]
    ![132/325, 224/325, -195/325] ![0, 0, 0] ![15, 0, 0] ![19, 13, 0] := by
  have hT : frameOf ![1, 0, 0] ![4/5, 3/5, 0] = some 1 := by
    have : crossProduct ![1, 0, 0] ![4/5, 3/5, (0 : ℝ)] = (3/5 : ℝ) • ![0, 0, 1] := by
      apply ext3 <;> norm_num [vcons2, vcons3, vcons4, cross_apply]
    unfold frameOf
    rw [normalize3_of_smul (c := 3/5) (by norm_num [vcons2, vcons3, vcons4]) (by norm_num [vcons2, vcons3, vcons4, dot3]) this, Option.map_some]
    congr 1
    apply mat3_ext <;> norm_num [vcons2, cross_apply] <;> simp
  have hT' : ∃ T, frameOf ![4/5, 3/5, 0] ![1, 0, 0] = some T := by
    apply frameOf_some
    intro h
    have := congrFun h 2
    norm_num [vcons2, vcons3, vcons4, cross_apply] at this
  obtain ⟨T', hT'⟩ := hT'
  have hN : (normalize3 (![15, 0, 0] - ![0, 0, 0])).bind
      (fun n1 => frameOf n1 (![19, 13, 0] - ![0, 0, 0])) = some 1 := by
    rw [normalize3_of_smul (c := 15) (f := ![1, 0, 0]) (by norm_num [vcons2, vcons3, vcons4]) (by norm_num [vcons2, vcons3, vcons4, dot3])
      (by apply ext3 <;> norm_num [vcons2, vcons3, vcons4]), Option.bind_some]
    have : crossProduct ![1, 0, 0] (![19, 13, 0] - ![0, 0, (0 : ℝ)]) = (13 : ℝ) • ![0, 0, 1] := by
      apply ext3 <;> norm_num [vcons2, vcons3, vcons4, cross_apply]
    unfold frameOf
    rw [normalize3_of_smul (c := 13) (by norm_num [vcons2, vcons3, vcons4]) (by norm_num [vcons2, vcons3, vcons4, dot3]) this, Option.map_some]
    congr 1
    apply mat3_ext <;> norm_num [vcons2, cross_apply] <;> simp
  have hd : norm3 (![15, 0, 0] - ![0, 0, 0]) = 15 := by
    rw [norm3, dot3]
    norm_num [vcons2, vcons3, vcons4]
    exact (Real.sqrt_eq_iff_mul_self_eq (by norm_num) (by norm_num)).2 (by norm_num)
  have hb : cotOf (![1, 0, 0] ⬝ᵥ ![4/5, 3/5, 0]) = 4/3 := by
    have : ![1, 0, 0] ⬝ᵥ ![4/5, 3/5, (0 : ℝ)] = 4/5 := by norm_num [vcons2, vcons3, vcons4, dot3]
    rw [this]
    have h2 : (1 / (1 - (4/5 : ℝ) ^ 2) - 1) = (4/3) ^ 2 := by norm_num
    unfold cotOf
    simp only [h2]
    rw [if_neg (by norm_num), Real.sqrt_sq (by norm_num)]
  unfold p3pKneip
  rw [if_neg, hT, hT']
  · simp only
    rw [if_neg (by norm_num [vcons2, vcons3, vcons4]), kneipSolve_eq hN (by norm_num [vcons2, vcons3, vcons4]) (by norm_num [vcons2, vcons3, vcons4, dot3])]
    have hk : kneipDataOf ![1, 0, 0] ![4/5, 3/5, 0] ![132/325, 224/325, -195/325] ![0, 0, 0]
        ![15, 0, 0] ![19, 13, 0] 1 1 = ⟨-44/65, -224/195, 19, 13, 15, 4/3⟩ := by
      unfold kneipDataOf
      rw [hd, hb]
      simp only [one_mulVec]
      norm_num [vcons2, vcons3, vcons4]
    rw [hk]
    obtain ⟨l, hl⟩ := C27_quartic_defined (kneipFactors ⟨-44/65, -224/195, 19, 13, 15, 4/3⟩ 0)
      (kneipFactors ⟨-44/65, -224/195, 19, 13, 15, 4/3⟩ 1)
      (kneipFactors ⟨-44/65, -224/195, 19, 13, 15, 4/3⟩ 2)
      (kneipFactors ⟨-44/65, -224/195, 19, 13, 15, 4/3⟩ 3)
      (kneipFactors ⟨-44/65, -224/195, 19, 13, 15, 4/3⟩ 4)
      (by norm_num [vcons2, vcons3, vcons4, kneipFactors]) (by norm_num [vcons2, vcons3, vcons4, kneipFactors])
    rw [hl]
    have hx : (4/5 : ℝ) ∈ l := o4Roots_mem hl (by norm_num [vcons2, vcons3, vcons4, kneipFactors])
    have : ∃ P, kneipOne ⟨-44/65, -224/195, 19, 13, 15, 4/3⟩ ![0, 0, 0] 1 1 (4/5) = some P := by
      unfold kneipOne
      rw [if_neg (by norm_num [vcons2, vcons3, vcons4, kneipDen])]
      exact ⟨_, rfl⟩
    obtain ⟨P, hP⟩ := this
    exact ⟨P, List.mem_map.2 ⟨_, hx, hP⟩⟩
  · rw [norm3_eq_zero]
    intro h
    have := congrFun h 2
    norm_num [vcons2, vcons3, vcons4, cross_apply] at this

/-- The points of the example are not in the exceptional position. -/
theorem kneip_example_circle : ¬ Spec.ProjectionConcyclic ![0, 0, 0] ![15, 0, 0] ![19, 13, 0]
    ![15, 16, 12] := by
  rintro ⟨q, o, s, h1, h2, h3, h4, h5⟩
  have q0 := congrFun h1 0
  have q1 := congrFun h1 1
  have q2 := congrFun h1 2
  norm_num [vcons2, vcons3, vcons4, cross_apply] at q0 q1 q2
  rw [dot3] at h2 h3 h4 h5
  norm_num [vcons2, vcons3, vcons4, dot3, cross_apply] at h2 h3 h4 h5
  have hs : s = -13 * 180 / (180 ^ 2 + 240 ^ 2) := by
    rw [q1, q2] at h2; linarith
  rw [hs] at q1 q2
  norm_num [vcons2, vcons3, vcons4] at q1 q2
  rw [q0, q1, q2] at h3 h4 h5
  nlinarith

/-- In that case all hypotheses of the theorem hold and the true pose is returned. -/
example : some ((![15, 16, 12] : Vec3),
    (!![-3/5, 4/5, 0; -16/25, -12/25, -3/5; -12/25, -9/25, 4/5] : Mat3)) ∈
    p3pKneip ![1, 0, 0] ![4/5, 3/5, 0] ![132/325, 224/325, -195/325] ![0, 0, 0] ![15, 0, 0]
      ![19, 13, 0] := by
  refine C42_true_pose _ _ _ _ _ _ _ _ (by norm_num [vcons2, vcons3, vcons4, dot3]) (by norm_num [vcons2, vcons3, vcons4, dot3]) ?_ ?_
    ⟨25, by norm_num [vcons2, vcons3, vcons4], ?_⟩ ⟨20, by norm_num [vcons2, vcons3, vcons4], ?_⟩ ⟨13, by norm_num [vcons2, vcons3, vcons4], ?_⟩ ?_ kneip_example
  · apply mat3_ext <;> rw [mul3] <;> norm_num [vcons2] <;> simp
  · rw [det_fin_three]; norm_num [vcons2, vcons3, vcons4]
  · apply ext3 <;> simp only [Pi.add_apply, Pi.smul_apply, mulVec3] <;> norm_num [vcons2, vcons3, vcons4]
  · apply ext3 <;> simp only [Pi.add_apply, Pi.smul_apply, mulVec3] <;> norm_num [vcons2, vcons3, vcons4]
  · apply ext3 <;> simp only [Pi.add_apply, Pi.smul_apply, mulVec3] <;> norm_num [vcons2, vcons3, vcons4]
  · exact kneip_example_circle

/-- The blind plane: the third bearing vector is opposite to the normal of the first two. -/
example (P1 P2 P3 : Vec3) (P : Vec3 × Mat3) :
    some P ∉ p3pKneip ![1, 0, 0] ![4/5, 3/5, 0] ![0, 0, -1] P1 P2 P3 :=
  C42_blind_plane _ _ _ _ _ _ (by norm_num [vcons2, vcons3, vcons4, dot3]) (by norm_num [vcons2, vcons3, vcons4, dot3])
    (by norm_num [vcons2, vcons3, vcons4, dot3, cross_apply]) (by norm_num [vcons2, vcons3, vcons4, dot3, cross_apply]) P

/-! ## Gao's P3P -/

/-- **C43.** For noise-free data of three points that are not on a line, and for every singular
value decomposition that the library may compute: if `p3p_gao` returns a pose with finite entries at
all then the true pose is among the poses it returns. -/
theorem C43_true_pose (svd : Mat3 → Mat3 × Mat3)
    (hsvd : ∀ H, ∃ σ, Spec.IsSvd H (svd H).1 (svd H).2 σ)
    (f1 f2 f3 P1 P2 P3 t : Vec3) (R : Mat3)
    (u1 : f1 ⬝ᵥ f1 = 1) (u2 : f2 ⬝ᵥ f2 = 1) (u3 : f3 ⬝ᵥ f3 = 1)
    (hR : R.transpose * R = 1) (hdet : R.det = 1)
    (s1 : Spec.Sees t R f1 P1) (s2 : Spec.Sees t R f2 P2) (s3 : Spec.Sees t R f3 P3)
    (hcol : crossProduct (P2 - P1) (P3 - P1) ≠ 0)
    (hfin : ∃ P, some P ∈ p3pGao svd f1 f2 f3 P1 P2 P3) :
    some (t, R) ∈ p3pGao svd f1 f2 f3 P1 P2 P3 := by
  obtain ⟨l1, h1, e1⟩ := s1
  obtain ⟨l2, h2, e2⟩ := s2
  obtain ⟨l3, h3, e3⟩ := s3
  obtain ⟨P, hP⟩ := hfin
  have d : ∀ {P Q f g : Vec3} {l m : ℝ}, P = t + l • (R *ᵥ f) → Q = t + m • (R *ᵥ g) →
      (P - Q) ⬝ᵥ (P - Q) = (l • f - m • g) ⬝ᵥ (l • f - m • g) := by
    intro P Q f g l m hP hQ
    have : P - Q = R *ᵥ (l • f - m • g) := by
      rw [hP, hQ, mulVec_sub, mulVec_smul, mulVec_smul]; abel
    rw [this, rot_dot hR]
  have hmem := p3pGao_of_triangle hP u1 u2 u3 h3 (d e1 e2) (d e2 e3) (d e1 e3)
  obtain ⟨t', R', he, hR', a1, a2, a3⟩ := arun_of_dist hsvd hcol (d e1 e2) (d e2 e3) (d e1 e3)
  rw [he] at hmem
  have b1 : P1 = R *ᵥ (l1 • f1) + t := by rw [e1, mulVec_smul, add_comm]
  have b2 : P2 = R *ᵥ (l2 • f2) + t := by rw [e2, mulVec_smul, add_comm]
  have b3 : P3 = R *ᵥ (l3 • f3) + t := by rw [e3, mulVec_smul, add_comm]
  obtain ⟨r1, r2⟩ := pose_unique hR' ⟨hR, hdet⟩ hcol a1 a2 a3 b1 b2 b3
  rw [r1, r2] at hmem
  exact hmem

/-- **C43, every real root.** For any unit bearing vectors and any points that are not on a line
(with or without noise), the pose obtained from a real root of the quartic explains all three points
exactly: each is on the line of its bearing vector, the third one in front of the camera. -/
theorem C43_real_root (svd : Mat3 → Mat3 × Mat3)
    (hsvd : ∀ H, ∃ σ, Spec.IsSvd H (svd H).1 (svd H).2 σ)
    (f1 f2 f3 P1 P2 P3 : Vec3) (k : GaoData) (x X Y Z : ℝ)
    (u1 : f1 ⬝ᵥ f1 = 1) (u2 : f2 ⬝ᵥ f2 = 1) (u3 : f3 ⬝ᵥ f3 = 1)
    (hcol : crossProduct (P2 - P1) (P3 - P1) ≠ 0) (hk : k = gaoData f1 f2 f3 P1 P2 P3)
    (hroot : gaoFactors k 0 * x ^ 4 + gaoFactors k 1 * x ^ 3 + gaoFactors k 2 * x ^ 2 +
      gaoFactors k 3 * x + gaoFactors k 4 = 0)
    (hd : gaoDepths k (norm3 (P1 - P2)) x = some (X, Y, Z)) :
    ∃ t R, arunComplete svd [(P1, X • f1), (P2, Y • f2), (P3, Z • f3)] = some (t, R) ∧
      R.transpose * R = 1 ∧ R.det = 1 ∧ 0 < Z ∧ P1 = t + X • (R *ᵥ f1) ∧
      P2 = t + Y • (R *ᵥ f2) ∧ P3 = t + Z • (R *ᵥ f3) := by
  subst hk
  have hAB : P1 - P2 ≠ 0 := by
    intro e
    apply hcol
    rw [← neg_sub P1 P2, e]; simp
  obtain ⟨hZ, d1, d2, d3⟩ := gaoDepths_dist hAB u1 u2 u3 hroot hd
  obtain ⟨t, R, he, hR, a1, a2, a3⟩ := arun_of_dist hsvd hcol d1 d2 d3
  refine ⟨t, R, he, hR.1, hR.2, hZ, ?_, ?_, ?_⟩
  · rw [a1, mulVec_smul, add_comm]
  · rw [a2, mulVec_smul, add_comm]
  · rw [a3, mulVec_smul, add_comm]

/-- The data of the example above. -/
theorem gao_example_data : gaoData ![1, 0, 0] ![4/5, 3/5, 0] ![132/325, 224/325, -195/325] ![0, 0, 0]
    ![15, 0, 0] ![19, 13, 0] = ⟨37/45, 106/45, 96/65, 264/325, 8/5⟩ := by
  have h1 : norm3 (![0, 0, 0] - ![15, 0, 0]) ^ 2 = 225 := by
    rw [norm3_sq]; norm_num [vcons2, dot3]
  have h2 : norm3 (![15, 0, 0] - ![19, 13, 0]) ^ 2 = 185 := by
    rw [norm3_sq]; norm_num [vcons2, dot3]
  have h3 : norm3 (![0, 0, 0] - ![19, 13, 0]) ^ 2 = 530 := by
    rw [norm3_sq]; norm_num [vcons2, dot3]
  unfold gaoData
  rw [div_pow, div_pow, h1, h2, h3]
  norm_num [vcons2, dot3]

theorem gao_example_depths : gaoFactors ⟨37/45, 106/45, 96/65, 264/325, 8/5⟩ 0 * (25/13) ^ 4 +
      gaoFactors ⟨37/45, 106/45, 96/65, 264/325, 8/5⟩ 1 * (25/13) ^ 3 +
      gaoFactors ⟨37/45, 106/45, 96/65, 264/325, 8/5⟩ 2 * (25/13) ^ 2 +
      gaoFactors ⟨37/45, 106/45, 96/65, 264/325, 8/5⟩ 3 * (25/13) +
      gaoFactors ⟨37/45, 106/45, 96/65, 264/325, 8/5⟩ 4 = 0 ∧
    gaoDepths ⟨37/45, 106/45, 96/65, 264/325, 8/5⟩ (norm3 (![0, 0, 0] - ![15, 0, 0])) (25/13) =
      some (25, 20, 13) := by
  have h1 : norm3 (![0, 0, 0] - ![15, 0, 0]) = 15 := by
    rw [norm3, dot3]
    norm_num [vcons2]
    exact (Real.sqrt_eq_iff_mul_self_eq (by norm_num) (by norm_num)).2 (by norm_num)
  refine ⟨by norm_num [vcons2, vcons3, vcons4, gaoFactors], ?_⟩
  have hv : √(225/169 : ℝ) = 15/13 :=
    (Real.sqrt_eq_iff_mul_self_eq (by norm_num) (by norm_num)).2 (by norm_num)
  have hy : gaoPart1 ⟨37/45, 106/45, 96/65, 264/325, 8/5⟩ (25/13) *
      gaoPart2 ⟨37/45, 106/45, 96/65, 264/325, 8/5⟩ (25/13) /
      gaoB0 ⟨37/45, 106/45, 96/65, 264/325, 8/5⟩ = 20/13 := by
    norm_num [gaoPart1, gaoPart2, gaoB0]
  have hx : (25/13 * (25/13) + (20/13) ^ 2 - 8/5 * (25/13 * (20/13)) : ℝ) = 225/169 := by norm_num
  unfold gaoDepths
  rw [if_neg (by norm_num [gaoB0])]
  simp only [hy, hx, hv, h1]
  norm_num

/-- In the example above a pose is returned. -/
theorem gao_example (svd : Mat3 → Mat3 × Mat3) (hsvd : ∀ H, ∃ σ, Spec.IsSvd H (svd H).1 (svd H).2 σ) :
    ∃ P, some P ∈ p3pGao svd ![1, 0, 0] ![4/5, 3/5, 0] ![132/325, 224/325, -195/325] ![0, 0, 0]
      ![15, 0, 0] ![19, 13, 0] := by
  obtain ⟨hroot, hd⟩ := gao_example_depths
  obtain ⟨l, hl⟩ := C27_quartic_defined (gaoFactors ⟨37/45, 106/45, 96/65, 264/325, 8/5⟩ 0)
    (gaoFactors ⟨37/45, 106/45, 96/65, 264/325, 8/5⟩ 1)
    (gaoFactors ⟨37/45, 106/45, 96/65, 264/325, 8/5⟩ 2)
    (gaoFactors ⟨37/45, 106/45, 96/65, 264/325, 8/5⟩ 3)
    (gaoFactors ⟨37/45, 106/45, 96/65, 264/325, 8/5⟩ 4)
    (by norm_num [gaoFactors]) (by norm_num [vcons2, vcons3, vcons4, gaoFactors])
  have h1 : norm3 (![0, 0, 0] - ![15, 0, 0]) ≠ 0 := by
    rw [Ne, norm3_eq_zero]
    intro h
    have := congrFun h 0
    norm_num at this
  unfold p3pGao
  rw [gao_example_data, if_neg (by norm_num), if_neg h1, if_neg (by norm_num [gaoFactors])]
  simp only [hl]
  obtain ⟨t, R, h, -⟩ := C23_alignment_optimal svd hsvd [(![0, 0, 0], (25 : ℝ) • ![1, 0, 0]),
    (![15, 0, 0], (20 : ℝ) • ![4/5, 3/5, 0]),
    (![19, 13, 0], (13 : ℝ) • ![132/325, 224/325, -195/325])] (by simp)
  refine ⟨(t, R), List.mem_map.2 ⟨25/13, o4Roots_mem hl hroot, ?_⟩⟩
  rw [hd]
  exact h

/-- In the example above all hypotheses hold, and the true pose is returned. -/
example : ∃ svd : Mat3 → Mat3 × Mat3, (∀ H, ∃ σ, Spec.IsSvd H (svd H).1 (svd H).2 σ) ∧
    some ((![15, 16, 12] : Vec3),
      (!![-3/5, 4/5, 0; -16/25, -12/25, -3/5; -12/25, -9/25, 4/5] : Mat3)) ∈
    p3pGao svd ![1, 0, 0] ![4/5, 3/5, 0] ![132/325, 224/325, -195/325] ![0, 0, 0] ![15, 0, 0]
      ![19, 13, 0] := by
  obtain ⟨svd, hsvd⟩ := exists_svd_fun 3
  refine ⟨svd, hsvd, C43_true_pose svd hsvd _ _ _ _ _ _ _ _ (by norm_num [vcons2, dot3])
    (by norm_num [vcons2, dot3]) (by norm_num [vcons2, dot3]) ?_ ?_
    ⟨25, by norm_num, ?_⟩ ⟨20, by norm_num, ?_⟩ ⟨13, by norm_num, ?_⟩ ?_ ?_⟩
  · apply mat3_ext <;> rw [mul3] <;> norm_num [vcons2] <;> simp
  · rw [det_fin_three]; norm_num [vcons2]
  · apply ext3 <;> simp only [Pi.add_apply, Pi.smul_apply, mulVec3] <;> norm_num [vcons2]
  · apply ext3 <;> simp only [Pi.add_apply, Pi.smul_apply, mulVec3] <;> norm_num [vcons2]
  · apply ext3 <;> simp only [Pi.add_apply, Pi.smul_apply, mulVec3] <;> norm_num [vcons2]
  · intro h
    have := congrFun h 2
    norm_num [vcons2, cross_apply] at this
  · exact gao_example svd hsvd

/-- **C43, the defect.** The test that should reject coplanar bearing vectors
(`p^2 + q^2 + r^2 - pqr = 4`) compares with 1: for these linearly independent bearing vectors nothing
is returned, whatever the points are. -/
theorem C43_wrong_guard : ∃ f1 f2 f3 : Vec3, f1 ⬝ᵥ f1 = 1 ∧ f2 ⬝ᵥ f2 = 1 ∧ f3 ⬝ᵥ f3 = 1 ∧
    crossProduct f1 f2 ⬝ᵥ f3 ≠ 0 ∧ ∀ svd P1 P2 P3, p3pGao svd f1 f2 f3 P1 P2 P3 = [] := by
  have h3 : √3 * √3 = 3 := Real.mul_self_sqrt (by norm_num [vcons2, vcons3, vcons4])
  refine ⟨![1, 0, 0], ![1/2, √3/2, 0], ![0, 0, 1], by norm_num [vcons2, vcons3, vcons4, dot3], ?_, by norm_num [vcons2, vcons3, vcons4, dot3], ?_,
    fun svd P1 P2 P3 => ?_⟩
  · rw [dot3]; simp; linarith
  · rw [dot3]; simp [cross_apply]
  · unfold p3pGao
    rw [if_pos]
    norm_num [vcons2, vcons3, vcons4, gaoData, dot3]

/-- **C43, the defect.** Three coplanar bearing vectors pass this test. -/
theorem C43_coplanar_passes : ∃ f1 f2 f3 : Vec3, f1 ⬝ᵥ f1 = 1 ∧ f2 ⬝ᵥ f2 = 1 ∧ f3 ⬝ᵥ f3 = 1 ∧
    crossProduct f1 f2 ⬝ᵥ f3 = 0 ∧ ∃ svd P1 P2 P3, p3pGao svd f1 f2 f3 P1 P2 P3 ≠ [] := by
  refine ⟨![1, 0, 0], ![0, 1, 0], ![3/5, 4/5, 0], by norm_num [vcons2, vcons3, vcons4, dot3], by norm_num [vcons2, vcons3, vcons4, dot3],
    by norm_num [vcons2, vcons3, vcons4, dot3], by norm_num [vcons2, vcons3, vcons4, dot3, cross_apply], fun _ => (1, 1), 0, 0, 0, ?_⟩
  unfold p3pGao
  rw [if_neg (by norm_num [vcons2, vcons3, vcons4, gaoData, dot3]), if_pos (by simp [norm3])]
  simp

end OpenGV.Props
