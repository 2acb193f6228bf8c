import Verif.Proof.P3p
import Verif.Spec.P3p
import Verif.Props.Roots

/-!
# Helper lemmas for Kneip's P3P
-/

namespace OpenGV

open Matrix

/-- The value of the quartic built by the solver. -/
def kneipQuartic (k : KneipData) (x : ℝ) : ℝ :=
  kneipFactors k 0 * x ^ 4 + kneipFactors k 1 * x ^ 3 + kneipFactors k 2 * x ^ 2 +
    kneipFactors k 3 * x + kneipFactors k 4

/-- The value that is zero on the circle through the two points and the camera. -/
def kneipA (k : KneipData) (x : ℝ) : ℝ :=
  k.p_1 * (k.p_1 - k.d_12) + x ^ 2 * k.p_2 ^ 2 - k.d_12 * k.b * k.p_2 * x

def kneipD (k : KneipData) (x : ℝ) : ℝ := k.f_2 * (k.p_1 - k.d_12) - k.f_1 * x * k.p_2

def kneipN (k : KneipData) (x : ℝ) : ℝ :=
  -k.f_1 * k.p_1 - k.f_2 * x * k.p_2 + k.f_2 * k.d_12 * k.b

theorem kneipQuartic_eq (k : KneipData) (x : ℝ) :
    kneipQuartic k x =
      (1 - x ^ 2) * k.p_2 ^ 2 * (kneipD k x ^ 2 + kneipN k x ^ 2) - kneipA k x ^ 2 := by
  simp only [kneipQuartic, kneipFactors, kneipD, kneipN, kneipA, cons_val]
  ring

theorem kneipDen_eq {k : KneipData} (h : k.f_2 ≠ 0) (x : ℝ) :
    kneipDen k x = kneipD k x / k.f_2 := by
  unfold kneipDen kneipD; field_simp; ring

theorem kneipCot_eq {k : KneipData} (h : k.f_2 ≠ 0) (x : ℝ) :
    kneipCot k x = kneipN k x / kneipD k x := by
  unfold kneipCot
  rw [kneipDen_eq h]
  have : -k.f_1 * k.p_1 / k.f_2 - x * k.p_2 + k.d_12 * k.b = kneipN k x / k.f_2 := by
    unfold kneipN; field_simp
  rw [this, div_div_div_cancel_right₀ h]

/-- The angles of a solution: the conditions for the third point. -/
structure KneipAngles (k : KneipData) (sa ca st ct : ℝ) (vz : ℝ) : Prop where
  alpha : sa ^ 2 + ca ^ 2 = 1
  theta : st ^ 2 + ct ^ 2 = 1
  vx : -ca * k.p_1 - sa * ct * k.p_2 + k.d_12 * (sa * k.b + ca) = k.f_1 * vz
  vy : sa * k.p_1 - ca * ct * k.p_2 = k.f_2 * vz
  vz : -st * k.p_2 = vz

theorem KneipAngles.mulD {k : KneipData} {sa ca st ct vz : ℝ} (h : KneipAngles k sa ca st ct vz) :
    kneipD k ct * vz = sa * kneipA k ct := by
  unfold kneipD kneipA
  linear_combination -(k.p_1 - k.d_12) * h.vy + ct * k.p_2 * h.vx

theorem KneipAngles.mulN {k : KneipData} {sa ca st ct vz : ℝ} (h : KneipAngles k sa ca st ct vz) :
    kneipN k ct * vz = ca * kneipA k ct := by
  unfold kneipN kneipA
  linear_combination k.p_1 * h.vx - (-ct * k.p_2 + k.d_12 * k.b) * h.vy

theorem KneipAngles.root {k : KneipData} {sa ca st ct vz : ℝ} (h : KneipAngles k sa ca st ct vz) :
    kneipQuartic k ct = 0 := by
  rw [kneipQuartic_eq]
  have h1 := h.mulD
  have h2 := h.mulN
  have h3 : (1 - ct ^ 2) * k.p_2 ^ 2 = vz ^ 2 := by
    rw [← h.vz]; linear_combination -k.p_2 ^ 2 * h.theta
  rw [h3]
  linear_combination (kneipD k ct * vz + sa * kneipA k ct) * h1 +
    (kneipN k ct * vz + ca * kneipA k ct) * h2 + kneipA k ct ^ 2 * h.alpha

/-- Back-substitution of the right root gives the right angles. -/
theorem kneipOne_eq {k : KneipData} {sa ca st ct vz : ℝ} (h : KneipAngles k sa ca st ct vz)
    (hsa : 0 < sa) (hst : 0 < st) (hvz : vz ≠ 0) (hf : k.f_2 ≠ 0) (hA : kneipA k ct ≠ 0)
    (P1 : Vec3) (N T : Mat3) :
    kneipOne k P1 N T ct = some (kneipPose k.d_12 k.b P1 N T sa ca st ct) := by
  have h1 := h.mulD
  have h2 := h.mulN
  have hD : kneipD k ct ≠ 0 := by
    intro e
    rw [e, zero_mul] at h1
    exact (mul_ne_zero hsa.ne' hA) h1.symm
  have hden : kneipDen k ct ≠ 0 := by rw [kneipDen_eq hf]; exact div_ne_zero hD hf
  have hcot : kneipCot k ct = ca / sa := by
    rw [kneipCot_eq hf, div_eq_div_iff hD hsa.ne']
    apply mul_right_cancel₀ hvz
    linear_combination sa * h2 - ca * h1
  have hst2 : (1 - ct ^ 2 : ℝ) = st ^ 2 := by linarith [h.theta]
  unfold kneipOne
  rw [if_neg]
  · have e1 : √(1 - ct ^ 2) = st := by rw [hst2, Real.sqrt_sq hst.le]
    have e2 : √(1 / (kneipCot k ct ^ 2 + 1)) = sa := by
      rw [hcot]
      have : (1 / ((ca / sa) ^ 2 + 1) : ℝ) = sa ^ 2 := by
        have : (ca / sa) ^ 2 + 1 = 1 / sa ^ 2 := by
          field_simp; linarith [h.alpha]
        rw [this, one_div_one_div]
      rw [this, Real.sqrt_sq hsa.le]
    have e3 : √(1 - sa ^ 2) = |ca| := by
      rw [show (1 - sa ^ 2 : ℝ) = ca ^ 2 by linarith [h.alpha], Real.sqrt_sq_eq_abs]
    have e4 : (if kneipCot k ct < 0 then -|ca| else |ca|) = ca := by
      rw [hcot]
      split
      · rename_i hc
        have : ca < 0 := by
          by_contra hh
          exact absurd hc (not_lt.2 (div_nonneg (not_lt.1 hh) hsa.le))
        rw [abs_of_neg this, neg_neg]
      · rename_i hc
        have : 0 ≤ ca := by
          by_contra hh
          exact hc (div_neg_of_neg_of_pos (not_le.1 hh) hsa)
        rw [abs_of_nonneg this]
    simp only [e1, e2, e3, e4]
  · rintro (e | e | e)
    · exact hf e
    · exact hden e
    · rw [hst2] at e
      exact absurd e (not_lt.2 (sq_nonneg _))

/-! ### The rotation of the solution -/

/-- The rotation matrix of the angles. -/
def kneipR (sa ca st ct : ℝ) : Mat3 :=
  !![-ca, -sa * ct, -sa * st; sa, -ca * ct, -ca * st; 0, -st, ct]

theorem kneipR_isRot {sa ca st ct : ℝ} (ha : sa ^ 2 + ca ^ 2 = 1) (ht : st ^ 2 + ct ^ 2 = 1) :
    IsRot (kneipR sa ca st ct) := by
  constructor
  · apply mat3_ext <;> rw [mul3] <;> simp [kneipR]
    · linarith
    · ring
    · ring
    · ring
    · linear_combination ct ^ 2 * ha + ht
    · linear_combination ct * st * ha
    · ring
    · linear_combination ct * st * ha
    · linear_combination st ^ 2 * ha + ht
  · rw [det_fin_three]
    simp [kneipR]
    linear_combination (ct ^ 2 + st ^ 2) * ha + ht

/-- A rotation with these first column and third row is the rotation of the angles. -/
theorem rot_eq_kneipR {Q : Mat3} (hQ : IsRot Q) (h20 : Q 2 0 = 0) :
    Q = kneipR (Q 1 0) (-Q 0 0) (-Q 2 1) (Q 2 2) := by
  obtain ⟨c00, c01, c02, c10, c11, c12, c20, c21, c22⟩ := rot_cof hQ
  rw [h20] at c01 c02 c11 c12
  apply mat3_ext <;> simp [kneipR]
  · linarith
  · linarith
  · linarith
  · linarith
  · exact h20

theorem kneipPose_eq (d b : ℝ) (P1 : Vec3) (N T : Mat3) (sa ca st ct : ℝ) :
    kneipPose d b P1 N T sa ca st ct =
      (P1 + N.transpose *ᵥ ((d * (sa * b + ca)) • ![ca, sa * ct, sa * st]),
        N.transpose * (kneipR sa ca st ct).transpose * T) := by
  unfold kneipPose
  simp only [Prod.mk.injEq]
  refine ⟨?_, rfl⟩
  congr 2
  apply ext3 <;> simp <;> ring

/-! ### The angles of the true pose -/

/-- The data of the solver for a chosen order of the first two correspondences. -/
noncomputable def kneipDataOf (f1 f2 f3 P1 P2 P3 : Vec3) (N T : Mat3) : KneipData :=
  { f_1 := (T *ᵥ f3) 0 / (T *ᵥ f3) 2
    f_2 := (T *ᵥ f3) 1 / (T *ᵥ f3) 2
    p_1 := (N *ᵥ (P3 - P1)) 0
    p_2 := (N *ᵥ (P3 - P1)) 1
    d_12 := norm3 (P2 - P1)
    b := cotOf (f1 ⬝ᵥ f2) }

/-- Everything the solver computes from noise-free data. -/
structure KneipSetup (f1 f2 f3 P1 P2 P3 t : Vec3) (R N T : Mat3) (l1 l2 l3 : ℝ) : Prop where
  u1 : f1 ⬝ᵥ f1 = 1
  u2 : f2 ⬝ᵥ f2 = 1
  rot : IsRot R
  p1 : P1 = t + l1 • (R *ᵥ f1)
  p2 : P2 = t + l2 • (R *ᵥ f2)
  p3 : P3 = t + l3 • (R *ᵥ f3)
  h1 : 0 < l1
  h2 : 0 < l2
  h3 : 0 < l3
  hT : FrameSpec f1 f2 T
  hN : FrameSpec ((norm3 (P2 - P1))⁻¹ • (P2 - P1)) (P3 - P1) N
  ne : P2 - P1 ≠ 0
  neg : (T *ᵥ f3) 2 < 0

theorem kneip_true_angles {f1 f2 f3 P1 P2 P3 t : Vec3} {R N T : Mat3} {l1 l2 l3 : ℝ}
    (s : KneipSetup f1 f2 f3 P1 P2 P3 t R N T l1 l2 l3) :
    ∃ sa ca st ct vz, KneipAngles (kneipDataOf f1 f2 f3 P1 P2 P3 N T) sa ca st ct vz ∧
      0 < sa ∧ 0 < st ∧ vz < 0 ∧
      kneipPose (norm3 (P2 - P1)) (cotOf (f1 ⬝ᵥ f2)) P1 N T sa ca st ct = (t, R) ∧
      norm3 (P2 - P1) * (sa * cotOf (f1 ⬝ᵥ f2) + ca) = l1 := by
  set Q : Mat3 := T * R.transpose * N.transpose with hQ
  have rQ : IsRot Q := (s.hT.rot.mul s.rot.transpose).mul s.hN.rot.transpose
  set d := norm3 (P2 - P1) with hd
  have hdpos : 0 < d := norm3_pos s.ne
  have hsn := norm3_pos s.hT.ne
  -- `Q` applied to a vector in the frame of the points
  have hQN : ∀ v : Vec3, Q *ᵥ (N *ᵥ v) = T *ᵥ (R.transpose *ᵥ v) := by
    intro v
    rw [hQ, ← mulVec_mulVec, rot_transpose_mulVec s.hN.rot.1, ← mulVec_mulVec]
  have hN1 : N *ᵥ (P2 - P1) = ![d, 0, 0] := by
    have h1 := s.hN.fst
    rw [mulVec_smul] at h1
    have h2 : N *ᵥ (P2 - P1) = d • ![1, 0, 0] := by
      rw [← h1, smul_smul, mul_inv_cancel₀ hdpos.ne', one_smul]
    rw [h2]
    apply ext3 <;> simp
  have hc0 : Q *ᵥ ![d, 0, 0] = l2 • (T *ᵥ f2) - l1 • (T *ᵥ f1) := by
    rw [← hN1, hQN, s.p1, s.p2]
    have : t + l2 • R *ᵥ f2 - (t + l1 • R *ᵥ f1) = R *ᵥ (l2 • f2 - l1 • f1) := by
      rw [mulVec_sub, mulVec_smul, mulVec_smul]; abel
    rw [this, rot_transpose_mulVec s.rot.1, mulVec_sub, mulVec_smul, mulVec_smul]
  rw [s.hT.fst, s.hT.snd] at hc0
  have q00 := congrFun hc0 0
  have q10 := congrFun hc0 1
  have q20 := congrFun hc0 2
  simp only [mulVec3, cons_val, Pi.sub_apply, Pi.smul_apply, smul_eq_mul, mul_zero, add_zero,
    mul_one, sub_zero] at q00 q10 q20
  have h20 : Q 2 0 = 0 := by
    rcases mul_eq_zero.1 q20 with h | h
    · exact h
    · exact absurd h hdpos.ne'
  have hQR := rot_eq_kneipR rQ h20
  obtain ⟨sa, hsa⟩ : ∃ x, x = Q 1 0 := ⟨_, rfl⟩
  obtain ⟨ca, hca⟩ : ∃ x, x = -Q 0 0 := ⟨_, rfl⟩
  obtain ⟨st, hst⟩ : ∃ x, x = -Q 2 1 := ⟨_, rfl⟩
  obtain ⟨ct, hct⟩ : ∃ x, x = Q 2 2 := ⟨_, rfl⟩
  rw [← hsa, ← hca, ← hst, ← hct] at hQR
  rw [← hsa] at q10
  have cols := rot_cols rQ.1
  have rows := rot_rows rQ.1
  have halpha : sa ^ 2 + ca ^ 2 = 1 := by
    have := cols.1; rw [h20] at this; rw [hsa, hca]; linarith
  have htheta : st ^ 2 + ct ^ 2 = 1 := by
    have := rows.2.2.1; rw [h20] at this; rw [hst, hct]; linarith
  have hsapos : 0 < sa := by
    have h1 : 0 < sa * d := by rw [q10]; exact mul_pos s.h2 hsn
    exact (pos_iff_pos_of_mul_pos h1).2 hdpos
  have hcot := cotOf_mul s.u1 s.u2 s.hT.ne
  have hl1 : d * (sa * cotOf (f1 ⬝ᵥ f2) + ca) = l1 := by
    have e1 : Q 0 0 = -ca := by rw [hca, neg_neg]
    rw [e1] at q00
    clear_value d
    linear_combination cotOf (f1 ⬝ᵥ f2) * q10 - q00 + l2 * hcot
  -- the first point
  have hC : N *ᵥ (t - P1) = l1 • ![ca, sa * ct, sa * st] := by
    have h1 : Q *ᵥ (N *ᵥ (t - P1)) = -l1 • ![1, 0, 0] := by
      rw [hQN, s.p1]
      have : t - (t + l1 • R *ᵥ f1) = R *ᵥ (-l1 • f1) := by
        rw [mulVec_smul]; simp
      rw [this, rot_transpose_mulVec s.rot.1, mulVec_smul, s.hT.fst]
    have h2 : N *ᵥ (t - P1) = Q.transpose *ᵥ (-l1 • ![1, 0, 0]) := by
      rw [← h1, rot_transpose_mulVec rQ.1]
    rw [h2, hQR]
    apply ext3 <;> rw [mulVec3] <;> simp [kneipR] <;> ring
  -- the third point
  have hP3 : N *ᵥ (P3 - P1) = ![(N *ᵥ (P3 - P1)) 0, (N *ᵥ (P3 - P1)) 1, 0] := by
    have := s.hN.snd
    rw [this]; simp
  have hv : Q *ᵥ (N *ᵥ (P3 - P1) - N *ᵥ (t - P1)) = l3 • (T *ᵥ f3) := by
    rw [← mulVec_sub, hQN]
    have : P3 - P1 - (t - P1) = R *ᵥ (l3 • f3) := by
      rw [s.p3, mulVec_smul]; abel
    rw [this, rot_transpose_mulVec s.rot.1, mulVec_smul]
  rw [hC, hP3, hQR] at hv
  obtain ⟨p1, hp1⟩ : ∃ x, x = (N *ᵥ (P3 - P1)) 0 := ⟨_, rfl⟩
  obtain ⟨p2, hp2⟩ : ∃ x, x = (N *ᵥ (P3 - P1)) 1 := ⟨_, rfl⟩
  rw [← hp1, ← hp2] at hv
  have hp2pos : 0 < p2 := by
    rw [hp2, s.hN.snd]; exact norm3_pos s.hN.ne
  have v0 := congrFun hv 0
  have v1 := congrFun hv 1
  have v2 := congrFun hv 2
  rw [mulVec3] at v0 v1 v2
  have hg := s.neg
  obtain ⟨g0, hg0⟩ : ∃ x, x = (T *ᵥ f3) 0 := ⟨_, rfl⟩
  obtain ⟨g1, hg1⟩ : ∃ x, x = (T *ᵥ f3) 1 := ⟨_, rfl⟩
  obtain ⟨g2, hg2⟩ : ∃ x, x = (T *ᵥ f3) 2 := ⟨_, rfl⟩
  rw [← hg2] at hg
  rw [Pi.smul_apply, smul_eq_mul, ← hg0] at v0
  rw [Pi.smul_apply, smul_eq_mul, ← hg1] at v1
  rw [Pi.smul_apply, smul_eq_mul, ← hg2] at v2
  simp [kneipR] at v0 v1 v2
  unfold kneipDataOf
  rw [← hg0, ← hg1, ← hg2, ← hp1, ← hp2]
  refine ⟨sa, ca, st, ct, l3 * g2, ⟨halpha, htheta, ?_, ?_, ?_⟩, hsapos, ?_, ?_, ?_, hl1⟩
  · show -ca * p1 - sa * ct * p2 + d * (sa * cotOf (f1 ⬝ᵥ f2) + ca) = g0 / g2 * (l3 * g2)
    rw [hl1]
    have : g0 / g2 * (l3 * g2) = l3 * g0 := by field_simp [hg.ne]
    rw [this]
    linear_combination v0 - l1 * halpha - l1 * sa ^ 2 * htheta
  · show sa * p1 - ca * ct * p2 = g1 / g2 * (l3 * g2)
    have : g1 / g2 * (l3 * g2) = l3 * g1 := by field_simp [hg.ne]
    rw [this]
    linear_combination v1 - l1 * ca * sa * htheta
  · show -st * p2 = l3 * g2
    linear_combination v2
  · have h1 : 0 < st * p2 := by
      have : st * p2 = l3 * -g2 := by linear_combination -v2
      rw [this]
      exact mul_pos s.h3 (neg_pos.2 hg)
    exact (pos_iff_pos_of_mul_pos h1).2 hp2pos
  · exact mul_neg_of_pos_of_neg s.h3 hg
  · rw [kneipPose_eq, hl1, ← hC, rot_transpose_mulVec s.hN.rot.1, ← hQR, hQ]
    refine Prod.ext (by simp) ?_
    show N.transpose * (T * R.transpose * N.transpose).transpose * T = R
    rw [transpose_mul, transpose_mul, transpose_transpose, transpose_transpose,
      ← Matrix.mul_assoc, s.hN.rot.1, Matrix.one_mul, Matrix.mul_assoc, s.hT.rot.1, Matrix.mul_one]

/-! ### The solver -/

theorem o4Roots_mem {A B C D E x : ℝ} {l : List ℝ} (h : o4Roots A B C D E = some l)
    (hx : A * x ^ 4 + B * x ^ 3 + C * x ^ 2 + D * x + E = 0) : x ∈ l :=
  (Props.C27_quartic_roots A B C D E l h).2 x hx

theorem o4Roots_length {A B C D E : ℝ} {l : List ℝ} (h : o4Roots A B C D E = some l) :
    l.length = 4 := by
  obtain ⟨r, hr, hl⟩ := Option.map_eq_some_iff.1 h
  rw [← hl]; rfl

theorem kneipSolve_eq {f1 f2 f3 P1 P2 P3 : Vec3} {N T : Mat3}
    (hN : (normalize3 (P2 - P1)).bind (fun n1 => frameOf n1 (P3 - P1)) = some N)
    (hg : (T *ᵥ f3) 2 ≠ 0) (hc : 0 < 1 - (f1 ⬝ᵥ f2) ^ 2) :
    kneipSolve f1 f2 f3 P1 P2 P3 T =
      match o4Roots (kneipFactors (kneipDataOf f1 f2 f3 P1 P2 P3 N T) 0)
        (kneipFactors (kneipDataOf f1 f2 f3 P1 P2 P3 N T) 1)
        (kneipFactors (kneipDataOf f1 f2 f3 P1 P2 P3 N T) 2)
        (kneipFactors (kneipDataOf f1 f2 f3 P1 P2 P3 N T) 3)
        (kneipFactors (kneipDataOf f1 f2 f3 P1 P2 P3 N T) 4) with
      | none => [none, none, none, none]
      | some roots => roots.map (kneipOne (kneipDataOf f1 f2 f3 P1 P2 P3 N T) P1 N T) := by
  unfold kneipSolve
  simp only [hN]
  rw [if_neg (by rintro (h | h); exacts [hg h, absurd h (not_le.2 hc)])]
  rfl

theorem bind_frame {P1 P2 P3 : Vec3} {N : Mat3}
    (hN : (normalize3 (P2 - P1)).bind (fun n1 => frameOf n1 (P3 - P1)) = some N) :
    P2 - P1 ≠ 0 ∧ FrameSpec ((norm3 (P2 - P1))⁻¹ • (P2 - P1)) (P3 - P1) N := by
  obtain ⟨n1, h1, h2⟩ := Option.bind_eq_some_iff.1 hN
  obtain ⟨a, b, c⟩ := normalize3_eq_some h1
  exact ⟨a, b ▸ frameOf_spec c h2⟩

theorem bind_frame_some {P1 P2 P3 : Vec3} (h : crossProduct (P2 - P1) (P3 - P1) ≠ 0) :
    ∃ N, (normalize3 (P2 - P1)).bind (fun n1 => frameOf n1 (P3 - P1)) = some N := by
  have h1 : P2 - P1 ≠ 0 := fun e => h (by rw [e]; simp)
  obtain ⟨n, hn⟩ := normalize3_isSome h1
  obtain ⟨_, e, _⟩ := normalize3_eq_some hn
  have h2 : crossProduct n (P3 - P1) ≠ 0 := by
    rw [e, map_smul, LinearMap.smul_apply]
    exact smul_ne_zero (inv_ne_zero (norm3_pos h1).ne') h
  obtain ⟨N, hN⟩ := frameOf_some h2
  exact ⟨N, by rw [hn, Option.bind_some, hN]⟩

theorem concyclic_of_zero {P1 P2 P3 t : Vec3} {M : Mat3} (hM : IsRot M)
    {d b sa ca st ct p1 p2 l : ℝ} (h2 : P2 - P1 = M *ᵥ ![d, 0, 0])
    (h3 : P3 - P1 = M *ᵥ ![p1, p2, 0]) (ht : t - P1 = M *ᵥ (l • ![ca, sa * ct, sa * st]))
    (hl : d * (sa * b + ca) = l) (ha : sa ^ 2 + ca ^ 2 = 1) (hth : st ^ 2 + ct ^ 2 = 1)
    (hl0 : l ≠ 0) (hd0 : d ≠ 0) (hs0 : sa ≠ 0)
    (hA : p1 * (p1 - d) + ct ^ 2 * p2 ^ 2 - d * b * p2 * ct = 0) :
    Spec.ProjectionConcyclic P1 P2 P3 t := by
  have hcr : crossProduct (P2 - P1) (t - P1) = M *ᵥ ((l * d * sa) • ![0, -st, ct]) := by
    rw [h2, ht, rot_cross hM]
    congr 1
    apply ext3 <;> simp [cross_apply] <;> ring
  have e2 : P2 = P1 + M *ᵥ ![d, 0, 0] := by rw [← h2]; abel
  have e3 : P3 = P1 + M *ᵥ ![p1, p2, 0] := by rw [← h3]; abel
  have et : t = P1 + M *ᵥ (l • ![ca, sa * ct, sa * st]) := by rw [← ht]; abel
  refine ⟨P1 + M *ᵥ ![p1, p2 * ct * ct, p2 * ct * st],
    P1 + M *ᵥ ![d / 2, d * b / 2 * ct, d * b / 2 * st], -(p2 * st) / (l * d * sa),
    ?_, ?_, ?_, ?_, ?_⟩
  · rw [hcr, e3, ← mulVec_smul, add_sub_assoc, ← mulVec_sub]
    congr 2
    apply ext3
    · simp
    · simp
      field_simp
      linear_combination p2 * hth
    · simp
      field_simp
  · rw [hcr, add_sub_cancel_left, rot_dot hM.1, dot3]
    simp
    ring
  · rw [add_sub_add_left_eq_sub, ← mulVec_sub, rot_dot hM.1, sub_add_cancel_left,
      neg_dotProduct_neg, rot_dot hM.1, dot3, dot3]
    simp
    linear_combination (p2 * ct * (d * b) - p2 ^ 2 * ct ^ 2) * hth - hA
  · rw [e2, add_sub_add_left_eq_sub, add_sub_add_left_eq_sub, ← mulVec_sub, ← mulVec_sub,
      rot_dot hM.1, rot_dot hM.1, dot3, dot3]
    simp
    linear_combination (p2 * ct * (d * b) - p2 ^ 2 * ct ^ 2) * hth - hA
  · rw [et, add_sub_add_left_eq_sub, add_sub_add_left_eq_sub, ← mulVec_sub, ← mulVec_sub,
      rot_dot hM.1, rot_dot hM.1, dot3, dot3]
    simp
    linear_combination (p2 * ct * (d * b) - p2 ^ 2 * ct ^ 2) * hth - hA + l ^ 2 * ha +
      (l ^ 2 * sa ^ 2 - l * sa * d * b) * hth - l * hl

theorem KneipSetup.coords {f1 f2 f3 P1 P2 P3 : Vec3} {N T : Mat3} (hne : P2 - P1 ≠ 0)
    (hN : FrameSpec ((norm3 (P2 - P1))⁻¹ • (P2 - P1)) (P3 - P1) N) :
    P2 - P1 = N.transpose *ᵥ ![norm3 (P2 - P1), 0, 0] ∧
    P3 - P1 = N.transpose *ᵥ ![(kneipDataOf f1 f2 f3 P1 P2 P3 N T).p_1,
      (kneipDataOf f1 f2 f3 P1 P2 P3 N T).p_2, 0] ∧
    0 < (kneipDataOf f1 f2 f3 P1 P2 P3 N T).p_2 := by
  have hd := (norm3_pos hne).ne'
  have h1 := hN.fst
  have h2 := hN.snd
  refine ⟨?_, ?_, ?_⟩
  · have e : ![norm3 (P2 - P1), 0, 0] = N *ᵥ (P2 - P1) := by
      rw [mulVec_smul] at h1
      have : N *ᵥ (P2 - P1) = norm3 (P2 - P1) • ![1, 0, 0] := by
        rw [← h1, smul_smul, mul_inv_cancel₀ hd, one_smul]
      rw [this]
      apply ext3 <;> simp
    rw [e, rot_transpose_mulVec hN.rot.1]
  · have e : ![(kneipDataOf f1 f2 f3 P1 P2 P3 N T).p_1,
        (kneipDataOf f1 f2 f3 P1 P2 P3 N T).p_2, 0] = N *ᵥ (P3 - P1) := by
      unfold kneipDataOf
      rw [h2]
      apply ext3 <;> simp
    rw [e, rot_transpose_mulVec hN.rot.1]
  · show 0 < (N *ᵥ (P3 - P1)) 1
    rw [h2]
    exact norm3_pos hN.ne

theorem kneipSolve_true {f1 f2 f3 P1 P2 P3 t : Vec3} {R T : Mat3} {l1 l2 l3 : ℝ}
    (u1 : f1 ⬝ᵥ f1 = 1) (u2 : f2 ⬝ᵥ f2 = 1) (hR : IsRot R)
    (e1 : P1 = t + l1 • (R *ᵥ f1)) (e2 : P2 = t + l2 • (R *ᵥ f2)) (e3 : P3 = t + l3 • (R *ᵥ f3))
    (h1 : 0 < l1) (h2 : 0 < l2) (h3 : 0 < l3) (hT : frameOf f1 f2 = some T)
    (hcol : crossProduct (P2 - P1) (P3 - P1) ≠ 0) (hneg : (T *ᵥ f3) 2 < 0)
    (hcirc : ¬Spec.ProjectionConcyclic P1 P2 P3 t)
    (hnan : kneipSolve f1 f2 f3 P1 P2 P3 T ≠ [none, none, none, none]) :
    some (t, R) ∈ kneipSolve f1 f2 f3 P1 P2 P3 T := by
  obtain ⟨N, hN⟩ := bind_frame_some hcol
  obtain ⟨hne, sN⟩ := bind_frame hN
  have sT := frameOf_spec u1 hT
  have s : KneipSetup f1 f2 f3 P1 P2 P3 t R N T l1 l2 l3 :=
    ⟨u1, u2, hR, e1, e2, e3, h1, h2, h3, sT, sN, hne, hneg⟩
  have hc : 0 < 1 - (f1 ⬝ᵥ f2) ^ 2 := by
    rw [← norm_cross_unit u1 u2]; exact pow_pos (norm3_pos sT.ne) 2
  rw [kneipSolve_eq hN hneg.ne hc] at hnan ⊢
  obtain ⟨sa, ca, st, ct, vz, ang, hsa, hst, hvz, hpose, hl⟩ := kneip_true_angles s
  obtain ⟨c2, c3, hp2⟩ := KneipSetup.coords (f1 := f1) (f2 := f2) (f3 := f3) (T := T) hne sN
  set k := kneipDataOf f1 f2 f3 P1 P2 P3 N T with hk
  have hroot := ang.root
  rcases ho : o4Roots (kneipFactors k 0) (kneipFactors k 1) (kneipFactors k 2) (kneipFactors k 3)
    (kneipFactors k 4) with _ | roots
  · rw [ho] at hnan; exact absurd rfl hnan
  · rw [ho] at hnan
    simp only at hnan ⊢
    have hmem : ct ∈ roots := o4Roots_mem ho hroot
    have hA : kneipA k ct ≠ 0 := by
      intro hA
      apply hcirc
      rw [kneipPose_eq] at hpose
      have ht := congrArg Prod.fst hpose
      simp only at ht
      rw [hl] at ht
      exact concyclic_of_zero sN.rot.transpose c2 c3 (by rw [← ht]; abel) hl ang.alpha ang.theta
        h1.ne' (norm3_pos hne).ne' hsa.ne' hA
    have hf2 : k.f_2 ≠ 0 := by
      intro hf
      apply hnan
      have hl4 : roots.length = 4 := o4Roots_length ho
      have : ∀ x, kneipOne k P1 N T x = none := fun x => by rw [kneipOne, if_pos (.inl hf)]
      match roots, hl4 with
      | [a, b, c, d], _ => simp [this]
    refine List.mem_map.2 ⟨ct, hmem, ?_⟩
    rw [kneipOne_eq ang hsa hst hvz.ne hf2 hA, ← hpose]
    rfl

/-! ### What every back-substitution gives -/

theorem kneipOne_spec {k : KneipData} {P1 : Vec3} {N T : Mat3} {x : ℝ} {P : Vec3 × Mat3}
    (h : kneipOne k P1 N T x = some P) :
    k.f_2 ≠ 0 ∧ kneipD k x ≠ 0 ∧ ∃ sa ca st : ℝ, 0 < sa ∧ 0 ≤ st ∧ sa ^ 2 + ca ^ 2 = 1 ∧
      st ^ 2 + x ^ 2 = 1 ∧ ca * kneipD k x = sa * kneipN k x ∧
      P = kneipPose k.d_12 k.b P1 N T sa ca st x := by
  unfold kneipOne at h
  split at h
  · cases h
  · rename_i hc
    simp only [not_or, not_lt] at hc
    obtain ⟨hf, hd, hx⟩ := hc
    have hD : kneipD k x ≠ 0 := by
      intro e; apply hd; rw [kneipDen_eq hf, e, zero_div]
    refine ⟨hf, hD, ?_⟩
    have hcot := kneipCot_eq hf x
    set c := kneipCot k x with hceq
    have hpos : 0 < c ^ 2 + 1 := by positivity
    have hsa : 0 < √(1 / (c ^ 2 + 1)) := Real.sqrt_pos.2 (by positivity)
    have hsa2 : √(1 / (c ^ 2 + 1)) ^ 2 = 1 / (c ^ 2 + 1) := Real.sq_sqrt (by positivity)
    set sa := √(1 / (c ^ 2 + 1)) with hsaeq
    have hca2 : 1 - sa ^ 2 = (c * sa) ^ 2 := by
      rw [mul_pow, hsa2]; field_simp; ring
    have hca : (if c < 0 then -√(1 - sa ^ 2) else √(1 - sa ^ 2)) = c * sa := by
      rw [hca2, Real.sqrt_sq_eq_abs]
      split
      · rename_i hneg
        rw [abs_of_neg (mul_neg_of_neg_of_pos hneg hsa), neg_neg]
      · rename_i hnn
        rw [abs_of_nonneg (mul_nonneg (not_lt.1 hnn) hsa.le)]
    refine ⟨sa, c * sa, √(1 - x ^ 2), hsa, Real.sqrt_nonneg _, by linarith, ?_, ?_, ?_⟩
    · rw [Real.sq_sqrt hx]; ring
    · rw [hcot]; field_simp
    · rw [← Option.some.inj h]
      rw [hca]

/-- The third point for a root of the quartic. -/
theorem kneip_third {k : KneipData} {sa ca st x : ℝ} (hf : k.f_2 ≠ 0) (hD : kneipD k x ≠ 0)
    (ha : sa ^ 2 + ca ^ 2 = 1) (ht : st ^ 2 + x ^ 2 = 1) (hc : ca * kneipD k x = sa * kneipN k x)
    (hroot : kneipQuartic k x = 0) :
    ∃ e : ℝ, (e = 1 ∨ e = -1) ∧
      -ca * k.p_1 - sa * x * k.p_2 + k.d_12 * (sa * k.b + ca) = e * k.f_1 * (-st * k.p_2) ∧
      sa * k.p_1 - ca * x * k.p_2 = e * k.f_2 * (-st * k.p_2) := by
  set X := -ca * k.p_1 - sa * x * k.p_2 + k.d_12 * (sa * k.b + ca) with hX
  set Y := sa * k.p_1 - ca * x * k.p_2 with hY
  have h1 : k.f_2 * X = k.f_1 * Y := by
    rw [hX, hY]
    unfold kneipD kneipN at hc
    linear_combination -hc
  have h2 : kneipD k x * Y = sa * k.f_2 * kneipA k x := by
    rw [hY]
    unfold kneipD kneipN at hc
    unfold kneipA kneipD
    linear_combination -x * k.p_2 * hc
  have h3 : Y ^ 2 = (k.f_2 * (-st * k.p_2)) ^ 2 := by
    rw [kneipQuartic_eq] at hroot
    have e1 : sa ^ 2 * (kneipD k x ^ 2 + kneipN k x ^ 2) = kneipD k x ^ 2 := by
      linear_combination kneipD k x ^ 2 * ha - (ca * kneipD k x + sa * kneipN k x) * hc
    have e2 : kneipD k x ^ 2 * Y ^ 2 = kneipD k x ^ 2 * (k.f_2 * (-st * k.p_2)) ^ 2 := by
      linear_combination (kneipD k x * Y + sa * k.f_2 * kneipA k x) * h2 -
        sa ^ 2 * k.f_2 ^ 2 * hroot + k.f_2 ^ 2 * (1 - x ^ 2) * k.p_2 ^ 2 * e1 -
        k.f_2 ^ 2 * k.p_2 ^ 2 * kneipD k x ^ 2 * ht
    exact mul_left_cancel₀ (pow_ne_zero 2 hD) e2
  rcases sq_eq_sq_iff_eq_or_eq_neg.1 h3 with h | h
  · refine ⟨1, .inl rfl, ?_, by rw [h]; ring⟩
    apply mul_left_cancel₀ hf
    rw [h1, h]; ring
  · refine ⟨-1, .inr rfl, ?_, by rw [h]; ring⟩
    apply mul_left_cancel₀ hf
    rw [h1, h]; ring

theorem kneip_back {f1 f2 f3 P1 P2 P3 : Vec3} {N T : Mat3} {x : ℝ} {C : Vec3} {R : Mat3}
    (u1 : f1 ⬝ᵥ f1 = 1) (u2 : f2 ⬝ᵥ f2 = 1) (sT : FrameSpec f1 f2 T) (hne : P2 - P1 ≠ 0)
    (sN : FrameSpec ((norm3 (P2 - P1))⁻¹ • (P2 - P1)) (P3 - P1) N) (hneg : (T *ᵥ f3) 2 < 0)
    (h : kneipOne (kneipDataOf f1 f2 f3 P1 P2 P3 N T) P1 N T x = some (C, R)) :
    IsRot R ∧ (∃ m : ℝ, P1 = C + m • (R *ᵥ f1)) ∧ (∃ m : ℝ, 0 < m ∧ P2 = C + m • (R *ᵥ f2)) ∧
    (kneipQuartic (kneipDataOf f1 f2 f3 P1 P2 P3 N T) x = 0 →
      ∃ m : ℝ, 0 ≤ m ∧ (P3 = C + m • (R *ᵥ f3) ∨
        P3 = C + m • (R *ᵥ ((2 * (T 2 ⬝ᵥ f3)) • T 2 - f3)))) := by
  obtain ⟨hf, hD, sa, ca, st, hsa, hst, ha, ht, hc, hP⟩ := kneipOne_spec h
  obtain ⟨c2, c3, hp2⟩ := KneipSetup.coords (f1 := f1) (f2 := f2) (f3 := f3) (T := T) hne sN
  set k := kneipDataOf f1 f2 f3 P1 P2 P3 N T with hk
  have hkd : k.d_12 = norm3 (P2 - P1) := rfl
  have hkb : k.b = cotOf (f1 ⬝ᵥ f2) := rfl
  have hdpos : 0 < k.d_12 := norm3_pos hne
  have hsn := norm3_pos sT.ne
  have hcot := cotOf_mul u1 u2 sT.ne
  rw [← hkb] at hcot
  rw [kneipPose_eq] at hP
  obtain ⟨hC, hR⟩ := Prod.ext_iff.1 hP
  simp only at hC hR
  have rK := kneipR_isRot ha ht
  have hrot : IsRot R := by
    rw [hR]; exact (sN.rot.transpose.mul rK.transpose).mul sT.rot
  have hNR : ∀ v : Vec3, R *ᵥ v = N.transpose *ᵥ ((kneipR sa ca st x).transpose *ᵥ (T *ᵥ v)) := by
    intro v; rw [hR, ← mulVec_mulVec, ← mulVec_mulVec]
  refine ⟨hrot, ⟨k.d_12 * (sa * k.b + ca), ?_⟩, ⟨k.d_12 * sa / norm3 (crossProduct f1 f2),
    div_pos (mul_pos hdpos hsa) hsn, ?_⟩, ?_⟩
  · rw [hNR, sT.fst, hC, ← mulVec_smul, add_assoc, ← mulVec_add]
    have : (k.d_12 * (sa * k.b + ca)) • ![ca, sa * x, sa * st] +
        (k.d_12 * (sa * k.b + ca)) • (kneipR sa ca st x).transpose *ᵥ ![1, 0, 0] = 0 := by
      apply ext3 <;> rw [Pi.add_apply, Pi.smul_apply, Pi.smul_apply, mulVec3] <;> simp [kneipR]
    rw [this, mulVec_zero, add_zero]
  · have e2 : P2 = P1 + N.transpose *ᵥ ![k.d_12, 0, 0] := by rw [hkd, ← c2]; abel
    rw [hNR, sT.snd, hC, ← mulVec_smul, add_assoc, ← mulVec_add, e2]
    congr 2
    have hb : f1 ⬝ᵥ f2 = norm3 (crossProduct f1 f2) * k.b := hcot.symm
    rw [hb]
    apply ext3 <;> rw [Pi.add_apply, Pi.smul_apply, Pi.smul_apply, mulVec3] <;> simp [kneipR] <;>
      field_simp
    · linear_combination -ha
    · ring
    · ring
  · intro hroot
    obtain ⟨e, he, hX, hY⟩ := kneip_third hf hD ha ht hc hroot
    have hg := hneg.ne
    have e3 : P3 = P1 + N.transpose *ᵥ ![k.p_1, k.p_2, 0] := by rw [← c3]; abel
    refine ⟨st * k.p_2 / -(T *ᵥ f3) 2, div_nonneg (mul_nonneg hst hp2.le) (neg_pos.2 hneg).le, ?_⟩
    have hk1 : k.f_1 * (T *ᵥ f3) 2 = (T *ᵥ f3) 0 := by
      show (T *ᵥ f3) 0 / (T *ᵥ f3) 2 * (T *ᵥ f3) 2 = (T *ᵥ f3) 0
      field_simp
    have hk2 : k.f_2 * (T *ᵥ f3) 2 = (T *ᵥ f3) 1 := by
      show (T *ᵥ f3) 1 / (T *ᵥ f3) 2 * (T *ᵥ f3) 2 = (T *ᵥ f3) 1
      field_simp
    -- the vector to the third point in the frame `T`
    have hv : ∀ w : Vec3, w 0 = e * (T *ᵥ f3) 0 → w 1 = e * (T *ᵥ f3) 1 → w 2 = (T *ᵥ f3) 2 →
        P3 = C + (st * k.p_2 / -(T *ᵥ f3) 2) •
          (N.transpose *ᵥ ((kneipR sa ca st x).transpose *ᵥ w)) := by
      intro w w0 w1 w2
      rw [hC, ← mulVec_smul, add_assoc, ← mulVec_add, e3]
      congr 2
      have hw : (st * k.p_2 / -(T *ᵥ f3) 2) • w =
          kneipR sa ca st x *ᵥ (![k.p_1, k.p_2, 0] -
            (k.d_12 * (sa * k.b + ca)) • ![ca, sa * x, sa * st]) := by
        obtain ⟨g2, hg2⟩ : ∃ z, z = (T *ᵥ f3) 2 := ⟨_, rfl⟩
        rw [← hk1] at w0
        rw [← hk2] at w1
        rw [← hg2] at w0 w1 w2 hg ⊢
        apply ext3
        · rw [Pi.smul_apply, mulVec3, w0]
          simp [kneipR]
          field_simp
          linear_combination -hX - k.d_12 * (sa * k.b + ca) * ha -
            k.d_12 * (sa * k.b + ca) * sa ^ 2 * ht
        · rw [Pi.smul_apply, mulVec3, w1]
          simp [kneipR]
          field_simp
          linear_combination -hY - k.d_12 * (sa * k.b + ca) * ca * sa * ht
        · rw [Pi.smul_apply, mulVec3, w2]
          simp [kneipR]
          field_simp
          ring
      rw [← mulVec_smul, hw, rot_transpose_mulVec rK.1]
      abel
    rcases he with he | he
    · left
      rw [hNR]
      exact hv _ (by rw [he, one_mul]) (by rw [he, one_mul]) rfl
    · right
      rw [hNR]
      have hT2 : T *ᵥ T 2 = ![0, 0, 1] := by
        obtain ⟨_, _, r3, _, r5, r6⟩ := rot_rows sT.rot.1
        apply ext3 <;> rw [mulVec3] <;> simp <;> linarith
      have hdot : T 2 ⬝ᵥ f3 = (T *ᵥ f3) 2 := rfl
      apply hv
      · rw [mulVec_sub, mulVec_smul, hT2, he]; simp
      · rw [mulVec_sub, mulVec_smul, hT2, he]; simp
      · rw [mulVec_sub, mulVec_smul, hT2, hdot]; simp; ring

/-! ### The whole solver -/

theorem FrameSpec.row2_unit {a b : Vec3} {T : Mat3} (h : FrameSpec a b T) : T 2 ⬝ᵥ T 2 = 1 := by
  have hn := norm3_pos h.ne
  rw [h.row2, smul_dotProduct, dotProduct_smul, ← norm3_sq, smul_eq_mul, smul_eq_mul]
  have := hn.ne'
  field_simp

theorem frameOf_row1 {a b : Vec3} {T : Mat3} (h : frameOf a b = some T) :
    T 1 = (norm3 (crossProduct a b))⁻¹ • crossProduct (crossProduct a b) a := by
  unfold frameOf at h
  obtain ⟨e, he, hT⟩ := Option.map_eq_some_iff.1 h
  obtain ⟨-, he', -⟩ := normalize3_eq_some he
  rw [← hT, he']
  show crossProduct ((norm3 (crossProduct a b))⁻¹ • crossProduct a b) a = _
  rw [map_smul, LinearMap.smul_apply]

theorem cross_swap_eq (P1 P2 P3 : Vec3) : crossProduct (P1 - P2) (P3 - P2) =
    -crossProduct (P2 - P1) (P3 - P1) := by
  apply ext3 <;> simp [cross_apply] <;> ring

theorem cross_swap_ne {P1 P2 P3 : Vec3} (h : crossProduct (P2 - P1) (P3 - P1) ≠ 0) :
    crossProduct (P1 - P2) (P3 - P2) ≠ 0 := by
  rw [cross_swap_eq]; exact neg_ne_zero.2 h

theorem Spec.ProjectionConcyclic.swap {P1 P2 P3 t : Vec3}
    (h : Spec.ProjectionConcyclic P2 P1 P3 t) : Spec.ProjectionConcyclic P1 P2 P3 t := by
  obtain ⟨q, o, s, h1, h2, h3, h4, h5⟩ := h
  rw [cross_swap_eq] at h1 h2
  refine ⟨q, o, -s, ?_, ?_, h4, h3, h5⟩
  · rw [h1, smul_neg, neg_smul]
  · have h6 : (P2 - P1) ⬝ᵥ crossProduct (P2 - P1) (t - P1) = 0 := dot_self_cross _ _
    rw [dotProduct_neg, neg_eq_zero] at h2
    rw [← sub_add_sub_cancel q P2 P1, add_dotProduct, h2, h6, add_zero]

theorem kneipSolve_zero {f1 f2 f3 P1 P2 P3 : Vec3} {T : Mat3} (h : (T *ᵥ f3) 2 = 0) :
    kneipSolve f1 f2 f3 P1 P2 P3 T = [none, none, none, none] := by
  unfold kneipSolve
  simp only
  split
  · rfl
  · rw [if_pos (.inl h)]

theorem p3pKneip_shape {f1 f2 f3 P1 P2 P3 : Vec3} {P : Vec3 × Mat3} (u1 : f1 ⬝ᵥ f1 = 1)
    (u2 : f2 ⬝ᵥ f2 = 1) (h : some P ∈ p3pKneip f1 f2 f3 P1 P2 P3) :
    crossProduct (P2 - P1) (P3 - P1) ≠ 0 ∧
    ((∃ T, frameOf f1 f2 = some T ∧ (T *ᵥ f3) 2 < 0 ∧
        p3pKneip f1 f2 f3 P1 P2 P3 = kneipSolve f1 f2 f3 P1 P2 P3 T) ∨
      ∃ T, frameOf f2 f1 = some T ∧ (T *ᵥ f3) 2 < 0 ∧
        p3pKneip f1 f2 f3 P1 P2 P3 = kneipSolve f2 f1 f3 P2 P1 P3 T) := by
  have hcol : crossProduct (P2 - P1) (P3 - P1) ≠ 0 := by
    intro e
    unfold p3pKneip at h
    rw [if_pos (norm3_eq_zero.2 e)] at h
    cases h
  refine ⟨hcol, ?_⟩
  unfold p3pKneip at h ⊢
  rw [if_neg (fun e => hcol (norm3_eq_zero.1 e))] at h ⊢
  split at h
  · rename_i T T' hT hT'
    rw [hT, hT']
    have s := frameOf_spec u1 hT
    have s' := frameOf_spec u2 hT'
    have e : (T' *ᵥ f3) 2 = -(T *ᵥ f3) 2 := by
      show T' 2 ⬝ᵥ f3 = -(T 2 ⬝ᵥ f3)
      have hn : norm3 (-crossProduct f1 f2) = norm3 (crossProduct f1 f2) := by
        rw [norm3, norm3, neg_dotProduct_neg]
      rw [s.row2, s'.row2, ← cross_anticomm, hn, smul_neg, neg_dotProduct]
    split_ifs at h with hc
    · rw [if_pos hc]
      exact .inr ⟨T', rfl, by rw [e]; linarith, rfl⟩
    · rw [if_neg hc]
      refine .inl ⟨T, rfl, lt_of_le_of_ne (not_lt.1 hc) ?_, rfl⟩
      intro e0
      rw [kneipSolve_zero e0] at h
      simp at h
  · simp at h

theorem kneipSolve_mem {f1 f2 f3 P1 P2 P3 : Vec3} {T : Mat3} {P : Vec3 × Mat3}
    (u1 : f1 ⬝ᵥ f1 = 1) (u2 : f2 ⬝ᵥ f2 = 1) (hT : frameOf f1 f2 = some T)
    (hcol : crossProduct (P2 - P1) (P3 - P1) ≠ 0) (hneg : (T *ᵥ f3) 2 < 0)
    (h : some P ∈ kneipSolve f1 f2 f3 P1 P2 P3 T) :
    ∃ N x, P2 - P1 ≠ 0 ∧ FrameSpec ((norm3 (P2 - P1))⁻¹ • (P2 - P1)) (P3 - P1) N ∧
      kneipOne (kneipDataOf f1 f2 f3 P1 P2 P3 N T) P1 N T x = some P := by
  obtain ⟨N, hN⟩ := bind_frame_some hcol
  obtain ⟨hne, sN⟩ := bind_frame hN
  have sT := frameOf_spec u1 hT
  have hc : 0 < 1 - (f1 ⬝ᵥ f2) ^ 2 := by
    rw [← norm_cross_unit u1 u2]; exact pow_pos (norm3_pos sT.ne) 2
  rw [kneipSolve_eq hN hneg.ne hc] at h
  split at h
  · simp at h
  · obtain ⟨x, -, hx⟩ := List.mem_map.1 h
    exact ⟨N, x, hne, sN, hx⟩

theorem kneipSolve_back {f1 f2 f3 P1 P2 P3 C : Vec3} {T R : Mat3}
    (u1 : f1 ⬝ᵥ f1 = 1) (u2 : f2 ⬝ᵥ f2 = 1) (hT : frameOf f1 f2 = some T)
    (hcol : crossProduct (P2 - P1) (P3 - P1) ≠ 0) (hneg : (T *ᵥ f3) 2 < 0)
    (h : some (C, R) ∈ kneipSolve f1 f2 f3 P1 P2 P3 T) :
    IsRot R ∧ (∃ m : ℝ, P1 = C + m • (R *ᵥ f1)) ∧
      (∃ m : ℝ, 0 < m ∧ P2 = C + m • (R *ᵥ f2)) := by
  obtain ⟨N, x, hne, sN, hx⟩ := kneipSolve_mem u1 u2 hT hcol hneg h
  obtain ⟨a, b, c, -⟩ := kneip_back u1 u2 (frameOf_spec u1 hT) hne sN hneg hx
  exact ⟨a, b, c⟩

theorem kneipSolve_none {f1 f2 f3 P1 P2 P3 : Vec3} {T : Mat3}
    (u1 : f1 ⬝ᵥ f1 = 1) (u2 : f2 ⬝ᵥ f2 = 1) (hT : frameOf f1 f2 = some T)
    (hcol : crossProduct (P2 - P1) (P3 - P1) ≠ 0)
    (hneg : (T *ᵥ f3) 2 < 0) (h1 : (T *ᵥ f3) 1 = 0) (P : Vec3 × Mat3) :
    some P ∉ kneipSolve f1 f2 f3 P1 P2 P3 T := by
  intro h
  obtain ⟨N, x, -, -, hx⟩ := kneipSolve_mem u1 u2 hT hcol hneg h
  rw [kneipOne, if_pos (.inl (by simp [kneipDataOf, h1]))] at hx
  cases hx

end OpenGV
