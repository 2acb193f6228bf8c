import Verif.Proof.SixptFill
import Verif.Proof.SixptRows
import Verif.Proof.Eigensolver
import Mathlib.LinearAlgebra.Matrix.NonsingularInverse

/-!
# The equations of the six point solver vanish at the true rotation, and the action matrix
-/

namespace OpenGV

open Matrix Adapters

/-- The unknowns. -/
def sixX (c : Vec3) : Fin 4 → ℝ := ![c 0, c 1, c 2, 1]

theorem sixPoly_eq (m : Fin 3 → Fin 10 → ℝ) (c : Vec3) (i : Fin 3) :
    sixPoly m (sixX c) i = m i ⬝ᵥ sixMono c := by
  unfold sixPoly dotProduct
  apply Finset.sum_congr rfl
  intro j _
  congr 1
  have h : ∀ j : Fin 10, codeAt sixMonos j =
    ![0x2, 0x11, 0x20, 0x101, 0x110, 0x200, 0x1, 0x10, 0x100, 0x0] j := by decide +kernel
  rw [h]
  fin_cases j <;> simp [mono4, sixX, sixMono]

/-- The relation between two correspondences, for a rotation `R`. -/
theorem six_relation {R : Mat3} (hR : IsRot R) {g1 g2 o1 o2 f1 f2 p1 p2 t : Vec3} {a b a' b' : ℝ}
    (hg1 : g1 ⬝ᵥ g1 = 1) (hg2 : g2 ⬝ᵥ g2 = 1)
    (hprim : o1 + a • g1 = R *ᵥ (o2 + b • g2) + t)
    (hsec : p1 + a' • f1 = R *ᵥ (p2 + b' • f2) + t) :
    crossProduct f1 (R *ᵥ f2) ⬝ᵥ g1 * (a + g1 ⬝ᵥ o1) -
      crossProduct f1 (R *ᵥ f2) ⬝ᵥ (R *ᵥ g2) * (b + g2 ⬝ᵥ o2) +
      (crossProduct f1 (R *ᵥ f2) ⬝ᵥ (R *ᵥ crossProduct g2 (crossProduct g2 o2)) -
        crossProduct f1 (R *ᵥ f2) ⬝ᵥ crossProduct g1 (crossProduct g1 o1) +
        (f1 ⬝ᵥ (R *ᵥ crossProduct f2 p2) + crossProduct f1 p1 ⬝ᵥ (R *ᵥ f2))) = 0 := by
  rw [mulVec_add, mulVec_smul] at hprim hsec
  rw [← rot_cross hR, ← rot_cross hR, ← rot_cross hR, ← rot_dot hR.1 g2 o2]
  rw [← rot_dot hR.1] at hg2
  generalize R *ᵥ f2 = F at *
  generalize R *ᵥ g2 = G at *
  generalize R *ᵥ o2 = O at *
  generalize R *ᵥ p2 = P at *
  have q0 := congrFun hprim 0
  have q1 := congrFun hprim 1
  have q2 := congrFun hprim 2
  have s0 := congrFun hsec 0
  have s1 := congrFun hsec 1
  have s2 := congrFun hsec 2
  simp only [Pi.add_apply, Pi.smul_apply, smul_eq_mul] at q0 q1 q2 s0 s1 s2
  simp only [dot3] at hg1 hg2 ⊢
  simp only [cross_apply, cons_val] at hg1 hg2 ⊢
  linear_combination (f1 1 * F 2 - f1 2 * F 1) * (q0 - s0) + (f1 2 * F 0 - f1 0 * F 2) * (q1 - s1) +
    (f1 0 * F 1 - f1 1 * F 0) * (q2 - s2) -
    ((f1 1 * F 2 - f1 2 * F 1) * O 0 + (f1 2 * F 0 - f1 0 * F 2) * O 1 +
      (f1 0 * F 1 - f1 1 * F 0) * O 2) * hg2 +
    ((f1 1 * F 2 - f1 2 * F 1) * o1 0 + (f1 2 * F 0 - f1 0 * F 2) * o1 1 +
      (f1 0 * F 1 - f1 1 * F 0) * o1 2) * hg1

theorem sixDir_line (f off : Vec3) : sixDir (sixLine f off) = f := by
  funext i; fin_cases i <;> rfl

theorem sixMom_line (f off : Vec3) : sixMom (sixLine f off) = crossProduct f off := by
  funext i; fin_cases i <;> rfl

/-- The three polynomials of two correspondences have a common zero. -/
theorem six_kernel (c : Vec3) {g1 g2 o1 o2 f1 f2 p1 p2 t : Vec3} {a b a' b' : ℝ}
    (hg1 : g1 ⬝ᵥ g1 = 1) (hg2 : g2 ⬝ᵥ g2 = 1)
    (hprim : o1 + a • g1 = (cayley2rot c)ᵀ *ᵥ (o2 + b • g2) + t)
    (hsec : p1 + a' • f1 = (cayley2rot c)ᵀ *ᵥ (p2 + b' • f2) + t) :
    (sixC0 (sixLine g1 o1) (sixLine g2 o2) (sixLine f1 p1) (sixLine f2 p2) ⬝ᵥ sixMono c) *
        (a + g1 ⬝ᵥ o1) +
      (sixC1 (sixLine g1 o1) (sixLine g2 o2) (sixLine f1 p1) (sixLine f2 p2) ⬝ᵥ sixMono c) *
        (b + g2 ⬝ᵥ o2) +
      sixC2 (sixLine g1 o1) (sixLine g2 o2) (sixLine f1 p1) (sixLine f2 p2) ⬝ᵥ sixMono c = 0 := by
  have hK := (cayley_scale_pos c).ne'
  have hR : IsRot (cayley2rot c)ᵀ := (cayley2rot_isRot c).transpose
  have h := six_relation hR hg1 hg2 hprim hsec
  have h0 := sixC0_eval (sixLine g1 o1) (sixLine g2 o2) (sixLine f1 p1) (sixLine f2 p2) c
  have h1 := sixC1_eval (sixLine g1 o1) (sixLine g2 o2) (sixLine f1 p1) (sixLine f2 p2) c
  have h2 := sixC2_eval (sixLine g1 o1) (sixLine g2 o2) (sixLine f1 p1) (sixLine f2 p2) c
  have e : 1 + c ⬝ᵥ c = 1 + c 0 ^ 2 + c 1 ^ 2 + c 2 ^ 2 := by rw [dot3]; ring
  simp only [sixDir_line, sixMom_line, cayley2rotReduced_eq, e, transpose_smul, smul_mulVec,
    map_smul, smul_dotProduct, dotProduct_smul, smul_eq_mul] at h0 h1 h2
  generalize 1 + c 0 ^ 2 + c 1 ^ 2 + c 2 ^ 2 = K at *
  generalize sixC0 (sixLine g1 o1) (sixLine g2 o2) (sixLine f1 p1) (sixLine f2 p2) ⬝ᵥ sixMono c = A0 at *
  generalize sixC1 (sixLine g1 o1) (sixLine g2 o2) (sixLine f1 p1) (sixLine f2 p2) ⬝ᵥ sixMono c = A1 at *
  generalize sixC2 (sixLine g1 o1) (sixLine g2 o2) (sixLine f1 p1) (sixLine f2 p2) ⬝ᵥ sixMono c = A2 at *
  apply mul_left_cancel₀ hK
  linear_combination K * (a + g1 ⬝ᵥ o1) * h0 + (b + g2 ⬝ᵥ o2) * h1 + h2 + K * K * h

/-- The monomials of the columns of `Action` (src/relative_pose/modules/sixpt/modules2.cpp line
425). -/
def sixBasis (c : Vec3) : Fin 64 → ℝ :=
    ![c 2 ^ 7, c 1 ^ 3 * c 2 ^ 3, c 0 ^ 2 * c 2 ^ 4, c 0 * c 1 * c 2 ^ 4, c 1 ^ 2 * c 2 ^ 4,
      c 0 * c 2 ^ 5, c 1 * c 2 ^ 5, c 2 ^ 6, c 0 ^ 5, c 0 ^ 4 * c 1, c 0 ^ 3 * c 1 ^ 2,
      c 0 ^ 2 * c 1 ^ 3, c 0 * c 1 ^ 4, c 1 ^ 5, c 0 ^ 4 * c 2, c 0 ^ 3 * c 1 * c 2,
      c 0 ^ 2 * c 1 ^ 2 * c 2, c 0 * c 1 ^ 3 * c 2, c 1 ^ 4 * c 2, c 0 ^ 3 * c 2 ^ 2,
      c 0 ^ 2 * c 1 * c 2 ^ 2, c 0 * c 1 ^ 2 * c 2 ^ 2, c 1 ^ 3 * c 2 ^ 2, c 0 ^ 2 * c 2 ^ 3,
      c 0 * c 1 * c 2 ^ 3, c 1 ^ 2 * c 2 ^ 3, c 0 * c 2 ^ 4, c 1 * c 2 ^ 4, c 2 ^ 5, c 0 ^ 4,
      c 0 ^ 3 * c 1, c 0 ^ 2 * c 1 ^ 2, c 0 * c 1 ^ 3, c 1 ^ 4, c 0 ^ 3 * c 2, c 0 ^ 2 * c 1 * c 2,
      c 0 * c 1 ^ 2 * c 2, c 1 ^ 3 * c 2, c 0 ^ 2 * c 2 ^ 2, c 0 * c 1 * c 2 ^ 2,
      c 1 ^ 2 * c 2 ^ 2, c 0 * c 2 ^ 3, c 1 * c 2 ^ 3, c 2 ^ 4, c 0 ^ 3, c 0 ^ 2 * c 1,
      c 0 * c 1 ^ 2, c 1 ^ 3, c 0 ^ 2 * c 2, c 0 * c 1 * c 2, c 1 ^ 2 * c 2, c 0 * c 2 ^ 2,
      c 1 * c 2 ^ 2, c 2 ^ 3, c 0 ^ 2, c 0 * c 1, c 1 ^ 2, c 0 * c 2, c 1 * c 2, c 2 ^ 2, c 0, c 1,
      c 2, 1]

theorem sixBasis_eq (c : Vec3) (i : Fin 64) : sixBasis c i = mono4 (sixX c) (codeAt sixCols (93 + i)) := by
  have h : ∀ i : Fin 64, codeAt sixCols (93 + i) =
      ![0x700, 0x330, 0x402, 0x411, 0x420, 0x501, 0x510, 0x600, 0x5, 0x14, 0x23, 0x32, 0x41, 0x50,
      0x104, 0x113, 0x122, 0x131, 0x140, 0x203, 0x212, 0x221, 0x230, 0x302, 0x311, 0x320, 0x401,
      0x410, 0x500, 0x4, 0x13, 0x22, 0x31, 0x40, 0x103, 0x112, 0x121, 0x130, 0x202, 0x211, 0x220,
      0x301, 0x310, 0x400, 0x3, 0x12, 0x21, 0x30, 0x102, 0x111, 0x120, 0x201, 0x210, 0x300, 0x2,
      0x11, 0x20, 0x101, 0x110, 0x200, 0x1, 0x10, 0x100, 0x0] i := by
    decide +kernel
  rw [h]
  fin_cases i <;> simp [mono4, sixX, sixBasis]

/-- The values of the monomials of the columns of `M1`. -/
noncomputable def sixV (c : Vec3) (j : Fin 84) : ℝ := mono4 (sixX c) (codeAt sixEqs j)

/-- All minors of the polynomials vanish, hence all equations. -/
theorem sixM1p_mulVec (obs : Fin 6 → RelObs) (c t : Vec3)
    (h1 : ∀ i, ((obs i).rot1 *ᵥ (obs i).f1) ⬝ᵥ ((obs i).rot1 *ᵥ (obs i).f1) = 1)
    (h2 : ∀ i, ((obs i).rot2 *ᵥ (obs i).f2) ⬝ᵥ ((obs i).rot2 *ᵥ (obs i).f2) = 1)
    (a b : Fin 6 → ℝ)
    (h : ∀ i, (obs i).off1 + a i • ((obs i).rot1 *ᵥ (obs i).f1) =
      (cayley2rot c)ᵀ *ᵥ ((obs i).off2 + b i • ((obs i).rot2 *ᵥ (obs i).f2)) + t) :
    sixM1p (sixL1 obs) (sixL2 obs) *ᵥ sixV c = 0 := by
  funext row
  have hrow : ∀ row : Fin 60, (sixCount row).1 < 6 ∧ (sixCount row).2.1 < 5 ∧ (sixCount row).2.2.1 < 5 ∧
    (sixCount row).2.2.2 < 5 := by decide +kernel
  obtain ⟨b0, b1, b2, b3⟩ := hrow row
  show ∑ j : Fin 84, sixFillRow _ _ _ j * mono4 (sixX c) (codeAt sixEqs j) = 0
  rw [sixFillRow_sum]
  generalize sixCount row = s at *
  obtain ⟨p, r0, r1, r2⟩ := s
  simp only at b0 b1 b2 b3 ⊢
  have key : ∀ r, r < 5 → sixPoly (sixM (sixL1 obs) (sixL2 obs) p r) (sixX c) ⬝ᵥ
      ![a ⟨p, b0⟩ + ((obs ⟨p, b0⟩).rot1 *ᵥ (obs ⟨p, b0⟩).f1) ⬝ᵥ (obs ⟨p, b0⟩).off1,
        b ⟨p, b0⟩ + ((obs ⟨p, b0⟩).rot2 *ᵥ (obs ⟨p, b0⟩).f2) ⬝ᵥ (obs ⟨p, b0⟩).off2, 1] = 0 := by
    intro r hr
    have hsec : sixSec p r < 6 := by unfold sixSec; split <;> omega
    have := six_kernel c (h1 ⟨p, b0⟩) (h2 ⟨p, b0⟩) (h ⟨p, b0⟩) (h ⟨sixSec p r, hsec⟩)
    rw [dot3, sixPoly_eq, sixPoly_eq, sixPoly_eq]
    simp only [sixM, sixGet, b0, hsec, dif_pos, cons_val, sixL1, sixL2]
    linarith
  rw [← Matrix.exists_mulVec_eq_zero_iff]
  refine ⟨![a ⟨p, b0⟩ + ((obs ⟨p, b0⟩).rot1 *ᵥ (obs ⟨p, b0⟩).f1) ⬝ᵥ (obs ⟨p, b0⟩).off1,
        b ⟨p, b0⟩ + ((obs ⟨p, b0⟩).rot2 *ᵥ (obs ⟨p, b0⟩).f2) ⬝ᵥ (obs ⟨p, b0⟩).off2, 1],
    fun h0 => one_ne_zero (congrFun h0 2), ?_⟩
  funext k
  fin_cases k
  · exact key r0 b1
  · exact key r1 b2
  · exact key r2 b3

/-- Consequences of the first elimination. -/
theorem sixM1_spec {M1p : Matrix (Fin 60) (Fin 84) ℝ} {M1} (h : sixM1 M1p = some M1) (v : Fin 84 → ℝ)
    (hv : M1p *ᵥ v = 0) : M1 *ᵥ v = 0 ∧
      ∀ i j : Fin 15, M1 i (Fin.castLE (by norm_num) j) = if i = j then 1 else 0 := by
  unfold sixM1 at h
  simp only at h
  split at h
  · simp at h
  rename_i hd
  obtain rfl := Option.some.inj h
  refine ⟨by rw [← mulVec_mulVec, hv, mulVec_zero], fun i j => ?_⟩
  have : ((sixB M1p)ᵀ * sixB M1p)⁻¹ * (sixB M1p)ᵀ * sixB M1p = 1 := by
    rw [Matrix.mul_assoc, Matrix.nonsing_inv_mul _ (isUnit_iff_ne_zero.2 hd)]
  rw [← Matrix.one_apply, ← this]
  rfl

theorem six_split (f : ℕ → ℝ) (k : ℕ) (hk : k < 15) (h0 : ∀ j, j < 15 → j ≠ k → f j = 0) :
    ∑ j : Fin 84, f j = ((k :: List.range' 15 69).map f).sum := by
  rw [List.map_cons, List.sum_cons, Finset.sum_range f |>.symm, show 84 = 15 + 69 from rfl, Finset.sum_range_add]
  refine congrArg₂ (· + ·) ?_ ?_
  · exact Finset.sum_eq_single_of_mem k (Finset.mem_range.2 hk)
      fun j hj hne => h0 j (Finset.mem_range.1 hj) hne
  · rw [List.range'_eq_map_range, List.map_map, Finset.sum_range, Fin.sum_univ_def,
      ← List.map_coe_finRange_eq_range, List.map_map]
    rfl

theorem sixM2_sum {M1 : Matrix (Fin 15) (Fin 84) ℝ} (c : Vec3) (hv : M1 *ᵥ sixV c = 0)
    (hI : ∀ i j : Fin 15, M1 i (Fin.castLE (by norm_num) j) = if i = j then 1 else 0) (r : ℕ) :
    ∑ j ∈ Finset.range 157, templateM2 sixTable (matFun M1) r j * mono4 (sixX c) (codeAt sixCols j) = 0 := by
  apply templateM2_sum sixTable_ok
  intro p hp
  obtain ⟨hk, hperm⟩ := sixPats_spec p hp
  rw [List.isPerm_iff] at hperm
  rw [← (hperm.map _).sum_eq, ← six_split (fun j => matFun M1 p.1 j * mono4 (sixX c) (codeAt sixEqs j)) p.1 hk]
  · have : ∑ j, M1 ⟨p.1, hk⟩ j * sixV c j = 0 := congrFun hv ⟨p.1, hk⟩
    refine Eq.trans (Finset.sum_congr rfl fun j _ => ?_) this
    simp only [matFun, hk, j.2, and_self, dif_pos]
    rfl
  · intro j hj hne
    have := hI ⟨p.1, hk⟩ ⟨j, hj⟩
    rw [if_neg (fun h => hne (Fin.mk.inj_iff.1 h).symm)] at this
    have e : matFun M1 p.1 j = M1 ⟨p.1, hk⟩ (Fin.castLE (by norm_num) ⟨j, hj⟩) := by
      rw [matFun, dif_pos ⟨hk, by omega⟩]
      rfl
    rw [e, this, zero_mul]

/-- `M3` expresses the monomials of the leading columns by the others. -/
theorem sixM3_spec {M1 : Matrix (Fin 15) (Fin 84) ℝ} {M3} (h : sixM3 M1 = some M3) {xl : Fin 93 → ℝ}
    {xr : Fin 64 → ℝ} (hx : sixLeft M1 *ᵥ xl + sixRight M1 *ᵥ xr = 0) : M3 *ᵥ xr = -xl := by
  unfold sixM3 at h
  split at h
  · simp at h
  rename_i hd
  obtain rfl := Option.some.inj h
  rw [← mulVec_mulVec, eq_neg_of_add_eq_zero_right hx, mulVec_neg, mulVec_mulVec,
    Matrix.nonsing_inv_mul _ (isUnit_iff_ne_zero.2 hd), one_mulVec]

theorem sixSource_ok : ∀ i : Fin 64,
    (∀ r, sixSource i = some r → addOk (codeAt sixCols r) 256 (codeAt sixCols (93 + i)) = true) ∧
    (sixSource i = none →
      ∃ s, sixOne i = some s ∧ addOk (codeAt sixCols (93 + s)) 256 (codeAt sixCols (93 + i)) = true) := by
  decide +kernel

/-- The monomials of a zero of the equations are an eigenvector of the action matrix. -/
theorem sixAction_mulVec {M1p : Matrix (Fin 60) (Fin 84) ℝ} {M1 M3} (hM1 : sixM1 M1p = some M1)
    (hM3 : sixM3 M1 = some M3) (c : Vec3) (hv : M1p *ᵥ sixV c = 0) :
    sixAction M3 *ᵥ sixBasis c = c 2 • sixBasis c := by
  obtain ⟨g1, g2⟩ := sixM1_spec hM1 _ hv
  have h3 := sixM3_spec hM3 (xl := fun j => mono4 (sixX c) (codeAt sixCols j)) (xr := sixBasis c) (by
    funext r
    have := sixM2_sum c g1 g2 r
    rw [show 157 = 93 + 64 from rfl, Finset.sum_range_add, Finset.sum_range, Finset.sum_range] at this
    rw [Pi.zero_apply, ← this]
    simp only [Pi.add_apply, mulVec, dotProduct, sixLeft, sixRight, of_apply, sixBasis_eq])
  have hx : mono4 (sixX c) 256 = c 2 := by simp [mono4, sixX]
  funext i
  have hi := sixSource_ok i
  rw [Pi.smul_apply, smul_eq_mul, sixBasis_eq, mulVec, dotProduct]
  unfold sixAction
  cases hs : sixSource i with
  | some r =>
    replace hi := hi.1 r hs
    simp only
    have := congrFun h3 r
    rw [Pi.neg_apply, mono4_mul hi, hx] at this
    simp only [mulVec, dotProduct] at this
    simp only [zero_sub, neg_mul, Finset.sum_neg_distrib, this, neg_neg]
  | none =>
    obtain ⟨s, h1, h2⟩ := hi.2 hs
    simp only [h1, Option.some.injEq]
    simp only [ite_mul, one_mul, zero_mul, Finset.sum_ite_eq, Finset.mem_univ, if_true]
    rw [sixBasis_eq, mono4_mul h2, hx]

end OpenGV
