import Verif.Proof.EpnpQr
import Verif.Proof.Upnp
import Verif.Props.Arun
import Verif.Spec.Epnp
import Mathlib.LinearAlgebra.Matrix.ToLinearEquiv

/-!
# Helper lemmas for EPnP
-/

namespace OpenGV

open Matrix Spec

/-! ### Barycentric coordinates -/

theorem epnpAlpha_sum (cws : Fin 4 → Vec3) (p : Vec3) :
    epnpAlpha cws p 0 + epnpAlpha cws p 1 + epnpAlpha cws p 2 + epnpAlpha cws p 3 = 1 := by
  simp [epnpAlpha]
  ring

theorem epnpAlpha_repr (cws : Fin 4 → Vec3) (h : (epnpCC cws).det ≠ 0) (p : Vec3) :
    epnpPc (epnpAlpha cws p) cws = p := by
  obtain ⟨a, ha⟩ : ∃ a, a = (epnpCC cws)⁻¹ *ᵥ (p - cws 0) := ⟨_, rfl⟩
  have h1 : epnpCC cws *ᵥ a = p - cws 0 := by
    rw [ha, mulVec_mulVec, Matrix.mul_nonsing_inv _ (isUnit_iff_ne_zero.2 h), one_mulVec]
  have hal : epnpAlpha cws p = ![1 - a 0 - a 1 - a 2, a 0, a 1, a 2] := by rw [ha]; rfl
  rw [hal]
  funext i
  have h2 := congrFun h1 i
  simp only [mulVec, dotProduct, Fin.sum_univ_three, epnpCC, of_apply, Pi.sub_apply] at h2
  have e1 : (0 : Fin 3).succ = (1 : Fin 4) := rfl
  have e2 : (1 : Fin 3).succ = (2 : Fin 4) := rfl
  have e3 : (2 : Fin 3).succ = (3 : Fin 4) := rfl
  rw [e1, e2, e3] at h2
  simp [epnpPc]
  linear_combination h2

theorem epnpPc_rigid (a : Fin 4 → ℝ) (ha : a 0 + a 1 + a 2 + a 3 = 1) (c : Fin 4 → Vec3) (R : Mat3)
    (t : Vec3) : epnpPc a (fun j => R *ᵥ c j + t) = R *ᵥ epnpPc a c + t := by
  unfold epnpPc
  simp only [mulVec_add, mulVec_smul]
  have : t = (a 0 + a 1 + a 2 + a 3) • t := by rw [ha, one_smul]
  conv_rhs => rw [this]
  simp only [smul_add, add_smul]
  abel

theorem epnpPc_smul (a : Fin 4 → ℝ) (c : Fin 4 → Vec3) (s : ℝ) :
    epnpPc a (fun j => s • c j) = s • epnpPc a c := by
  unfold epnpPc
  simp only [smul_add, smul_comm s]

/-! ### Coplanar points -/

theorem list_sum_dot_const (l : List EpnpCorr) (y : Vec3) (d : ℝ) (h : ∀ c ∈ l, y ⬝ᵥ c.pw = d) :
    y ⬝ᵥ (l.map EpnpCorr.pw).sum = l.length * d := by
  rw [list_dot_sum]
  induction l with
  | nil => simp
  | cons a l ih =>
    rw [List.map_cons, List.sum_cons, ih fun c hc => h c (List.mem_cons_of_mem _ hc),
      h a List.mem_cons_self]
    push_cast [List.length_cons]
    ring

theorem vecMulVec_mulVec3 (a b y : Vec3) : vecMulVec a b *ᵥ y = (b ⬝ᵥ y) • a := by
  funext i
  simp [mulVec, dotProduct, vecMulVec, Fin.sum_univ_three]
  ring

theorem epnpCov_quad (cs : List EpnpCorr) (y : Vec3) :
    y ⬝ᵥ (epnpCov cs *ᵥ y) = (cs.map fun c => ((c.pw - epnpCentroid cs) ⬝ᵥ y) ^ 2).sum := by
  unfold epnpCov
  rw [list_sum_mulVec, list_dot_sum]
  congr 1
  apply List.map_congr_left
  intro c _
  rw [vecMulVec_mulVec3, dotProduct_smul, smul_eq_mul, dotProduct_comm y]
  ring

theorem epnpCov_det (cs : List EpnpCorr) (hn : cs ≠ []) :
    (epnpCov cs).det = 0 ↔ Coplanar (cs.map EpnpCorr.pw) := by
  rw [← Matrix.exists_mulVec_eq_zero_iff]
  constructor
  · rintro ⟨y, hy, h⟩
    have h0 : (cs.map fun c => ((c.pw - epnpCentroid cs) ⬝ᵥ y) ^ 2).sum = 0 := by
      rw [← epnpCov_quad, h, dotProduct_zero]
    refine ⟨y, hy, epnpCentroid cs ⬝ᵥ y, ?_⟩
    intro p hp
    obtain ⟨c, hc, rfl⟩ := List.mem_map.1 hp
    have := sum_eq_zero_of_nonneg (g := fun c : EpnpCorr => ((c.pw - epnpCentroid cs) ⬝ᵥ y) ^ 2)
      (fun _ => sq_nonneg _) h0 c hc
    have h1 : (c.pw - epnpCentroid cs) ⬝ᵥ y = 0 := by
      simpa using this
    rw [sub_dotProduct] at h1
    rw [dotProduct_comm]
    linarith
  · rintro ⟨y, hy, d, h⟩
    refine ⟨y, hy, ?_⟩
    have hl : (cs.length : ℝ) ≠ 0 := by
      rw [Nat.cast_ne_zero]
      exact fun e => hn (List.length_eq_zero_iff.1 e)
    have hc : y ⬝ᵥ epnpCentroid cs = d := by
      unfold epnpCentroid
      rw [dotProduct_smul, list_sum_dot_const cs y d fun c hc => h _ (List.mem_map_of_mem hc),
        smul_eq_mul]
      field_simp
    unfold epnpCov
    rw [list_sum_mulVec]
    have : (cs.map fun c => vecMulVec (c.pw - epnpCentroid cs) (c.pw - epnpCentroid cs) *ᵥ y) =
        cs.map fun _ => (0 : Vec3) := by
      apply List.map_congr_left
      intro c hcm
      rw [vecMulVec_mulVec3, sub_dotProduct, dotProduct_comm, h _ (List.mem_map_of_mem hcm),
        dotProduct_comm (epnpCentroid cs), hc, sub_self, zero_smul]
    rw [this]
    simp

theorem epnpCC_eq (cs : List EpnpCorr) (U : Mat3) (D : Vec3) :
    epnpCC (epnpCws cs U D) = U * diagonal fun i => √(D i / cs.length) := by
  ext i j
  rw [mul_diagonal]
  fin_cases j <;> simp [epnpCC, epnpCws] <;> ring

theorem epnpCC_det {cs : List EpnpCorr} (hn : cs ≠ []) {U V : Mat3} {D : Vec3}
    (h : IsSvd (epnpCov cs) U V D) :
    (epnpCC (epnpCws cs U D)).det = 0 ↔ Coplanar (cs.map EpnpCorr.pw) := by
  rw [← epnpCov_det cs hn, epnpCC_eq]
  have hU : U.det ≠ 0 := fun e => by
    have := congrArg det h.orthU
    rw [det_mul, e, mul_zero, det_one] at this
    exact zero_ne_one this
  have hV : V.transpose.det ≠ 0 := fun e => by
    have := congrArg det h.orthV
    rw [det_mul, e, zero_mul, det_one] at this
    exact zero_ne_one this
  have hl : (0 : ℝ) < cs.length := by
    rw [Nat.cast_pos]
    exact List.length_pos_iff.2 hn
  have hs : ∀ i, √(D i / cs.length) = 0 ↔ D i = 0 := by
    intro i
    rw [Real.sqrt_eq_zero (div_nonneg (h.nonneg i) hl.le), div_eq_zero_iff]
    simp [hl.ne']
  conv_rhs => rw [h.eq]
  rw [det_mul, det_mul, det_mul, det_diagonal, det_diagonal, Fin.prod_univ_three, Fin.prod_univ_three]
  simp only [mul_eq_zero, hU, hV, hs, false_or, or_false]

/-! ### The linear system -/

/-- The vector of twelve entries of four points. -/
def stack12 (c : Fin 4 → Vec3) : Fin 12 → ℝ :=
  ![c 0 0, c 0 1, c 0 2, c 1 0, c 1 1, c 1 2, c 2 0, c 2 1, c 2 2, c 3 0, c 3 1, c 3 2]

theorem stack12_idx (c : Fin 4 → Vec3) (j : Fin 4) (k : Fin 3) : stack12 c (idx12 j k) = c j k := by
  fin_cases j <;> fin_cases k <;> rfl

theorem sum12 (f : Fin 12 → ℝ) : ∑ i, f i = f 0 + f 1 + f 2 + f 3 + f 4 + f 5 + f 6 + f 7 + f 8 +
    f 9 + f 10 + f 11 := by
  rw [Fin.sum_univ_succ, Fin.sum_univ_succ, Fin.sum_univ_succ, Fin.sum_univ_succ, Fin.sum_univ_eight]
  simp only [Fin.succ_zero_eq_one, ← add_assoc]
  rfl

theorem epnpRowU_dot (a : Fin 4 → ℝ) (u : ℝ) (x : Fin 12 → ℝ) :
    epnpRowU a u ⬝ᵥ x = epnpPc a (fun j k => x (idx12 j k)) 0 -
      u * epnpPc a (fun j k => x (idx12 j k)) 2 := by
  unfold dotProduct
  rw [sum12]
  show a 0 * x 0 + 0 * x 1 + a 0 * (0 - u) * x 2 + a 1 * x 3 + 0 * x 4 + a 1 * (0 - u) * x 5 +
    a 2 * x 6 + 0 * x 7 + a 2 * (0 - u) * x 8 + a 3 * x 9 + 0 * x 10 + a 3 * (0 - u) * x 11 =
    (a 0 * x 0 + a 1 * x 3 + a 2 * x 6 + a 3 * x 9) -
      u * (a 0 * x 2 + a 1 * x 5 + a 2 * x 8 + a 3 * x 11)
  ring

theorem epnpRowV_dot (a : Fin 4 → ℝ) (v : ℝ) (x : Fin 12 → ℝ) :
    epnpRowV a v ⬝ᵥ x = epnpPc a (fun j k => x (idx12 j k)) 1 -
      v * epnpPc a (fun j k => x (idx12 j k)) 2 := by
  unfold dotProduct
  rw [sum12]
  show 0 * x 0 + a 0 * x 1 + a 0 * (0 - v) * x 2 + 0 * x 3 + a 1 * x 4 + a 1 * (0 - v) * x 5 +
    0 * x 6 + a 2 * x 7 + a 2 * (0 - v) * x 8 + 0 * x 9 + a 3 * x 10 + a 3 * (0 - v) * x 11 =
    (a 0 * x 1 + a 1 * x 4 + a 2 * x 7 + a 3 * x 10) -
      v * (a 0 * x 2 + a 1 * x 5 + a 2 * x 8 + a 3 * x 11)
  ring

theorem vecMulVec_quad12 (r x : Fin 12 → ℝ) : x ⬝ᵥ (vecMulVec r r *ᵥ x) = (r ⬝ᵥ x) ^ 2 := by
  have : vecMulVec r r *ᵥ x = (r ⬝ᵥ x) • r := by
    funext i
    simp only [mulVec, dotProduct, vecMulVec_apply, Pi.smul_apply, smul_eq_mul, Finset.sum_mul]
    exact Finset.sum_congr rfl fun j _ => by ring
  rw [this, dotProduct_smul, dotProduct_comm x, smul_eq_mul, sq]

theorem vecMulVec_zero12 (r x : Fin 12 → ℝ) (h : r ⬝ᵥ x = 0) : vecMulVec r r *ᵥ x = 0 := by
  funext i
  have : (vecMulVec r r *ᵥ x) i = r i * (r ⬝ᵥ x) := by
    simp only [mulVec, dotProduct, vecMulVec_apply, Finset.mul_sum]
    exact Finset.sum_congr rfl fun j _ => by ring
  rw [this, h, mul_zero]
  rfl

theorem epnpMtM_quad (cws : Fin 4 → Vec3) (cs : List EpnpCorr) (x : Fin 12 → ℝ) :
    x ⬝ᵥ (epnpMtM cws cs *ᵥ x) =
      (cs.map fun c => (epnpRowU (epnpAlpha cws c.pw) c.u ⬝ᵥ x) ^ 2 +
        (epnpRowV (epnpAlpha cws c.pw) c.v ⬝ᵥ x) ^ 2).sum := by
  unfold epnpMtM
  rw [list_sum_mulVec, list_dot_sum]
  congr 1
  apply List.map_congr_left
  intro c _
  rw [add_mulVec, dotProduct_add, vecMulVec_quad12, vecMulVec_quad12]

/-- The kernel of `MtM` is the set of solutions of the rows. -/
theorem epnpMtM_ker (cws : Fin 4 → Vec3) (cs : List EpnpCorr) (x : Fin 12 → ℝ) :
    epnpMtM cws cs *ᵥ x = 0 ↔ ∀ c ∈ cs, epnpRowU (epnpAlpha cws c.pw) c.u ⬝ᵥ x = 0 ∧
      epnpRowV (epnpAlpha cws c.pw) c.v ⬝ᵥ x = 0 := by
  constructor
  · intro h c hc
    have h0 := epnpMtM_quad cws cs x
    rw [h, dotProduct_zero] at h0
    have := sum_eq_zero_of_nonneg (g := fun c : EpnpCorr =>
      (epnpRowU (epnpAlpha cws c.pw) c.u ⬝ᵥ x) ^ 2 + (epnpRowV (epnpAlpha cws c.pw) c.v ⬝ᵥ x) ^ 2)
      (fun _ => by positivity) h0.symm c hc
    constructor <;> nlinarith [sq_nonneg (epnpRowU (epnpAlpha cws c.pw) c.u ⬝ᵥ x),
      sq_nonneg (epnpRowV (epnpAlpha cws c.pw) c.v ⬝ᵥ x)]
  · intro h
    unfold epnpMtM
    rw [list_sum_mulVec]
    have : (cs.map fun c => (vecMulVec (epnpRowU (epnpAlpha cws c.pw) c.u)
          (epnpRowU (epnpAlpha cws c.pw) c.u) +
        vecMulVec (epnpRowV (epnpAlpha cws c.pw) c.v) (epnpRowV (epnpAlpha cws c.pw) c.v)) *ᵥ x) =
        cs.map fun _ => (0 : Fin 12 → ℝ) := by
      apply List.map_congr_left
      intro c hc
      rw [add_mulVec, vecMulVec_zero12 _ _ (h c hc).1, vecMulVec_zero12 _ _ (h c hc).2, add_zero]
    rw [this]
    simp

theorem epnpMtM_symm (cws : Fin 4 → Vec3) (cs : List EpnpCorr) :
    (epnpMtM cws cs).transpose = epnpMtM cws cs := by
  unfold epnpMtM
  induction cs with
  | nil => simp
  | cons a l ih =>
    rw [List.map_cons, List.sum_cons, transpose_add, ih, transpose_add, transpose_vecMulVec,
      transpose_vecMulVec]

/-! ### Distances of the control points -/

/-- The ten products of coefficients, in the order of the comment at line 607. -/
def betas10 (b : Fin 4 → ℝ) : Fin 10 → ℝ :=
  ![b 0 * b 0, b 0 * b 1, b 1 * b 1, b 0 * b 2, b 1 * b 2, b 2 * b 2, b 0 * b 3, b 1 * b 3,
    b 2 * b 3, b 3 * b 3]

theorem epnpCcs_diff (U : Matrix (Fin 12) (Fin 12) ℝ) (b : Fin 4 → ℝ) (i : Fin 6) (k : Fin 3) :
    epnpCcs U b (epnpPair i).1 k - epnpCcs U b (epnpPair i).2 k =
      b 0 * epnpDv U 0 i k + b 1 * epnpDv U 1 i k + b 2 * epnpDv U 2 i k + b 3 * epnpDv U 3 i k := by
  unfold epnpCcs epnpDv
  ring

theorem epnpL_row (U : Matrix (Fin 12) (Fin 12) ℝ) (i : Fin 6) (w : Fin 10 → ℝ) :
    (epnpL U *ᵥ w) i = epnpDv U 0 i ⬝ᵥ epnpDv U 0 i * w 0 +
      2 * (epnpDv U 0 i ⬝ᵥ epnpDv U 1 i) * w 1 + epnpDv U 1 i ⬝ᵥ epnpDv U 1 i * w 2 +
      2 * (epnpDv U 0 i ⬝ᵥ epnpDv U 2 i) * w 3 + 2 * (epnpDv U 1 i ⬝ᵥ epnpDv U 2 i) * w 4 +
      epnpDv U 2 i ⬝ᵥ epnpDv U 2 i * w 5 + 2 * (epnpDv U 0 i ⬝ᵥ epnpDv U 3 i) * w 6 +
      2 * (epnpDv U 1 i ⬝ᵥ epnpDv U 3 i) * w 7 + 2 * (epnpDv U 2 i ⬝ᵥ epnpDv U 3 i) * w 8 +
      epnpDv U 3 i ⬝ᵥ epnpDv U 3 i * w 9 := by
  unfold mulVec
  rw [dotProduct, Fin.sum_univ_succ, Fin.sum_univ_succ, Fin.sum_univ_eight]
  simp only [← add_assoc]
  rfl

theorem epnpL_dist (U : Matrix (Fin 12) (Fin 12) ℝ) (b : Fin 4 → ℝ) :
    epnpL U *ᵥ betas10 b = epnpRho (epnpCcs U b) := by
  funext i
  rw [epnpL_row]
  unfold epnpRho
  have e : (epnpCcs U b (epnpPair i).1 - epnpCcs U b (epnpPair i).2 : Vec3) = fun k =>
      b 0 * epnpDv U 0 i k + b 1 * epnpDv U 1 i k + b 2 * epnpDv U 2 i k + b 3 * epnpDv U 3 i k :=
    funext fun k => epnpCcs_diff U b i k
  rw [e]
  have w0 : betas10 b 0 = b 0 * b 0 := rfl
  have w1 : betas10 b 1 = b 0 * b 1 := rfl
  have w2 : betas10 b 2 = b 1 * b 1 := rfl
  have w3 : betas10 b 3 = b 0 * b 2 := rfl
  have w4 : betas10 b 4 = b 1 * b 2 := rfl
  have w5 : betas10 b 5 = b 2 * b 2 := rfl
  have w6 : betas10 b 6 = b 0 * b 3 := rfl
  have w7 : betas10 b 7 = b 1 * b 3 := rfl
  have w8 : betas10 b 8 = b 2 * b 3 := rfl
  have w9 : betas10 b 9 = b 3 * b 3 := rfl
  rw [w0, w1, w2, w3, w4, w5, w6, w7, w8, w9]
  simp only [dot3]
  ring

/-! ### Gauss-Newton -/

theorem epnpGnB_eq (U : Matrix (Fin 12) (Fin 12) ℝ) (rho : Fin 6 → ℝ) (b : Fin 4 → ℝ) :
    epnpGnB (epnpL U) rho b = rho - epnpRho (epnpCcs U b) := by
  funext i
  rw [← epnpL_dist, Pi.sub_apply, epnpL_row]
  unfold epnpGnB
  show _ = rho i - (_ * (b 0 * b 0) + _ * (b 0 * b 1) + _ * (b 1 * b 1) + _ * (b 0 * b 2) +
    _ * (b 1 * b 2) + _ * (b 2 * b 2) + _ * (b 0 * b 3) + _ * (b 1 * b 3) + _ * (b 2 * b 3) +
    _ * (b 3 * b 3))
  have l0 : epnpL U i 0 = epnpDv U 0 i ⬝ᵥ epnpDv U 0 i := rfl
  have l1 : epnpL U i 1 = 2 * (epnpDv U 0 i ⬝ᵥ epnpDv U 1 i) := rfl
  have l2 : epnpL U i 2 = epnpDv U 1 i ⬝ᵥ epnpDv U 1 i := rfl
  have l3 : epnpL U i 3 = 2 * (epnpDv U 0 i ⬝ᵥ epnpDv U 2 i) := rfl
  have l4 : epnpL U i 4 = 2 * (epnpDv U 1 i ⬝ᵥ epnpDv U 2 i) := rfl
  have l5 : epnpL U i 5 = epnpDv U 2 i ⬝ᵥ epnpDv U 2 i := rfl
  have l6 : epnpL U i 6 = 2 * (epnpDv U 0 i ⬝ᵥ epnpDv U 3 i) := rfl
  have l7 : epnpL U i 7 = 2 * (epnpDv U 1 i ⬝ᵥ epnpDv U 3 i) := rfl
  have l8 : epnpL U i 8 = 2 * (epnpDv U 2 i ⬝ᵥ epnpDv U 3 i) := rfl
  have l9 : epnpL U i 9 = epnpDv U 3 i ⬝ᵥ epnpDv U 3 i := rfl
  rw [l0, l1, l2, l3, l4, l5, l6, l7, l8, l9]
  ring

theorem epnpGnA_row (L : Matrix (Fin 6) (Fin 10) ℝ) (b d : Fin 4 → ℝ) (i : Fin 6) :
    (epnpGnA L b *ᵥ d) i =
      (2 * L i 0 * b 0 + L i 1 * b 1 + L i 3 * b 2 + L i 6 * b 3) * d 0 +
      (L i 1 * b 0 + 2 * L i 2 * b 1 + L i 4 * b 2 + L i 7 * b 3) * d 1 +
      (L i 3 * b 0 + L i 4 * b 1 + 2 * L i 5 * b 2 + L i 8 * b 3) * d 2 +
      (L i 6 * b 0 + L i 7 * b 1 + L i 8 * b 2 + 2 * L i 9 * b 3) * d 3 := by
  unfold mulVec
  rw [dotProduct, Fin.sum_univ_four]
  rfl

theorem epnpGn_expand (L : Matrix (Fin 6) (Fin 10) ℝ) (rho : Fin 6 → ℝ) (b d : Fin 4 → ℝ) :
    epnpGnB L rho (b + d) = epnpGnB L rho b - epnpGnA L b *ᵥ d + epnpGnB L 0 d := by
  funext i
  rw [Pi.add_apply, Pi.sub_apply, epnpGnA_row]
  unfold epnpGnB
  simp only [Pi.add_apply, Pi.zero_apply]
  ring

/-! ### The alignment -/

theorem epnpR_eq (U V : Mat3) : epnpR U V = arunR V U := by
  unfold epnpR arunR
  simp only
  split_ifs with h
  · ext i j
    simp [Matrix.mul_apply, Fin.sum_univ_three]
  · rfl

theorem epnpEstimate_eq (svd : Mat3 → Mat3 × Mat3) (ps : List (Vec3 × Vec3)) (h : ps ≠ []) :
    arunComplete (fun H => ((svd H.transpose).2, (svd H.transpose).1)) ps =
      some (epnpEstimate svd ps) := by
  have hl : ps.length ≠ 0 := fun e => h (List.length_eq_zero_iff.1 e)
  unfold arunComplete centers
  simp only [hl, if_false]
  rw [sumLoop_eq]
  simp only [zero_add]
  unfold hcross
  rw [hcrossLoop_eq, zero_add]
  have ht : ∀ c1 c2 : Vec3, ((ps.map fun p => vecMulVec (p.2 - c2) (p.1 - c1)).sum : Mat3).transpose =
      (ps.map fun p => vecMulVec (p.1 - c1) (p.2 - c2)).sum := by
    intro c1 c2
    clear h hl
    induction ps with
    | nil => simp
    | cons a l ih =>
      rw [List.map_cons, List.sum_cons, transpose_add, ih, transpose_vecMulVec, List.map_cons,
        List.sum_cons]
  rw [ht, ← epnpR_eq]
  rfl

theorem isSvd_transpose {n : ℕ} {A U V : Matrix (Fin n) (Fin n) ℝ} {σ : Fin n → ℝ}
    (h : IsSvd A U V σ) : IsSvd A.transpose V U σ :=
  ⟨h.orthV, h.orthU, by
    rw [h.eq, transpose_mul, transpose_mul, transpose_transpose, diagonal_transpose, Matrix.mul_assoc],
    h.nonneg, h.anti⟩

/-- Points that are not coplanar contain three that are not on a line. -/
theorem not_coplanar_triple {ps : List Vec3} (h : ¬ Coplanar ps) :
    ∃ a ∈ ps, ∃ b ∈ ps, ∃ c ∈ ps, crossProduct (b - a) (c - a) ≠ 0 := by
  by_contra hne
  push Not at hne
  apply h
  cases ps with
  | nil => exact ⟨![1, 0, 0], fun e => by simpa using congrFun e 0, 0, by simp⟩
  | cons a l =>
    by_cases hd : ∀ b ∈ a :: l, b - a = 0
    · refine ⟨![1, 0, 0], fun e => by simpa using congrFun e 0, ![1, 0, 0] ⬝ᵥ a, fun p hp => ?_⟩
      rw [sub_eq_zero.1 (hd p hp)]
    · push Not at hd
      obtain ⟨b, hb, hba⟩ := hd
      -- a vector orthogonal to `b - a`
      obtain ⟨y, hy, hyb⟩ : ∃ y : Vec3, y ≠ 0 ∧ y ⬝ᵥ (b - a) = 0 := by
        obtain ⟨d, hdd⟩ : ∃ d, d = b - a := ⟨_, rfl⟩
        rw [← hdd] at hba ⊢
        by_cases h01 : d 0 = 0 ∧ d 1 = 0
        · refine ⟨![1, 0, 0], fun e => by simpa using congrFun e 0, ?_⟩
          simp only [dot3]
          simp [h01.1]
        · refine ⟨![d 1, -d 0, 0], fun e => h01 ⟨?_, ?_⟩, ?_⟩
          · simpa using congrFun e 1
          · simpa using congrFun e 0
          · simp only [dot3]
            simp
            ring
      refine ⟨y, hy, y ⬝ᵥ a, fun c hc => ?_⟩
      have hx := hne a List.mem_cons_self b hb c hc
      -- `c - a` is a multiple of `b - a`
      have hcc : y ⬝ᵥ (c - a) = 0 := by
        obtain ⟨d, hdd⟩ : ∃ d, d = b - a := ⟨_, rfl⟩
        obtain ⟨e, hee⟩ : ∃ e, e = c - a := ⟨_, rfl⟩
        rw [← hdd] at hx hyb hba
        rw [← hee] at hx ⊢
        have x0 := congrFun hx 0
        have x1 := congrFun hx 1
        have x2 := congrFun hx 2
        simp [cross_apply] at x0 x1 x2
        have hdne : d ⬝ᵥ d ≠ 0 := fun h => hba (dot_self_eq_zero3.1 h)
        have : d ⬝ᵥ d * (y ⬝ᵥ e) = 0 := by
          simp only [dot3] at hyb ⊢
          linear_combination (d 0 * e 0 + d 1 * e 1 + d 2 * e 2) * hyb +
            (y 2 * d 1 - y 1 * d 2) * x0 + (y 0 * d 2 - y 2 * d 0) * x1 +
            (y 1 * d 0 - y 0 * d 1) * x2
        exact (mul_eq_zero.1 this).resolve_left hdne
      rw [dotProduct_sub] at hcc
      linarith

/-- The estimate from exact points. -/
theorem epnpEstimate_exact (svd : Mat3 → Mat3 × Mat3)
    (hsvd : ∀ H, ∃ σ, IsSvd H (svd H).1 (svd H).2 σ) (R : Mat3) (hR : IsRot R) (t : Vec3)
    (qs : List Vec3) (h : ¬ Coplanar qs) :
    epnpEstimate svd (qs.map fun q => (R *ᵥ q + t, q)) = (t, R) := by
  obtain ⟨a, ha, b, hb, c, hc, hx⟩ := not_coplanar_triple h
  have h1 := Props.C24_points_exact (fun H => ((svd H.transpose).2, (svd H.transpose).1))
    (fun H => by
      obtain ⟨σ, hσ⟩ := hsvd H.transpose
      exact ⟨σ, by simpa using isSvd_transpose hσ⟩) R hR t qs a b c ha hb hc hx
  rw [epnpEstimate_eq] at h1
  · exact Option.some.inj h1
  · intro e
    rw [List.map_eq_nil_iff] at e
    simp [e] at ha

end OpenGV
