import Verif.Proof.FivePoint
import Verif.Proof.RelativePose
import Verif.Proof.SevenPoint
import Verif.Spec.Poly

/-!
Elimination, normalisation and the characterisation of essential matrices for the five point
solvers.
-/

namespace OpenGV

open Matrix Spec

/-! ### Elimination -/

/-- The reduced system: the first ten monomials expressed by the last ten. -/
theorem reducedA_spec {A : Matrix (Fin 10) (Fin 20) ℝ} {A3 : Matrix (Fin 10) (Fin 10) ℝ}
    (hA : reducedA A = some A3) {K : Type*} [CommRing K] (f : ℝ →+* K) (m : Fin 20 → K)
    (h : A.map f *ᵥ m = 0) (i : Fin 10) :
    m (Fin.castLE (by omega) i) + ∑ j, f (A3 i j) * m (Fin.natAdd 10 j) = 0 := by
  unfold reducedA at hA
  simp only at hA
  split_ifs at hA with hd
  set A1 : Matrix (Fin 10) (Fin 10) ℝ := Matrix.of fun i j => A i (Fin.castLE (by omega) j) with h1
  set A2 : Matrix (Fin 10) (Fin 10) ℝ := Matrix.of fun i j => A i (Fin.natAdd 10 j) with h2
  have hA' := Option.some.inj hA
  set m1 : Fin 10 → K := fun j => m (Fin.castLE (by omega) j) with hm1
  set m2 : Fin 10 → K := fun j => m (Fin.natAdd 10 j) with hm2
  have hsplit : A1.map f *ᵥ m1 + A2.map f *ᵥ m2 = 0 := by
    rw [← h]
    funext r
    simp only [Pi.add_apply, mulVec, dotProduct]
    exact (Fin.sum_univ_add (a := 10) (b := 10) fun c : Fin (10 + 10) => (A.map f) r c * m c).symm
  have hinv : A1⁻¹.map f * A1.map f = 1 := by
    rw [← Matrix.map_mul, nonsing_inv_mul _ (Ne.isUnit hd), Matrix.map_one _ f.map_zero f.map_one]
  have h3 : m1 + A3.map f *ᵥ m2 = 0 := by
    have e := congrArg (fun w => A1⁻¹.map f *ᵥ w) hsplit
    simp only [mulVec_add, mulVec_mulVec, hinv, one_mulVec, mulVec_zero] at e
    rw [← hA', Matrix.map_mul]
    exact e
  exact congrFun h3 i

theorem polyValLoop_eq (d : ℕ) (p : ℕ → ℝ) (x : ℝ) (k : ℕ) (v : ℝ) :
    polyValLoop d p x k v = v + ∑ j ∈ Finset.range k, p (d - (j + 1)) * x ^ j := by
  induction k generalizing v with
  | zero => simp [polyValLoop]
  | succ k ih => rw [polyValLoop, ih, Finset.sum_range_succ]; ring

theorem polyVal_eq (d : ℕ) (p : ℕ → ℝ) (x : ℝ) : polyVal d p x = evalPoly d p x := by
  rw [polyVal, polyValLoop_eq, zero_add, evalPoly, ← Finset.sum_range_reflect]
  apply Finset.sum_congr rfl
  intro j hj
  rw [Finset.mem_range] at hj
  congr 2
  omega

theorem eval4 (p : Fin 4 → ℝ) (z : ℝ) : evalPoly 4 (entries p) z =
    p 0 * z ^ 3 + p 1 * z ^ 2 + p 2 * z + p 3 := by
  simp [evalPoly, Finset.sum_range_succ, entries]

theorem eval5 (p : Fin 5 → ℝ) (z : ℝ) : evalPoly 5 (entries p) z =
    p 0 * z ^ 4 + p 1 * z ^ 3 + p 2 * z ^ 2 + p 3 * z + p 4 := by
  simp [evalPoly, Finset.sum_range_succ, entries]

theorem eval7 (p : Fin 7 → ℝ) (z : ℝ) : evalPoly 7 (entries p) z =
    p 0 * z ^ 6 + p 1 * z ^ 5 + p 2 * z ^ 4 + p 3 * z ^ 3 + p 4 * z ^ 2 + p 5 * z + p 6 := by
  simp [evalPoly, Finset.sum_range_succ, entries]

theorem eval8 (p : Fin 8 → ℝ) (z : ℝ) : evalPoly 8 (entries p) z =
    p 0 * z ^ 7 + p 1 * z ^ 6 + p 2 * z ^ 5 + p 3 * z ^ 4 + p 4 * z ^ 3 + p 5 * z ^ 2 + p 6 * z +
      p 7 := by
  simp [evalPoly, Finset.sum_range_succ, entries]

theorem eval11 (p : Fin 11 → ℝ) (z : ℝ) : evalPoly 11 (entries p) z =
    p 0 * z ^ 10 + p 1 * z ^ 9 + p 2 * z ^ 8 + p 3 * z ^ 7 + p 4 * z ^ 6 + p 5 * z ^ 5 +
      p 6 * z ^ 4 + p 7 * z ^ 3 + p 8 * z ^ 2 + p 9 * z + p 10 := by
  simp [evalPoly, Finset.sum_range_succ, entries]

theorem eval_poly7 (p : Fin 5 → ℝ) (q : Fin 4 → ℝ) (z : ℝ) : evalPoly 8 (entries (poly7 p q)) z =
    evalPoly 5 (entries p) z * evalPoly 4 (entries q) z := by
  rw [eval8, eval5, eval4]
  simp only [poly7, Matrix.cons_val]
  ring

theorem eval_poly6 (p q : Fin 4 → ℝ) (z : ℝ) : evalPoly 7 (entries (poly6 p q)) z =
    evalPoly 4 (entries p) z * evalPoly 4 (entries q) z := by
  rw [eval7, eval4, eval4]
  simp only [poly6, Matrix.cons_val]
  ring

theorem eval_poly73 (p : Fin 8 → ℝ) (q : Fin 4 → ℝ) (z : ℝ) :
    evalPoly 11 (entries (poly73 p q)) z =
      evalPoly 8 (entries p) z * evalPoly 4 (entries q) z := by
  rw [eval11, eval8, eval4]
  simp only [poly73, Matrix.cons_val]
  ring

theorem eval_poly64 (p : Fin 7 → ℝ) (q : Fin 5 → ℝ) (z : ℝ) :
    evalPoly 11 (entries (poly64 p q)) z =
      evalPoly 7 (entries p) z * evalPoly 5 (entries q) z := by
  rw [eval11, eval7, eval5]
  simp only [poly64, Matrix.cons_val]
  ring

theorem entries_sub {n : ℕ} (p q : Fin n → ℝ) (i : ℕ) :
    entries (p - q) i = entries p i - entries q i := by
  unfold entries; split <;> simp

theorem entries_add {n : ℕ} (p q : Fin n → ℝ) (i : ℕ) :
    entries (p + q) i = entries p i + entries q i := by
  unfold entries; split <;> simp

theorem eval_sub {n : ℕ} (k : ℕ) (p q : Fin n → ℝ) (z : ℝ) : evalPoly k (entries (p - q)) z =
    evalPoly k (entries p) z - evalPoly k (entries q) z := by
  simp only [evalPoly, entries_sub, sub_mul, Finset.sum_sub_distrib]

theorem eval_add {n : ℕ} (k : ℕ) (p q : Fin n → ℝ) (z : ℝ) : evalPoly k (entries (p + q)) z =
    evalPoly k (entries p) z + evalPoly k (entries q) z := by
  simp only [evalPoly, entries_add, add_mul, Finset.sum_add_distrib]

/-- A solution satisfies the three linear equations in `x`, `y` with coefficients in `z`. -/
theorem nister_linear {A : Matrix (Fin 10) (Fin 20) ℝ} {A3 : Matrix (Fin 10) (Fin 10) ℝ}
    (hA : reducedA A = some A3) {x y z : ℝ} (h : A *ᵥ nisterMonomials x y z = 0) :
    (evalPoly 4 (entries (bCubic A3 4 5 0 1 2)) z * x +
        evalPoly 4 (entries (bCubic A3 4 5 3 4 5)) z * y +
        evalPoly 5 (entries (bQuartic A3 4 5)) z = 0) ∧
    (evalPoly 4 (entries (bCubic A3 6 7 0 1 2)) z * x +
        evalPoly 4 (entries (bCubic A3 6 7 3 4 5)) z * y +
        evalPoly 5 (entries (bQuartic A3 6 7)) z = 0) ∧
    (evalPoly 4 (entries (bCubic A3 8 9 0 1 2)) z * x +
        evalPoly 4 (entries (bCubic A3 8 9 3 4 5)) z * y +
        evalPoly 5 (entries (bQuartic A3 8 9)) z = 0) := by
  have key := reducedA_spec hA (RingHom.id ℝ) (nisterMonomials x y z) (by simpa using h)
  have hm : ∀ w : Fin 10 → ℝ, ∑ j, w j * nisterMonomials x y z (Fin.natAdd 10 j) =
      w 0 * (x * z ^ 2) + w 1 * (x * z) + w 2 * x + w 3 * (y * z ^ 2) + w 4 * (y * z) + w 5 * y +
        w 6 * z ^ 3 + w 7 * z ^ 2 + w 8 * z + w 9 := by
    intro w
    rw [show w 9 = w 9 * 1 by ring]
    simp only [Fin.sum_univ_succ, Finset.univ_eq_empty, Finset.sum_empty, add_zero]
    simp only [← add_assoc]
    rfl
  simp only [RingHom.id_apply, hm] at key
  have k4 : x ^ 2 * z + _ = 0 := key 4
  have k5 : x ^ 2 + _ = 0 := key 5
  have k6 : y ^ 2 * z + _ = 0 := key 6
  have k7 : y ^ 2 + _ = 0 := key 7
  have k8 : x * y * z + _ = 0 := key 8
  have k9 : x * y + _ = 0 := key 9
  simp only [eval4, eval5, bCubic, bQuartic, Pi.sub_apply, Matrix.cons_val]
  refine ⟨?_, ?_, ?_⟩
  · linear_combination k4 - z * k5
  · linear_combination k6 - z * k7
  · linear_combination k8 - z * k9

theorem nister_eliminate {A : Matrix (Fin 10) (Fin 20) ℝ} {A3 : Matrix (Fin 10) (Fin 10) ℝ}
    (hA : reducedA A = some A3) {x y z : ℝ} (h : A *ᵥ nisterMonomials x y z = 0) :
    evalPoly 11 (entries (nisterPolys A3).p10) z = 0 ∧
      evalPoly 7 (entries (nisterPolys A3).p3) z * x = evalPoly 8 (entries (nisterPolys A3).p1) z ∧
      evalPoly 7 (entries (nisterPolys A3).p3) z * y =
        evalPoly 8 (entries (nisterPolys A3).p2) z := by
  obtain ⟨e1, e2, e3⟩ := nister_linear hA h
  simp only [nisterPolys, eval_add, eval_sub, eval_poly73, eval_poly64, eval_poly7, eval_poly6]
  generalize evalPoly 4 (entries (bCubic A3 4 5 0 1 2)) z = b11 at *
  generalize evalPoly 4 (entries (bCubic A3 6 7 0 1 2)) z = b21 at *
  generalize evalPoly 4 (entries (bCubic A3 8 9 0 1 2)) z = b31 at *
  generalize evalPoly 4 (entries (bCubic A3 4 5 3 4 5)) z = b12 at *
  generalize evalPoly 4 (entries (bCubic A3 6 7 3 4 5)) z = b22 at *
  generalize evalPoly 4 (entries (bCubic A3 8 9 3 4 5)) z = b32 at *
  generalize evalPoly 5 (entries (bQuartic A3 4 5)) z = b13 at *
  generalize evalPoly 5 (entries (bQuartic A3 6 7)) z = b23 at *
  generalize evalPoly 5 (entries (bQuartic A3 8 9)) z = b33 at *
  refine ⟨?_, ?_, ?_⟩
  · linear_combination (b11 * b22 - b12 * b21) * e3 + (b32 * b21 - b31 * b22) * e1 +
      (b31 * b12 - b32 * b11) * e2
  · linear_combination b22 * e1 - b12 * e2
  · linear_combination b11 * e2 - b21 * e1

/-! ### Normalisation -/

theorem normalizeE_eq {e : Fin 9 → ℝ} (h : ofRows e ≠ 0) : ∃ c : ℝ, 0 < c ∧
    normalizeE e = some (c • ofRows e) ∧ ∑ i, ∑ j, ((c • ofRows e) i j) ^ 2 = 1 := by
  have hs : 0 < ∑ r, e r ^ 2 := by
    apply lt_of_le_of_ne (Finset.sum_nonneg fun i _ => sq_nonneg _)
    intro h0
    apply h
    have := (Finset.sum_eq_zero_iff_of_nonneg fun i _ => sq_nonneg (e i)).1 h0.symm
    have hz : ∀ i, e i = 0 := fun i => pow_eq_zero_iff (two_ne_zero) |>.1 (this i (Finset.mem_univ i))
    ext i j
    fin_cases i <;> fin_cases j <;> simp [ofRows, hz]
  have hn := Real.sqrt_pos.2 hs
  refine ⟨(√(∑ r, e r ^ 2))⁻¹, inv_pos.2 hn, ?_, ?_⟩
  · unfold normalizeE
    simp only
    rw [if_neg hn.ne']
    congr 1
    ext i j
    fin_cases i <;> fin_cases j <;> simp [ofRows, div_eq_inv_mul]
  · simp only [Matrix.smul_apply, smul_eq_mul, mul_pow, ← Finset.mul_sum, inv_pow, Real.sq_sqrt hs.le]
    have : ∑ i, ∑ j, (ofRows e i j) ^ 2 = ∑ r, e r ^ 2 := by
      simp only [Fin.sum_univ_succ, ofRows]
      simp
      ring_nf
    rw [this]
    exact inv_mul_cancel₀ hs.ne'

/-! ### Essential matrices -/

/-- The real solutions of the constraints are the essential matrices. -/
theorem essential_iff (E : Mat3) :
    EssentialConstraints E ↔ ∃ (t : Vec3) (R : Mat3), IsRot R ∧ E = skew t * R := by
  constructor
  · rintro ⟨hd, ht⟩
    obtain ⟨U, V, σ, h⟩ := exists_svd E
    have h2 := svd_sigma2_of_det h hd
    have hE2 : E * E.transpose = U * diagonal (fun i => σ i ^ 2) * U.transpose := by
      rw [h.eq, transpose_mul, transpose_mul, transpose_transpose, diagonal_transpose]
      rw [show U * diagonal σ * V.transpose * (V * (diagonal σ * U.transpose)) =
        U * diagonal σ * (V.transpose * V) * diagonal σ * U.transpose by
          simp only [Matrix.mul_assoc]]
      rw [h.orthV, Matrix.mul_one, Matrix.mul_assoc U, diagonal_mul_diagonal]
      simp only [sq]
    have htr : (E * E.transpose).trace = σ 0 ^ 2 + σ 1 ^ 2 + σ 2 ^ 2 := by
      rw [hE2, trace_mul_comm, ← Matrix.mul_assoc, h.orthU, Matrix.one_mul, trace_diagonal,
        Fin.sum_univ_three]
    have hdiag : (2 : ℝ) • diagonal (fun i => σ i ^ 2) * diagonal σ -
        (σ 0 ^ 2 + σ 1 ^ 2 + σ 2 ^ 2) • diagonal σ = 0 := by
      have e := congrArg (fun X => U.transpose * X * V) ht
      simp only [htr] at e
      rw [Matrix.mul_zero, Matrix.zero_mul] at e
      rw [← e, hE2, h.eq, Matrix.mul_sub, Matrix.sub_mul]
      congr 1
      · rw [Matrix.mul_smul, Matrix.smul_mul, Matrix.smul_mul]
        congr 1
        rw [show U.transpose * (U * diagonal (fun i => σ i ^ 2) * U.transpose *
          (U * diagonal σ * V.transpose)) * V = (U.transpose * U) * diagonal (fun i => σ i ^ 2) *
            (U.transpose * U) * diagonal σ * (V.transpose * V) by simp only [Matrix.mul_assoc]]
        rw [h.orthU, h.orthV, Matrix.one_mul, Matrix.mul_one, Matrix.mul_one]
      · rw [Matrix.mul_smul, Matrix.smul_mul]
        congr 1
        rw [show U.transpose * (U * diagonal σ * V.transpose) * V = (U.transpose * U) * diagonal σ *
          (V.transpose * V) by simp only [Matrix.mul_assoc]]
        rw [h.orthU, h.orthV, Matrix.one_mul, Matrix.mul_one]
    have h00 := congrFun (congrFun hdiag 0) 0
    simp [h2] at h00
    have h01 : σ 0 = σ 1 := by
      have n0 := h.nonneg 0
      have n1 := h.nonneg 1
      have a := h.anti 0 1 (by decide)
      rcases eq_or_lt_of_le n0 with e | e
      · linarith
      · have : σ 0 ^ 2 = σ 1 ^ 2 := by
          have : σ 0 * (σ 0 ^ 2 - σ 1 ^ 2) = 0 := by linarith
          rcases mul_eq_zero.1 this with q | q
          · exact absurd q e.ne'
          · linarith
        exact (sq_eq_sq₀ n0 n1).1 this
    set Q : Mat3 := U * wMat.transpose * V.transpose with hQ
    have hQo : Q.transpose * Q = 1 := orth_mul (orth_mul h.orthU (orth_transpose wMat_orth))
      (orth_transpose h.orthV)
    refine ⟨(U.det * Q.det * σ 0) • (U *ᵥ ![0, 0, 1]), fixSign Q, fixSign_isRot hQo, ?_⟩
    have hUd : U.det * U.det = 1 := by rcases orth_det h.orthU with e | e <;> rw [e] <;> norm_num
    have hQd : Q.det * Q.det = 1 := by rcases orth_det hQo with e | e <;> rw [e] <;> norm_num
    have hz : diagonal σ = σ 0 • (skew ![0, 0, 1] * wMat.transpose) := by
      apply mat3_ext <;>
        simp [skew, wMat, Matrix.mul_apply, Fin.sum_univ_three, Matrix.transpose_apply, h2, ← h01,
          -Matrix.cons_mul]
    rw [skew_smul, skew_orth h.orthU, fixSign_eq hQo, Matrix.smul_mul, Matrix.smul_mul,
      Matrix.mul_smul, smul_smul, smul_smul,
      show U.det * Q.det * σ 0 * U.det * Q.det = (U.det * U.det) * (Q.det * Q.det) * σ 0 by ring,
      hUd, hQd, one_mul, one_mul, hQ,
      show U * skew ![0, 0, 1] * U.transpose * (U * wMat.transpose * V.transpose) =
        U * (skew ![0, 0, 1] * ((U.transpose * U) * (wMat.transpose * V.transpose))) by
        simp only [Matrix.mul_assoc], h.orthU, Matrix.one_mul, h.eq, hz]
    simp only [Matrix.mul_smul, Matrix.smul_mul, Matrix.mul_assoc]
  · rintro ⟨t, R, hR, rfl⟩
    have e1 : (skew t * R) * (skew t * R).transpose = skew t * (skew t).transpose := by
      rw [transpose_mul, Matrix.mul_assoc, ← Matrix.mul_assoc R, rot_mul_transpose hR.1,
        Matrix.one_mul]
    refine ⟨?_, ?_⟩
    · rw [det_mul, hR.2, mul_one, det_fin_three]
      simp [skew]
      ring
    · rw [e1, ← Matrix.mul_assoc, ← Matrix.smul_mul (2 : ℝ) _ R, ← Matrix.smul_mul _ _ R,
        ← Matrix.sub_mul]
      rw [show (2 : ℝ) • (skew t * (skew t).transpose * skew t) -
        (skew t * (skew t).transpose).trace • skew t = 0 from ?_, Matrix.zero_mul]
      have h00 : skew t 0 0 = 0 := by simp [skew]
      have h01 : skew t 0 1 = -t 2 := by simp [skew]
      have h02 : skew t 0 2 = t 1 := by simp [skew]
      have h10 : skew t 1 0 = t 2 := by simp [skew]
      have h11 : skew t 1 1 = 0 := by simp [skew]
      have h12 : skew t 1 2 = -t 0 := by simp [skew]
      have h20 : skew t 2 0 = -t 1 := by simp [skew]
      have h21 : skew t 2 1 = t 0 := by simp [skew]
      have h22 : skew t 2 2 = 0 := by simp [skew]
      apply mat3_ext <;>
        simp only [Matrix.sub_apply, Matrix.smul_apply, Matrix.mul_apply, Fin.sum_univ_three,
          Matrix.transpose_apply, Matrix.trace, Matrix.diag_apply, Matrix.zero_apply, smul_eq_mul,
          h00, h01, h02, h10, h11, h12, h20, h21, h22] <;> ring

/-! ### Stewenius' action matrix -/

/-- The ten monomials of the action matrix. -/
def steweniusB (x y z : ℂ) : Fin 10 → ℂ :=
  ![x ^ 2, x * y, y ^ 2, x * z, y * z, z ^ 2, x, y, z, 1]

theorem steweniusB_nine (x y z : ℂ) : steweniusB x y z 9 = 1 := rfl

theorem stewenius_eigenvector {A : Matrix (Fin 10) (Fin 20) ℝ} {A3 : Matrix (Fin 10) (Fin 10) ℝ}
    (hA : reducedA A = some A3) {x y z : ℂ}
    (h : A.map (fun w => (w : ℂ)) *ᵥ steweniusMonomials x y z = 0) :
    (steweniusM A3).map (fun w => (w : ℂ)) *ᵥ steweniusB x y z = x • steweniusB x y z := by
  have key := reducedA_spec hA Complex.ofRealHom (steweniusMonomials x y z) h
  have hm : ∀ j : Fin 10, steweniusMonomials x y z (Fin.natAdd 10 j) = steweniusB x y z j := by
    intro j; fin_cases j <;> rfl
  simp only [hm, Complex.ofRealHom_eq_coe] at key
  have neg : ∀ r : Fin 10, ∑ j, ((-A3 r j : ℝ) : ℂ) * steweniusB x y z j =
      steweniusMonomials x y z (Fin.castLE (by omega) r) := by
    intro r
    have := key r
    simp only [Complex.ofReal_neg, neg_mul, Finset.sum_neg_distrib]
    linear_combination -this
  have sgl : ∀ r : Fin 10, ∑ j, (((Pi.single r 1 : Fin 10 → ℝ) j : ℝ) : ℂ) * steweniusB x y z j =
      steweniusB x y z r := by
    intro r
    rw [Finset.sum_eq_single r]
    · simp
    · intro b _ hb
      simp [Pi.single_eq_of_ne hb]
    · simp
  funext r
  simp only [mulVec, dotProduct, Matrix.map_apply, Pi.smul_apply, smul_eq_mul]
  fin_cases r
  · refine (neg 0).trans ?_; show x ^ 3 = x * x ^ 2; ring
  · refine (neg 1).trans ?_; show x ^ 2 * y = x * (x * y); ring
  · refine (neg 2).trans ?_; show x * y ^ 2 = x * y ^ 2; ring
  · refine (neg 4).trans ?_; show x ^ 2 * z = x * (x * z); ring
  · refine (neg 5).trans ?_; show x * y * z = x * (y * z); ring
  · refine (neg 7).trans ?_; show x * z ^ 2 = x * z ^ 2; ring
  · refine (sgl 0).trans ?_; show x ^ 2 = x * x; ring
  · refine (sgl 1).trans ?_; show x * y = x * y; ring
  · refine (sgl 3).trans ?_; show x * z = x * z; ring
  · refine (sgl 6).trans ?_; show x = x * 1; ring

theorem steweniusOne_eq (EE : Matrix (Fin 9) (Fin 4) ℝ) (x y z c : ℂ) (hc : c ≠ 0)
    (hs : ∑ i, ∑ j, (combo (EE.map fun w => (w : ℂ)) x y z i j) ^ 2 ≠ 0) :
    ∃ k : ℂ, k ≠ 0 ∧ steweniusOne EE (c • steweniusB x y z) =
      some (k • combo (EE.map fun w => (w : ℂ)) x y z) ∧
      ∑ i, ∑ j, ((k • combo (EE.map fun w => (w : ℂ)) x y z) i j) ^ 2 = 1 := by
  have h6 : (c • steweniusB x y z) 6 / (c • steweniusB x y z) 9 = x := by
    show c * x / (c * 1) = x
    field_simp
  have h7 : (c • steweniusB x y z) 7 / (c • steweniusB x y z) 9 = y := by
    show c * y / (c * 1) = y
    field_simp
  have h8 : (c • steweniusB x y z) 8 / (c • steweniusB x y z) 9 = z := by
    show c * z / (c * 1) = z
    field_simp
  have h9 : (c • steweniusB x y z) 9 ≠ 0 := by
    show c * 1 ≠ 0
    simpa using hc
  set E : Fin 9 → ℂ := fun i => EE i 0 * x + EE i 1 * y + EE i 2 * z + EE i 3 with hE
  have hcombo : combo (EE.map fun w => (w : ℂ)) x y z = ofRows E := by
    unfold combo
    congr 1
    funext i
    simp only [hE, Matrix.map_apply]
    ring
  rw [hcombo] at hs ⊢
  have hsum : ∑ i, ∑ j, (ofRows E i j) ^ 2 = ∑ r, E r ^ 2 := by
    simp only [Fin.sum_univ_succ, ofRows]
    simp
    ring_nf
  rw [hsum] at hs
  have hsq : ((∑ r, E r ^ 2) ^ ((2 : ℕ) : ℂ)⁻¹) ^ 2 = ∑ r, E r ^ 2 :=
    Complex.cpow_nat_inv_pow _ (by norm_num)
  set n : ℂ := (∑ r, E r ^ 2) ^ ((2 : ℕ) : ℂ)⁻¹ with hn
  have hn0 : n ≠ 0 := by
    rintro e
    rw [e] at hsq
    exact hs (by rw [← hsq]; norm_num)
  refine ⟨n⁻¹, inv_ne_zero hn0, ?_, ?_⟩
  · unfold steweniusOne
    rw [if_neg h9]
    simp only [h6, h7, h8]
    rw [if_neg hn0]
    congr 1
    ext i j
    fin_cases i <;> fin_cases j <;> simp [ofRows, div_eq_inv_mul, hE, hn]
  · simp only [Matrix.smul_apply, smul_eq_mul, mul_pow, ← Finset.mul_sum]
    rw [hsum, ← hsq]
    field_simp

/-- For a real solution the result is a positive real multiple. -/
theorem steweniusOne_real (EE : Matrix (Fin 9) (Fin 4) ℝ) (x y z : ℝ) (c : ℂ) (hc : c ≠ 0)
    (hs : combo EE x y z ≠ 0) :
    ∃ k : ℝ, 0 < k ∧ (steweniusOne EE (c • steweniusB x y z)) =
      some ((k • combo EE x y z).map fun w => (w : ℂ)) ∧
      ∑ i, ∑ j, ((k • combo EE x y z) i j) ^ 2 = 1 := by
  have h6 : (c • steweniusB x y z) 6 / (c • steweniusB x y z) 9 = x := by
    show c * x / (c * 1) = x
    field_simp
  have h7 : (c • steweniusB x y z) 7 / (c • steweniusB x y z) 9 = y := by
    show c * y / (c * 1) = y
    field_simp
  have h8 : (c • steweniusB x y z) 8 / (c • steweniusB x y z) 9 = z := by
    show c * z / (c * 1) = z
    field_simp
  have h9 : (c • steweniusB x y z) 9 ≠ 0 := by
    show c * 1 ≠ 0
    simpa using hc
  set E : Fin 9 → ℝ := fun i => x * EE i 0 + y * EE i 1 + z * EE i 2 + EE i 3 with hE
  have hcombo : combo EE x y z = ofRows E := rfl
  rw [hcombo] at hs ⊢
  obtain ⟨k, hk, h1, h2⟩ := normalizeE_eq hs
  have hsum : ∑ i, ∑ j, (ofRows E i j) ^ 2 = ∑ r, E r ^ 2 := by
    simp only [Fin.sum_univ_succ, ofRows]
    simp
    ring_nf
  have hS : 0 ≤ ∑ r, E r ^ 2 := Finset.sum_nonneg fun i _ => sq_nonneg _
  have hSk : k ^ 2 * ∑ r, E r ^ 2 = 1 := by
    rw [← h2, ← hsum]
    simp only [Matrix.smul_apply, smul_eq_mul, mul_pow, ← Finset.mul_sum]
  have hroot : (∑ r, ((E r : ℝ) : ℂ) ^ 2) ^ ((2 : ℕ) : ℂ)⁻¹ = ((k⁻¹ : ℝ) : ℂ) := by
    have : (∑ r, ((E r : ℝ) : ℂ) ^ 2) = ((∑ r, E r ^ 2 : ℝ) : ℂ) := by push_cast; rfl
    have e2 : ((2 : ℕ) : ℂ)⁻¹ = (((2 : ℕ) : ℝ)⁻¹ : ℝ) := by push_cast; rfl
    rw [this, e2, ← Complex.ofReal_cpow hS]
    congr 1
    have e3 : ∑ r, E r ^ 2 = k⁻¹ ^ 2 := by
      rw [inv_pow]
      exact eq_inv_of_mul_eq_one_right hSk
    rw [e3]
    exact Real.pow_rpow_inv_natCast (inv_pos.2 hk).le (by norm_num)
  have hterm : (fun i => (EE i 0 : ℂ) * x + EE i 1 * y + EE i 2 * z + EE i 3) =
      fun i => ((E i : ℝ) : ℂ) := by
    funext i
    simp only [hE]
    push_cast
    ring
  refine ⟨k, hk, ?_, h2⟩
  unfold steweniusOne
  rw [if_neg h9]
  simp only [h6, h7, h8]
  have hterm' : ∀ i, (EE i 0 : ℂ) * x + EE i 1 * y + EE i 2 * z + EE i 3 = ((E i : ℝ) : ℂ) :=
    fun i => congrFun hterm i
  simp only [hterm', hroot]
  rw [if_neg (by simpa using hk.ne')]
  congr 1
  ext i j
  fin_cases i <;> fin_cases j <;> simp [ofRows, mul_comm]

/-! ### The null space -/

/-- A vector in the kernel is a combination of the columns with a vanishing singular value. -/
theorem kernel_coords {m : ℕ} {A : Matrix (Fin m) (Fin 9) ℝ} {V : Matrix (Fin 9) (Fin 9) ℝ}
    {σ : Fin 9 → ℝ} (h : IsRightSvd A V σ) (hσ : σ 4 ≠ 0) {f : Fin 9 → ℝ} (hf : A *ᵥ f = 0) :
    f = nullBasis V *ᵥ fun k => (fun i => V i (Fin.natAdd 5 k)) ⬝ᵥ f := by
  have hVV : V * V.transpose = 1 := mul_eq_one_comm.1 h.orth
  set w := V.transpose *ᵥ f with hw
  have hfw : f = V *ᵥ w := by rw [hw, mulVec_mulVec, hVV, one_mulVec]
  have hz : diagonal (fun i => σ i ^ 2) *ᵥ w = 0 := by
    rw [← h.gram, hw, mulVec_mulVec, Matrix.mul_assoc, hVV, Matrix.mul_one, ← mulVec_mulVec,
      ← mulVec_mulVec, hf, mulVec_zero, mulVec_zero]
  have hw0 : ∀ j : Fin 9, j.1 ≤ 4 → w j = 0 := by
    intro j hj
    have h1 := congrFun hz j
    rw [mulVec_diagonal] at h1
    have h4 : 0 < σ 4 := lt_of_le_of_ne (h.nonneg 4) (Ne.symm hσ)
    have h5 : σ 4 ≤ σ j := h.anti j 4 hj
    rcases mul_eq_zero.1 h1 with e | e
    · exact absurd (pow_eq_zero_iff (two_ne_zero) |>.1 e) (lt_of_lt_of_le h4 h5).ne'
    · exact e
  conv_lhs => rw [hfw]
  funext i
  simp only [mulVec, dotProduct]
  refine (Fin.sum_univ_add (a := 5) (b := 4) fun j : Fin (5 + 4) => V i j * w j).trans ?_
  rw [Finset.sum_eq_zero, zero_add]
  · rfl
  · intro j _
    rw [hw0 _ (by have := j.2; simp; omega), mul_zero]

theorem unvec_ofRows (f : Fin 9 → ℝ) : unvec f = ofRows f := by
  apply mat3_ext <;> simp [unvec, ofRows]

theorem ofRows_combo (EE : Matrix (Fin 9) (Fin 4) ℝ) (w : Fin 4 → ℝ) (hw : w 3 ≠ 0) :
    ofRows (EE *ᵥ w) = w 3 • combo EE (w 0 / w 3) (w 1 / w 3) (w 2 / w 3) := by
  have : EE *ᵥ w = w 3 • fun i => w 0 / w 3 * EE i 0 + w 1 / w 3 * EE i 1 + w 2 / w 3 * EE i 2 +
      EE i 3 := by
    funext i
    simp only [mulVec, dotProduct, Fin.sum_univ_four, Pi.smul_apply, smul_eq_mul]
    field_simp
  rw [this, ← unvec_ofRows, unvec_smul, unvec_ofRows]
  rfl

theorem essentialConstraints_smul {E : Mat3} (k : ℝ) (h : EssentialConstraints E) :
    EssentialConstraints (k • E) := by
  rw [essential_iff] at h ⊢
  obtain ⟨t, R, hR, rfl⟩ := h
  exact ⟨k • t, R, hR, by rw [skew_smul, Matrix.smul_mul]⟩

theorem essentialConstraints_map {K L : Type*} [CommRing K] [CommRing L] (f : K →+* L)
    {E : Matrix (Fin 3) (Fin 3) K} (h : EssentialConstraints E) : EssentialConstraints (E.map f) := by
  obtain ⟨h1, h2⟩ := h
  refine ⟨?_, ?_⟩
  · rw [← RingHom.mapMatrix_apply, ← RingHom.map_det, h1, map_zero]
  · ext i j
    have h3 := congrArg f (congrFun (congrFun h2 i) j)
    have f2 : f 2 = 2 := map_ofNat f 2
    simpa [Matrix.mul_apply, Matrix.trace, map_sum, f2] using h3

end OpenGV
