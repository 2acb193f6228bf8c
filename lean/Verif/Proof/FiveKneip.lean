import Verif.Proof.FiveKneipRows
import Verif.Proof.EigenSystem
import Verif.Proof.Geometry

/-!
# The action matrix of `fivept_kneip`
-/

namespace OpenGV.FiveKneip

open Finset Matrix

variable {A : Type} [CommRing A]

/-- The twenty monomials. -/
def monos (R : Matrix (Fin 3) (Fin 3) A) : Fin 20 → A :=
  ![R 0 1 ^ 2, R 0 0 * R 2 2, R 0 0 * R 2 1, R 0 0 * R 2 0, R 0 0 * R 1 2, R 0 0 * R 1 1,
    R 0 0 * R 1 0, R 0 0 * R 0 2, R 0 0 * R 0 1, R 0 0 ^ 2, R 2 2, R 2 1, R 2 0, R 1 2, R 1 1, R 1 0,
    R 0 2, R 0 1, R 0 0, 1]

/-- The codes of the last columns. -/
theorem tail_codes : ((List.range 20).map fun j => gcode codes (177 + j)) =
    [2 * 16, 1 + 16 ^ 8, 1 + 16 ^ 7, 1 + 16 ^ 6, 1 + 16 ^ 5, 1 + 16 ^ 4, 1 + 16 ^ 3, 1 + 16 ^ 2,
      1 + 16, 2, 16 ^ 8, 16 ^ 7, 16 ^ 6, 16 ^ 5, 16 ^ 4, 16 ^ 3, 16 ^ 2, 16, 1, 0] := by
  decide +kernel

/-- The codes of the leading columns. -/
theorem lead_codes : ((List.range 10).all fun i =>
    gcode codes (132 + i) == gcode codes (177 + i) + 1) = true := by decide +kernel

theorem tail_val (R : Matrix (Fin 3) (Fin 3) A) (j : Fin 20) :
    colEv codes (rotList R) (177 + j) = monos R j := by
  have h : gcode codes (177 + j) = ((List.range 20).map fun j => gcode codes (177 + j)).getD j 0 := by
    rw [List.getD_eq_getElem _ _ (by simp), List.getElem_map, List.getElem_range]
  unfold colEv
  rw [h, tail_codes]
  fin_cases j <;> simp [monoEv, rotList, monos]

theorem lead_val (R : Matrix (Fin 3) (Fin 3) A) {i : ℕ} (hi : i < 10) :
    colEv codes (rotList R) (132 + i) = R 0 0 * colEv codes (rotList R) (177 + i) := by
  have h := List.all_eq_true.1 lead_codes i (List.mem_range.2 hi)
  rw [beq_iff_eq] at h
  unfold colEv
  rw [h, monoEv_add (rotList R) _ _ (gcode_small (177 + i)) (show monoSmall 9 1 = true by decide),
    mul_comm]
  congr 1
  simp [monoEv, rotList]

/-- The rows of the action matrix. -/
theorem action_row (φ : ℝ →+* A) {R : Matrix (Fin 3) (Fin 3) A} {G : GMat ℝ} {i : ℕ} (hi : i < 10)
    (hv : rowValA φ 197 (colEv codes (rotList R)) G (51 + i) = 0) (h1 : G (51 + i) (132 + i) = 1)
    (h0 : ∀ x, x < 177 → x ≠ 132 + i → G (51 + i) x = 0) :
    ∑ j : Fin 20, φ (-G (51 + i) (177 + j)) * monos R j = R 0 0 * monos R ⟨i, by omega⟩ := by
  unfold rowValA at hv
  rw [show 197 = 177 + 20 by norm_num, Finset.sum_range_add,
    Finset.sum_eq_single_of_mem (132 + i) (mem_range.2 (by omega))
      (fun x hx hne => by rw [h0 x (mem_range.1 hx) hne, map_zero, zero_mul]), h1, map_one, one_mul,
    lead_val R hi, Finset.sum_range] at hv
  have e : colEv codes (rotList R) (177 + i) = monos R ⟨i, by omega⟩ := tail_val R ⟨i, by omega⟩
  rw [e] at hv
  have e2 : ∑ j : Fin 20, φ (G (51 + i) (177 + j)) * colEv codes (rotList R) (177 + j) =
      -∑ j : Fin 20, φ (-G (51 + i) (177 + j)) * monos R j := by
    rw [← Finset.sum_neg_distrib]
    refine Finset.sum_congr rfl fun j _ => ?_
    rw [tail_val, map_neg]
    ring
  rw [e2] at hv
  linear_combination -hv

theorem triples_lt : ∀ t ∈ kneipTriples, t.1 < t.2.1 ∧ t.2.1 < t.2.2 := by
  rw [triples_eq]
  decide +kernel

theorem triples_mem : ∀ a b c : Fin 5, a < b → b < c → (a, b, c) ∈ kneipTriples := by
  rw [triples_eq]
  decide +kernel

/-- The monomials are an eigenvector. -/
theorem action_eigen (φ : ℝ →+* A) {R : Matrix (Fin 3) (Fin 3) A} {f1 f2 : Fin 5 → Vec3}
    {G : GMat ℝ} (hG : gRun (kneipInit f1 f2) compute = some G) (hR : R * Rᵀ = 1) (hd : R.det = 1)
    (h0 : ∀ a b c : Fin 5, a < b → b < c →
      (Matrix.of ![crossProduct (φ ∘ f1 a) (R *ᵥ (φ ∘ f2 a)), crossProduct (φ ∘ f1 b) (R *ᵥ (φ ∘ f2 b)),
        crossProduct (φ ∘ f1 c) (R *ᵥ (φ ∘ f2 c))]).det = 0) :
    (kneipM G).map φ *ᵥ monos R = R 0 0 • monos R := by
  have hv : ∀ r, rowValA φ 197 (colEv codes (rotList R)) (kneipInit f1 f2) r = 0 := by
    intro r
    by_cases hr : r < 10
    · obtain ⟨t, ht, hrow⟩ := init_det φ f1 f2 R hr
      rw [hrow]
      obtain ⟨h1, h2⟩ := triples_lt t ht
      exact h0 _ _ _ h1 h2
    · exact const_rows φ f1 f2 hR hd (by omega)
  obtain ⟨h1, h2⟩ := compute_spec φ (zs := rotList R) rfl hG hv
  funext i
  rw [Pi.smul_apply, smul_eq_mul]
  simp only [mulVec, dotProduct, Matrix.map_apply]
  by_cases hi : (i : ℕ) < 10
  · have := action_row φ hi (h1 _) (h2 i hi).1 (h2 i hi).2
    simp only [kneipM, Matrix.of_apply, if_pos hi]
    exact this
  · have key : ∀ j₀ : Fin 20, (∀ j, kneipM G i j = if j = j₀ then 1 else 0) →
        ∑ j, φ (kneipM G i j) * monos R j = monos R j₀ := by
      intro j₀ hj
      rw [Finset.sum_eq_single_of_mem j₀ (mem_univ _)
        (fun j _ hne => by rw [hj, if_neg hne, map_zero, zero_mul]), hj, if_pos rfl, map_one, one_mul]
    by_cases h19 : (i : ℕ) < 19
    · rw [key ⟨i - 9, by omega⟩ fun j => by
        simp only [kneipM, Matrix.of_apply, if_neg hi, if_pos h19, Fin.ext_iff]
        congr 1
        exact propext ⟨fun h => by omega, fun h => by omega⟩]
      obtain ⟨i, hi'⟩ := i
      simp only at hi h19 ⊢
      interval_cases i <;> simp [monos, pow_two]
    · rw [key 18 fun j => by
        simp only [kneipM, Matrix.of_apply, if_neg hi, if_neg h19, Fin.ext_iff]
        rfl]
      have : i = 19 := by
        apply Fin.ext
        have := i.2
        have e : ((19 : Fin 20) : ℕ) = 19 := rfl
        omega
      rw [this]
      simp [monos]

/-! ### The checks at the true rotation -/

/-- Reading the rotation. -/
theorem read_monos {R : Mat3} (hR : IsRot R) {c : ℂ} (hc : c ≠ 0) :
    kneipRead (c • monos (R.map fun x => (x : ℂ))) = some R := by
  have h19 : (c • monos (R.map fun x => (x : ℂ))) 19 = c := by simp [monos]
  have hent : ∀ i j : Fin 3, ((c • monos (R.map fun x => (x : ℂ))) (Fin.ofNat 20 (18 - (3 * i + j))) /
      (c • monos (R.map fun x => (x : ℂ))) 19).re = R i j := by
    intro i j
    rw [h19]
    have : ∀ z : ℝ, (c * (z : ℂ) / c).re = z := by
      intro z
      rw [mul_div_cancel_left₀ _ hc, Complex.ofReal_re]
    fin_cases i <;> fin_cases j <;> exact this _
  have hRR := rot_mul_transpose hR.1
  have hrow : ∀ i, norm3 (R i) = 1 := by
    intro i
    have := congrFun (congrFun hRR i) i
    rw [Matrix.mul_apply', Matrix.one_apply_eq] at this
    unfold norm3
    rw [show R i ⬝ᵥ R i = 1 from this, Real.sqrt_one]
  unfold kneipRead
  rw [if_neg (by rw [h19]; exact hc)]
  simp only [hent]
  have e : (Matrix.of fun i j => R i j) = R := rfl
  rw [e, hrow 1, hrow 2, if_neg (by norm_num), inv_one, one_smul, one_smul]
  congr 1
  ext i j
  fin_cases i <;> rfl

/-- Features of one pose: bearing vectors of points in front of both cameras. -/
structure Pose (f1 f2 : Fin 5 → Vec3) (R : Mat3) (t : Vec3) : Prop where
  rot : IsRot R
  feat : ∀ i, ∃ (p : Vec3) (a b : ℝ), 0 < a ∧ 0 < b ∧ f1 i = a • p ∧ f2 i = b • (Rᵀ *ᵥ (p - t))

theorem pose_normal {f1 f2 : Fin 5 → Vec3} {R : Mat3} {t : Vec3} (h : Pose f1 f2 R t) (i : Fin 5) :
    ∃ (p : Vec3) (a b : ℝ), 0 < a ∧ 0 < b ∧ f1 i = a • p ∧ R *ᵥ f2 i = b • (p - t) := by
  obtain ⟨p, a, b, ha, hb, h1, h2⟩ := h.feat i
  refine ⟨p, a, b, ha, hb, h1, ?_⟩
  rw [h2, mulVec_smul, mulVec_mulVec, rot_mul_transpose h.rot.1, one_mulVec]

theorem normal_eq (p t : Vec3) (a b : ℝ) :
    crossProduct (a • p) (b • (p - t)) = (a * b) • crossProduct t p := by
  apply ext3 <;> simp [cross_apply] <;> ring

theorem det_normals (p q r t : Vec3) (a b c : ℝ) :
    (Matrix.of ![a • crossProduct t p, b • crossProduct t q, c • crossProduct t r]).det = 0 := by
  rw [det_fin_three]
  simp [cross_apply]
  ring

theorem pose_det {f1 f2 : Fin 5 → Vec3} {R : Mat3} {t : Vec3} (h : Pose f1 f2 R t) (i j k : Fin 5) :
    (Matrix.of ![crossProduct (f1 i) (R *ᵥ f2 i), crossProduct (f1 j) (R *ᵥ f2 j),
      crossProduct (f1 k) (R *ᵥ f2 k)]).det = 0 := by
  obtain ⟨p, a, b, -, -, h1, h2⟩ := pose_normal h i
  obtain ⟨p', a', b', -, -, h1', h2'⟩ := pose_normal h j
  obtain ⟨p'', a'', b'', -, -, h1'', h2''⟩ := pose_normal h k
  rw [h1, h2, h1', h2', h1'', h2'', normal_eq, normal_eq, normal_eq, det_normals]

theorem pose_eval {f1 f2 : Fin 5 → Vec3} {R : Mat3} {t : Vec3} (h : Pose f1 f2 R t) :
    kneipEval f1 f2 R = 0 := by
  have hsum : ∀ L : List (Fin 5 × Fin 5 × Fin 5),
      (L.map fun t => |(kneipNormals f1 f2 R t.1 t.2.1 t.2.2).det|).sum = 0 := by
    intro L
    induction L with
    | nil => rfl
    | cons x L ih =>
      rw [List.map_cons, List.sum_cons, ih]
      unfold kneipNormals
      rw [det_transpose, pose_det h, abs_zero, add_zero]
  have hRR := rot_mul_transpose h.rot.1
  have hadj : R.adjugate = Rᵀ := by
    have := mul_adjugate R
    rw [h.rot.2, one_smul] at this
    calc R.adjugate = (Rᵀ * R) * R.adjugate := by rw [h.rot.1, one_mul]
      _ = Rᵀ := by rw [mul_assoc, this, mul_one]
  have o : ∀ i j, (R * Rᵀ) i j = (1 : Mat3) i j := fun i j => by rw [hRR]
  have c : ∀ i j, R.adjugate i j = R j i := fun i j => by rw [hadj]; rfl
  simp only [Matrix.mul_apply, Matrix.transpose_apply, Fin.sum_univ_three] at o
  rw [adjugate_fin_three] at c
  have o00 := o 0 0
  have o01 := o 0 1
  have o02 := o 0 2
  have o11 := o 1 1
  have o12 := o 1 2
  have o22 := o 2 2
  have c20 := c 2 0
  have c21 := c 2 1
  have c22 := c 2 2
  simp at o00 o01 o02 o11 o12 o22 c20 c21 c22
  unfold kneipEval
  rw [hsum, show R 0 0 * R 0 0 + R 0 1 * R 0 1 + R 0 2 * R 0 2 - 1 = 0 by linear_combination o00,
    show R 0 0 * R 1 0 + R 0 1 * R 1 1 + R 0 2 * R 1 2 = 0 by linear_combination o01,
    show R 0 0 * R 2 0 + R 0 1 * R 2 1 + R 0 2 * R 2 2 = 0 by linear_combination o02,
    show R 1 0 * R 1 0 + R 1 1 * R 1 1 + R 1 2 * R 1 2 - 1 = 0 by linear_combination o11,
    show R 1 0 * R 2 0 + R 1 1 * R 2 1 + R 1 2 * R 2 2 = 0 by linear_combination o12,
    show R 2 0 * R 2 0 + R 2 1 * R 2 1 + R 2 2 * R 2 2 - 1 = 0 by linear_combination o22,
    show R 1 0 * R 2 1 - R 2 0 * R 1 1 - R 0 2 = 0 by linear_combination c20,
    show R 2 0 * R 0 1 - R 0 0 * R 2 1 - R 1 2 = 0 by linear_combination c21,
    show R 0 0 * R 1 1 - R 1 0 * R 0 1 - R 2 2 = 0 by linear_combination c22]
  simp

theorem cross_normals (p q t : Vec3) (a b : ℝ) : ∃ k : ℝ,
    crossProduct (a • crossProduct t p) (b • crossProduct t q) = k • t := by
  refine ⟨a * b * (t 0 * (p 1 * q 2 - p 2 * q 1) + t 1 * (p 2 * q 0 - p 0 * q 2) +
    t 2 * (p 0 * q 1 - p 1 * q 0)), ?_⟩
  apply ext3 <;> simp [cross_apply] <;> ring

theorem pose_positive {f1 f2 : Fin 5 → Vec3} {R : Mat3} {t : Vec3} (h : Pose f1 f2 R t) :
    kneipPositive f1 f2 R := by
  intro i x y _
  obtain ⟨p, a, b, ha, hb, h1, h2⟩ := pose_normal h i
  obtain ⟨p', a', b', -, -, h1', h2'⟩ := pose_normal h x
  obtain ⟨p'', a'', b'', -, -, h1'', h2''⟩ := pose_normal h y
  simp only
  rw [h1, h2, h1', h2', h1'', h2'', normal_eq, normal_eq]
  obtain ⟨k, hk⟩ := cross_normals p' p'' t (a' * b') (a'' * b'')
  rw [hk, not_lt]
  have e : crossProduct (k • t) (a • p) ⬝ᵥ crossProduct (k • t) (b • (p - t)) =
      k ^ 2 * (a * b) * (crossProduct t p ⬝ᵥ crossProduct t p) := by
    simp [cross_apply]
    ring
  rw [e]
  have := dot_self_nonneg3 (crossProduct t p)
  positivity

/-- The true rotation passes all checks. -/
theorem pose_candidate {f1 f2 : Fin 5 → Vec3} {R : Mat3} {t : Vec3} (h : Pose f1 f2 R t) {c : ℂ}
    (hc : c ≠ 0) {x : ℝ} :
    kneipCandidate f1 f2 (x : ℂ) (c • monos (R.map fun x => (x : ℂ))) = some R := by
  unfold kneipCandidate
  rw [if_pos (by norm_num), read_monos h.rot hc]
  simp only
  rw [if_pos (by rw [h.rot.2]; norm_num), if_pos (by rw [pose_eval h]; norm_num),
    if_pos (pose_positive h)]

/-- What a candidate that passes satisfies. -/
theorem candidate_spec {f1 f2 : Fin 5 → Vec3} {d : ℂ} {v : Fin 20 → ℂ} {R : Mat3}
    (h : kneipCandidate f1 f2 d v = some R) : |R.det - 1| < 0.1 ∧ kneipEval f1 f2 R < 0.001 ∧
      kneipPositive f1 f2 R ∧ kneipRead v = some R ∧ |d.im| < 0.1 := by
  unfold kneipCandidate at h
  split_ifs at h with h1
  split at h
  · exact absurd h (by simp)
  · rename_i R' hR'
    split_ifs at h with h2 h3 h4
    rw [← Option.some.inj h]
    exact ⟨h2, h3, h4, hR', h1⟩

theorem read_norms {v : Fin 20 → ℂ} {R : Mat3} (h : kneipRead v = some R) :
    R 1 ⬝ᵥ R 1 = 1 ∧ R 2 ⬝ᵥ R 2 = 1 := by
  unfold kneipRead at h
  simp only at h
  split_ifs at h with h1 h2
  rw [not_or] at h2
  rw [← Option.some.inj h]
  have key : ∀ u : Vec3, norm3 u ≠ 0 → ((norm3 u)⁻¹ • u) ⬝ᵥ ((norm3 u)⁻¹ • u) = 1 := by
    intro u hu
    rw [smul_dotProduct, dotProduct_smul, ← norm3_sq, smul_eq_mul, smul_eq_mul]
    field_simp
  exact ⟨key _ h2.1, key _ h2.2⟩

end OpenGV.FiveKneip
