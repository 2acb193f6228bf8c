import Verif.Model.Ge
import Verif.Spec.Ge
import Verif.Proof.Eigensolver

namespace OpenGV

open Matrix Spec

theorem ext4 {u v : Fin 4 → ℝ} (h0 : u 0 = v 0) (h1 : u 1 = v 1) (h2 : u 2 = v 2) (h3 : u 3 = v 3) :
    u = v := by
  funext i; fin_cases i <;> assumption

theorem dot4 (u v : Fin 4 → ℝ) : u ⬝ᵥ v = u 0 * v 0 + u 1 * v 1 + u 2 * v 2 + u 3 * v 3 := by
  simp [dotProduct, Fin.sum_univ_succ]; ring

theorem crossRow_cols (f p t : Vec3) (R : Mat3) :
    crossRow f p t ⬝ᵥ stackCols R = f ⬝ᵥ (R *ᵥ crossProduct p t) := by
  simp [crossRow, stackCols, dotProduct, mulVec, Fin.sum_univ_succ, cross_apply]; ring

theorem crossRow_rows (f p t : Vec3) (R : Mat3) :
    crossRow f p t ⬝ᵥ stackRows R = crossProduct p t ⬝ᵥ (R *ᵥ f) := by
  simp [crossRow, stackRows, dotProduct, mulVec, Fin.sum_univ_succ, cross_apply]; ring

/-- The row of a correspondence. -/
noncomputable def genRow (R : Mat3) (f1 f2 t1 t2 : Vec3) : Fin 4 → ℝ :=
  ![crossProduct f1 (R *ᵥ f2) 0, crossProduct f1 (R *ᵥ f2) 1, crossProduct f1 (R *ᵥ f2) 2,
    f1 ⬝ᵥ (R *ᵥ crossProduct f2 t2) + crossProduct f1 t1 ⬝ᵥ (R *ᵥ f2)]

theorem dot_add_outer {n m : ℕ} (r : Fin n → ℝ) (P : Matrix (Fin n) (Fin m) ℝ) (u : Fin n → ℝ)
    (x y : Fin m → ℝ) : r ⬝ᵥ ((P + vecMulVec u x) *ᵥ y) = r ⬝ᵥ (P *ᵥ y) + (r ⬝ᵥ u) * (x ⬝ᵥ y) := by
  rw [add_mulVec, vecMulVec_mulVec, op_smul_eq_smul, dotProduct_add, dotProduct_smul, smul_eq_mul]
  ring

theorem dot_sub_outer {n m : ℕ} (r : Fin n → ℝ) (P : Matrix (Fin n) (Fin m) ℝ) (u : Fin n → ℝ)
    (x y : Fin m → ℝ) : r ⬝ᵥ ((P - vecMulVec u x) *ᵥ y) = r ⬝ᵥ (P *ᵥ y) - (r ⬝ᵥ u) * (x ⬝ᵥ y) := by
  rw [sub_mulVec, vecMulVec_mulVec, op_smul_eq_smul, dotProduct_sub, dotProduct_smul, smul_eq_mul]
  ring

theorem composeGR_add (s : GeSums) (w : ℝ) (f1 f2 t1 t2 : Vec3) (R : Mat3) :
    composeGR (s.add w f1 f2 t1 t2) R = composeGR s R +
      w • vecMulVec (genRow R f1 f2 t1 t2) (genRow R f1 f2 t1 t2) := by
  have hg : R *ᵥ f2 = ![R 0 ⬝ᵥ f2, R 1 ⬝ᵥ f2, R 2 ⬝ᵥ f2] := by apply ext3 <;> rfl
  simp only [composeGR, GeSums.add, FSums.add, rowForm_add, dot_add_outer, dot_sub_outer,
    dotProduct_smul, smul_eq_mul]
  rw [dotProduct_comm (stackRows R) (crossRow f2 f1 t1),
    dotProduct_comm (stackCols R) (crossRow f1 f2 t2), crossRow_cols, crossRow_rows]
  simp only [genRow]
  generalize hb : crossProduct f1 t1 ⬝ᵥ (R *ᵥ f2) = b
  generalize ha : f1 ⬝ᵥ (R *ᵥ crossProduct f2 t2) = a
  rw [hg]
  generalize R 0 ⬝ᵥ f2 = g0
  generalize R 1 ⬝ᵥ f2 = g1
  generalize R 2 ⬝ᵥ f2 = g2
  ext i j
  fin_cases i <;> fin_cases j <;>
    simp [cross_apply] <;> ring

theorem composeGR_zero (R : Mat3) : composeGR GeSums.zero R = 0 := by
  ext i j
  fin_cases i <;> fin_cases j <;> simp [composeGR, GeSums.zero, FSums.zero, rowForm]

/-- The sum of the outer products of the rows. -/
noncomputable def genGram (R : Mat3) (cs : List GeCorr) : Matrix (Fin 4) (Fin 4) ℝ :=
  (cs.map fun c => c.weight • vecMulVec
    (genRow R (c.camRotation1 *ᵥ c.f1) (c.camRotation2 *ᵥ c.f2) c.camOffset1 c.camOffset2)
    (genRow R (c.camRotation1 *ᵥ c.f1) (c.camRotation2 *ᵥ c.f2) c.camOffset1 c.camOffset2)).sum

theorem composeGR_geSums (R : Mat3) (cs : List GeCorr) :
    composeGR (geSums cs) R = genGram R cs := by
  have h : ∀ s : GeSums, composeGR (cs.foldl (fun s c => s.add c.weight (c.camRotation1 *ᵥ c.f1)
      (c.camRotation2 *ᵥ c.f2) c.camOffset1 c.camOffset2) s) R = composeGR s R + genGram R cs := by
    induction cs with
    | nil => intro s; simp [genGram]
    | cons c cs ih =>
      intro s
      rw [List.foldl_cons, ih, composeGR_add, genGram, genGram, List.map_cons, List.sum_cons,
        add_assoc]
  rw [geSums, h, composeGR_zero, zero_add]

theorem genRow_smul (k : ℝ) (R : Mat3) (f1 f2 t1 t2 : Vec3) :
    genRow (k • R) f1 f2 t1 t2 = k • genRow R f1 f2 t1 t2 := by
  apply ext4 <;> simp [genRow, smul_mulVec, cross_apply] <;> ring

theorem genRow_dot {R : Mat3} (hR : IsRot R) (f1 f2 t1 t2 : Vec3) (v : Fin 4 → ℝ) :
    genRow R f1 f2 t1 t2 ⬝ᵥ v =
      crossProduct f1 (R *ᵥ f2) ⬝ᵥ (![v 0, v 1, v 2] + v 3 • (R *ᵥ t2 - t1)) := by
  have h1 : f1 ⬝ᵥ (R *ᵥ crossProduct f2 t2) = crossProduct f1 (R *ᵥ f2) ⬝ᵥ (R *ᵥ t2) := by
    rw [← rot_cross hR]
    generalize R *ᵥ f2 = a
    generalize R *ᵥ t2 = b
    rw [dot3, dot3]
    simp only [cross_apply, Matrix.cons_val]
    ring
  have h2 : crossProduct f1 t1 ⬝ᵥ (R *ᵥ f2) = -(crossProduct f1 (R *ᵥ f2) ⬝ᵥ t1) := by
    generalize R *ᵥ f2 = a
    rw [dot3, dot3]
    simp only [cross_apply, Matrix.cons_val]
    ring
  rw [dotProduct_add, dotProduct_smul, dotProduct_sub, dot4, genRow, h1, h2]
  generalize crossProduct f1 (R *ᵥ f2) = n
  rw [dot3 n ![v 0, v 1, v 2]]
  simp
  ring

theorem composeG_eq (cs : List GeCorr) (c : Vec3) :
    composeG (geSums cs) c = (1 + c ⬝ᵥ c) ^ 2 • genGram (cayley2rot c) cs := by
  rw [composeG, composeGR_geSums, cayley2rotReduced_eq]
  induction cs with
  | nil => simp [genGram]
  | cons d cs ih =>
    rw [genGram, List.map_cons, List.sum_cons, ← genGram, ih, genGram, genGram, List.map_cons,
      List.sum_cons, smul_add]
    congr 1
    rw [genRow_smul, smul_vecMulVec, vecMulVec_smul, smul_comm d.weight (1 + c ⬝ᵥ c),
      smul_comm d.weight (1 + c ⬝ᵥ c), smul_smul, sq]

theorem genGram_mulVec (R : Mat3) (cs : List GeCorr) (v : Fin 4 → ℝ) :
    genGram R cs *ᵥ v = (cs.map fun c => (c.weight *
      (genRow R (c.camRotation1 *ᵥ c.f1) (c.camRotation2 *ᵥ c.f2) c.camOffset1 c.camOffset2 ⬝ᵥ v)) •
      genRow R (c.camRotation1 *ᵥ c.f1) (c.camRotation2 *ᵥ c.f2) c.camOffset1 c.camOffset2).sum := by
  induction cs with
  | nil => simp [genGram]
  | cons c cs ih =>
    rw [genGram, List.map_cons, List.sum_cons, ← genGram, add_mulVec, ih, List.map_cons,
      List.sum_cons, smul_mulVec, vecMulVec_mulVec]
    congr 1
    rw [mul_smul, op_smul_eq_smul]

theorem genGram_form (R : Mat3) (cs : List GeCorr) (v : Fin 4 → ℝ) :
    v ⬝ᵥ (genGram R cs *ᵥ v) = (cs.map fun c => c.weight *
      (genRow R (c.camRotation1 *ᵥ c.f1) (c.camRotation2 *ᵥ c.f2) c.camOffset1 c.camOffset2 ⬝ᵥ v)
        ^ 2).sum := by
  rw [genGram_mulVec]
  induction cs with
  | nil => simp
  | cons c cs ih =>
    rw [List.map_cons, List.sum_cons, dotProduct_add, ih, List.map_cons, List.sum_cons,
      dotProduct_smul, smul_eq_mul, dotProduct_comm v]
    ring

theorem composeGR_transpose (s : GeSums) (R : Mat3) :
    (composeGR s R).transpose = composeGR s R := by
  ext i j
  fin_cases i <;> fin_cases j <;> simp [composeGR]

theorem composeG_transpose (s : GeSums) (c : Vec3) : (composeG s c).transpose = composeG s c :=
  composeGR_transpose s _

/-! ### The closed form for the eigenvalues -/

theorem det_quartic {G : Matrix (Fin 4) (Fin 4) ℝ} (hG : G.transpose = G) (x : ℝ) :
    (x • (1 : Matrix (Fin 4) (Fin 4) ℝ) - G).det =
      x ^ 4 + quarticB G * x ^ 3 + quarticC G * x ^ 2 + quarticD G * x + quarticE G := by
  have h : ∀ i j, G j i = G i j := fun i j => congrFun (congrFun hG i) j
  have h10 := h 0 1
  have h20 := h 0 2
  have h30 := h 0 3
  have h21 := h 1 2
  have h31 := h 1 3
  have h32 := h 2 3
  rw [det_succ_row_zero]
  simp [Fin.sum_univ_succ, det_fin_three, Fin.succAbove, quarticB, quarticC, quarticD,
    quarticE, h10, h20, h30, h21, h31, h32, Matrix.one_apply]
  ring

theorem diag_det4 {M V : Matrix (Fin 4) (Fin 4) ℝ} {l : Fin 4 → ℝ} (hV : V.transpose * V = 1)
    (hd : V.transpose * M * V = diagonal l) (x : ℝ) :
    (x • (1 : Matrix (Fin 4) (Fin 4) ℝ) - M).det =
      (x - l 0) * (x - l 1) * (x - l 2) * (x - l 3) := by
  have e : V.transpose * (x • (1 : Matrix (Fin 4) (Fin 4) ℝ) - M) * V =
      diagonal fun i => x - l i := by
    rw [Matrix.mul_sub, Matrix.sub_mul, hd, Matrix.mul_smul, Matrix.mul_one, Matrix.smul_mul, hV]
    ext i j
    by_cases hij : i = j
    · subst hij; simp
    · simp [hij]
  have h1 := congrArg det e
  rw [det_mul, det_mul, det_transpose, det_diagonal] at h1
  have h2 := congrArg det hV
  rw [det_mul, det_transpose, det_one] at h2
  have h3 : (x • (1 : Matrix (Fin 4) (Fin 4) ℝ) - M).det = ∏ i, (x - l i) := by
    rw [← h1]; linear_combination (-(x • (1 : Matrix (Fin 4) (Fin 4) ℝ) - M).det) * h2
  rw [h3]
  simp [Fin.prod_univ_succ]
  ring

theorem quartic_coeffs {B C D E x0 x1 x2 x3 : ℝ}
    (h : ∀ x : ℝ, x ^ 4 + B * x ^ 3 + C * x ^ 2 + D * x + E =
      (x - x0) * (x - x1) * (x - x2) * (x - x3)) :
    B = -(x0 + x1 + x2 + x3) ∧
      C = x0 * x1 + x0 * x2 + x0 * x3 + x1 * x2 + x1 * x3 + x2 * x3 ∧
      D = -(x0 * x1 * x2 + x0 * x1 * x3 + x0 * x2 * x3 + x1 * x2 * x3) ∧
      E = x0 * x1 * x2 * x3 := by
  have e0 := h 0
  have e1 := h 1
  have e2 := h (-1)
  have e3 := h 2
  have fE : E = x0 * x1 * x2 * x3 := by linarith
  have fC : C = x0 * x1 + x0 * x2 + x0 * x3 + x1 * x2 + x1 * x3 + x2 * x3 := by linarith
  have fB : B = -(x0 + x1 + x2 + x3) := by linarith
  exact ⟨fB, fC, by linarith, fE⟩

/-- The trigonometric formula for the largest root. -/
theorem cubic_trig {p q v r : ℝ} (hr : 0 < r) (hp : p = -3 * r ^ 2) (hv : v ^ 3 + p * v + q = 0)
    (h1 : r ≤ v) (h2 : v ≤ 2 * r) :
    |-q / 2 / r ^ 3| ≤ 1 ∧ 2 * r * Real.cos (1 / 3 * Real.arccos (-q / 2 / r ^ 3)) = v := by
  set θ := Real.arccos (v / (2 * r)) with hθ
  have hc : Real.cos θ = v / (2 * r) :=
    Real.cos_arccos (by have : 0 ≤ v / (2 * r) := div_nonneg (by linarith) (by linarith)
                        linarith) ((div_le_one (by linarith)).2 h2)
  have h3 : Real.cos (3 * θ) = -q / 2 / r ^ 3 := by
    rw [Real.cos_three_mul, hc]
    have : q = -(v ^ 3 + p * v) := by linarith
    rw [this, hp]
    field_simp
    ring
  have hθ0 : 0 ≤ θ := Real.arccos_nonneg _
  have hθ1 : θ ≤ Real.pi / 3 := by
    rw [hθ, ← Real.arccos_cos (x := Real.pi / 3) (by positivity) (by linarith [Real.pi_pos])]
    apply Real.arccos_le_arccos
    rw [Real.cos_pi_div_three, div_le_div_iff₀ (by norm_num) (by linarith)]
    linarith
  rw [← h3]
  refine ⟨Real.abs_cos_le_one _, ?_⟩
  rw [Real.arccos_cos (by linarith) (by linarith), show 1 / 3 * (3 * θ) = θ by ring, hc]
  field_simp

theorem resolvent_lower {d1 d3 : ℝ} (h1 : 0 ≤ d1) (h3 : 0 ≤ d3) :
    ((d1 + (d1 + d3)) ^ 2 + d3 ^ 2 * 3) / 36 ≤ ((d1 + (d1 + d3)) / 3) ^ 2 := by
  nlinarith [mul_nonneg h1 h3, mul_nonneg h1 h1]

theorem resolvent_upper (a d3 : ℝ) : (a / 3) ^ 2 ≤ 2 ^ 2 * ((a ^ 2 + d3 ^ 2 * 3) / 36) := by
  nlinarith [sq_nonneg d3]

theorem quarticRoots_spec {B C D E x0 x1 x2 x3 : ℝ}
    (h : ∀ x : ℝ, x ^ 4 + B * x ^ 3 + C * x ^ 2 + D * x + E =
      (x - x0) * (x - x1) * (x - x2) * (x - x3)) (h01 : x1 ≤ x0) (h12 : x2 ≤ x1) (h23 : x3 ≤ x2)
    (hne : ¬ (x0 = x1 ∧ x1 = x2) ∧ ¬ (x1 = x2 ∧ x2 = x3)) :
    quarticRoots B C D E = some (x2, x3) := by
  obtain ⟨hB, hC, hD, hE⟩ := quartic_coeffs h
  obtain ⟨hn1, hn2⟩ := hne
  set w := (x0 + x1 - x2 - x3) / 2 with hw
  set d1 := (x1 - x2) * (x0 - x3) / 2 with hd1
  set d2 := (x1 - x3) * (x0 - x2) / 2 with hd2
  set d3 := (x2 - x3) * (x0 - x1) / 2 with hd3
  have d1n : 0 ≤ d1 := by
    have := mul_nonneg (sub_nonneg.2 h12) (sub_nonneg.2 (h23.trans (h12.trans h01)))
    rw [hd1]; linarith
  have d3n : 0 ≤ d3 := by
    have := mul_nonneg (sub_nonneg.2 h23) (sub_nonneg.2 h01)
    rw [hd3]; linarith
  have d2e : d2 = d1 + d3 := by rw [hd1, hd2, hd3]; ring
  have hpos : 0 < d1 + d3 := by
    refine lt_of_le_of_ne (by linarith) fun h0 => ?_
    have z1 : (x1 - x2) * (x0 - x3) = 0 := by rw [hd1] at *; linarith
    have z3 : (x2 - x3) * (x0 - x1) = 0 := by rw [hd3] at *; linarith
    rcases mul_eq_zero.1 z1 with z1 | z1
    · rcases mul_eq_zero.1 z3 with z3 | z3
      · exact hn2 ⟨by linarith, by linarith⟩
      · exact hn1 ⟨by linarith, by linarith⟩
    · exact hn2 ⟨by linarith, by linarith⟩
  have hwpos : 0 < w := by
    refine lt_of_le_of_ne (by rw [hw]; linarith) fun h0 => ?_
    rw [hw] at h0
    exact hn2 ⟨by linarith, by linarith⟩
  set α : ℝ := -0.375 * (B * B) + C with hα
  set β : ℝ := B * B * B / 8 - B * C / 2 + D with hβ
  set γ : ℝ := -0.01171875 * (B * B * B * B) + B * B * C / 16 - B * D / 4 + E with hγ
  set p : ℝ := -(α * α) / 12 - γ with hp
  set q : ℝ := -(α * α * α) / 108 + α * γ / 3 - β ^ 2 / 8 with hq
  set v := w ^ 2 / 2 + α / 3 with hv
  have hv3 : v = (d1 + d2) / 3 := by
    rw [hv, hw, hα, hB, hC, hd1, hd2]; ring
  have hp3 : -p / 3 = ((d1 + d2) ^ 2 + d3 ^ 2 * 3) / 36 := by
    rw [hp, hα, hγ, hB, hC, hD, hE, hd1, hd2, hd3]; ring
  have hroot : v ^ 3 + p * v + q = 0 := by
    rw [hp, hq, hv, hw, hα, hβ, hγ, hB, hC, hD, hE]; ring
  have hp0 : 0 < -p / 3 := by
    rw [hp3, d2e]
    have : 0 < (d1 + (d1 + d3)) ^ 2 := by have : 0 < d1 + (d1 + d3) := by linarith
                                          positivity
    have := sq_nonneg d3
    linarith
  set r := √(-p / 3) with hr
  have hr0 : 0 < r := Real.sqrt_pos.2 hp0
  have hr2 : r ^ 2 = -p / 3 := Real.sq_sqrt hp0.le
  have hv0 : 0 < v := by rw [hv3, d2e]; linarith
  have hle1 : r ≤ v := by
    rw [hr]
    apply Real.sqrt_le_iff.2 ⟨hv0.le, ?_⟩
    rw [hp3, hv3, d2e]
    exact resolvent_lower d1n d3n
  have hle2 : v ≤ 2 * r := by
    rw [← pow_le_pow_iff_left₀ hv0.le (by linarith) two_ne_zero]
    rw [mul_pow, hr2, hp3, hv3]
    exact resolvent_upper _ _
  obtain ⟨habs, hcos⟩ := cubic_trig hr0 (by rw [hr2]; ring) hroot hle1 hle2
  have hh : -p ^ 3 / 27 = r ^ 6 := by
    rw [show r ^ 6 = (r ^ 2) ^ 3 by ring, hr2]; ring
  have hth2 : (r ^ 6) ^ ((1 : ℝ) / 3) = r ^ 2 := by
    rw [show r ^ 6 = (r ^ 2) ^ (3 : ℕ) by ring, ← Real.rpow_natCast, ← Real.rpow_mul (by positivity)]
    norm_num
  have hs6 : √(r ^ 6) = r ^ 3 := by
    rw [show r ^ 6 = (r ^ 3) ^ 2 by ring, Real.sqrt_sq (by positivity)]
  have hy : -(5 / 6) * α - (1 / 3 * p * (r * Real.cos (1 / 3 * Real.arccos (-q / 2 / r ^ 3))) -
      r * Real.cos (1 / 3 * Real.arccos (-q / 2 / r ^ 3)) * r ^ 2) / r ^ 2 = (w ^ 2 - α) / 2 := by
    have e1 : r * Real.cos (1 / 3 * Real.arccos (-q / 2 / r ^ 3)) = v / 2 := by
      rw [← hcos]; ring
    have e2 : p = -3 * r ^ 2 := by rw [hr2]; ring
    rw [e1, e2, hv]
    field_simp
    ring
  have hwy : α + 2 * ((w ^ 2 - α) / 2) = w ^ 2 := by ring
  have hbw : -3 * α - 2 * ((w ^ 2 - α) / 2) + 2 * β / w = (x2 - x3) ^ 2 := by
    rw [eq_comm, ← sub_eq_zero]
    have : ((x2 - x3) ^ 2 - (-3 * α - 2 * ((w ^ 2 - α) / 2))) * w - 2 * β = 0 := by
      rw [hα, hβ, hw, hB, hC, hD]; ring
    field_simp
    linarith
  rw [quarticRoots]
  simp only [← hα, ← hβ, ← hγ, ← hp, ← hq, hh, hth2, hs6, Real.sqrt_sq hr0.le, hy, hwy,
    Real.sqrt_sq hwpos.le, hbw, Real.sqrt_sq (sub_nonneg.2 h23)]
  rw [if_neg]
  · congr 2
    · rw [hB, hw]; ring
    · rw [hB, hw]; ring
  · simp only [not_or, not_le, not_lt]
    exact ⟨by positivity, habs, by positivity, by positivity⟩

theorem quarticRoots_none {B C D E x0 x1 x2 x3 : ℝ}
    (h : ∀ x : ℝ, x ^ 4 + B * x ^ 3 + C * x ^ 2 + D * x + E =
      (x - x0) * (x - x1) * (x - x2) * (x - x3))
    (hne : (x0 = x1 ∧ x1 = x2) ∨ (x1 = x2 ∧ x2 = x3)) :
    quarticRoots B C D E = none := by
  obtain ⟨hB, hC, hD, hE⟩ := quartic_coeffs h
  rw [quarticRoots]
  apply if_pos
  left
  have : -((-0.375 * (B * B) + C) * (-0.375 * (B * B) + C)) / 12 -
      (-0.01171875 * (B * B * B * B) + B * B * C / 16 - B * D / 4 + E) = 0 := by
    rw [hB, hC, hD, hE]
    rcases hne with ⟨rfl, rfl⟩ | ⟨rfl, rfl⟩ <;> ring
  rw [this]
  norm_num

end OpenGV
