import Verif.Proof.Kneip
import Verif.Props.Arun

/-!
# Helper lemmas for Gao's P3P
-/

namespace OpenGV

open Matrix

/-- The value of the quartic built by the solver. -/
def gaoQuartic (k : GaoData) (x : ℝ) : ℝ :=
  gaoFactors k 0 * x ^ 4 + gaoFactors k 1 * x ^ 3 + gaoFactors k 2 * x ^ 2 +
    gaoFactors k 3 * x + gaoFactors k 4

def gaoTemp (k : GaoData) : ℝ :=
  k.p * k.p * (k.a - 1 + k.b) + k.p * k.q * k.r - k.q * k.a * k.r * k.p +
    (k.a - 1 - k.b) * (k.r * k.r)

theorem gaoQuartic_eq (k : GaoData) (x : ℝ) :
    gaoQuartic k x = gaoPart1 k x ^ 2 - k.b * k.r * x * gaoPart1 k x * (k.p - k.r * x) -
      k.b * (k.p - k.r * x) ^ 2 * ((1 - k.b) * x ^ 2 - k.q * x + 1) := by
  simp only [gaoQuartic, gaoFactors, gaoPart1, cons_val]
  ring

theorem gaoPart2_eq (k : GaoData) (x : ℝ) :
    gaoPart2 k x * (k.p - k.r * x) = gaoTemp k ^ 2 - k.r ^ 4 * gaoQuartic k x := by
  simp only [gaoQuartic, gaoFactors, gaoPart2, gaoTemp, cons_val]
  ring

theorem gaoB0_eq (k : GaoData) : gaoB0 k = k.b * gaoTemp k ^ 2 := by
  simp only [gaoB0, gaoTemp]
  ring

/-- The equations for the ratios of the depths. -/
structure GaoRatios (k : GaoData) (x y v : ℝ) : Prop where
  hv : v = x ^ 2 + y ^ 2 - k.r * x * y
  ha : k.a * v = y ^ 2 + 1 - k.p * y
  hb : k.b * v = x ^ 2 + 1 - k.q * x

theorem GaoRatios.linear {k : GaoData} {x y v : ℝ} (h : GaoRatios k x y v) :
    y * (k.b * (k.p - k.r * x)) = gaoPart1 k x := by
  have ha := h.ha
  have hb := h.hb
  rw [h.hv] at ha hb
  unfold gaoPart1
  linear_combination k.b * ha + (1 - k.a) * hb

theorem GaoRatios.root {k : GaoData} {x y v : ℝ} (h : GaoRatios k x y v) :
    gaoQuartic k x = 0 := by
  rw [gaoQuartic_eq, ← h.linear]
  have hb := h.hb
  rw [h.hv] at hb
  linear_combination k.b * (k.p - k.r * x) ^ 2 * hb

theorem GaoRatios.y_eq {k : GaoData} {x y v : ℝ} (h : GaoRatios k x y v) (h0 : gaoB0 k ≠ 0) :
    gaoPart1 k x * gaoPart2 k x / gaoB0 k = y := by
  rw [div_eq_iff h0, ← h.linear, gaoB0_eq]
  have := gaoPart2_eq k x
  rw [h.root] at this
  linear_combination y * k.b * this

/-- A root of the quartic gives a solution of the equations. -/
theorem gao_ratios_of_root {k : GaoData} {x : ℝ} (h0 : gaoB0 k ≠ 0) (hx : gaoQuartic k x = 0) :
    GaoRatios k x (gaoPart1 k x * gaoPart2 k x / gaoB0 k)
      (x ^ 2 + (gaoPart1 k x * gaoPart2 k x / gaoB0 k) ^ 2 -
        k.r * x * (gaoPart1 k x * gaoPart2 k x / gaoB0 k)) := by
  have hb : k.b ≠ 0 := by
    intro e; apply h0; rw [gaoB0_eq, e, zero_mul]
  have hlin : gaoPart1 k x * gaoPart2 k x / gaoB0 k * (k.b * (k.p - k.r * x)) = gaoPart1 k x := by
    have := gaoPart2_eq k x
    rw [hx] at this
    rw [div_mul_eq_mul_div, div_eq_iff h0, gaoB0_eq]
    linear_combination gaoPart1 k x * k.b * this
  have hpr : k.p - k.r * x ≠ 0 := by
    intro e
    have := gaoPart2_eq k x
    rw [hx, e] at this
    apply h0
    rw [gaoB0_eq]
    linear_combination -k.b * this
  generalize gaoPart1 k x * gaoPart2 k x / gaoB0 k = y at hlin ⊢
  rw [gaoQuartic_eq, ← hlin] at hx
  have hB : k.b * (x ^ 2 + y ^ 2 - k.r * x * y) = x ^ 2 + 1 - k.q * x := by
    have : k.b * (k.p - k.r * x) ^ 2 *
        (k.b * (x ^ 2 + y ^ 2 - k.r * x * y) - (x ^ 2 + 1 - k.q * x)) = 0 := by
      linear_combination hx
    rcases mul_eq_zero.1 this with h | h
    · exact absurd h (mul_ne_zero hb (pow_ne_zero 2 hpr))
    · linarith
  refine ⟨rfl, ?_, hB⟩
  have : k.b * (k.a * (x ^ 2 + y ^ 2 - k.r * x * y) - (y ^ 2 + 1 - k.p * y)) = 0 := by
    unfold gaoPart1 at hlin
    linear_combination hlin - (1 - k.a) * hB
  rcases mul_eq_zero.1 this with h | h
  · exact absurd h hb
  · linarith

/-- The depths of a solution of the equations. -/
theorem gaoDepths_eq {k : GaoData} {x y v AB : ℝ} (h : GaoRatios k x y v) (h0 : gaoB0 k ≠ 0)
    (hv : 0 < v) : gaoDepths k AB x = some (x * (AB / √v), y * (AB / √v), AB / √v) := by
  unfold gaoDepths
  rw [if_neg h0]
  simp only [h.y_eq h0]
  have e : x * x + y ^ 2 - k.r * (x * y) = v := by rw [h.hv]; ring
  rw [e, if_neg (not_le.2 hv)]

/-! ### Alignment of three points -/

theorem arun_three {svd : Mat3 → Mat3 × Mat3}
    (hsvd : ∀ H, ∃ σ, Spec.IsSvd H (svd H).1 (svd H).2 σ) {A B C a b c s : Vec3} {Q : Mat3}
    (hQ : IsRot Q) (hA : A = Q *ᵥ a + s) (hB : B = Q *ᵥ b + s) (hC : C = Q *ᵥ c + s) :
    ∃ t R, arunComplete svd [(A, a), (B, b), (C, c)] = some (t, R) ∧ IsRot R ∧
      A = R *ᵥ a + t ∧ B = R *ᵥ b + t ∧ C = R *ᵥ c + t := by
  obtain ⟨t, R, h1, h2, h3, h4⟩ := Props.C23_alignment_optimal svd hsvd [(A, a), (B, b), (C, c)]
    (by simp)
  refine ⟨t, R, h1, ⟨h2, h3⟩, ?_⟩
  have h5 := h4 s Q hQ.1 hQ.2
  simp only [List.map_cons, List.map_nil, List.sum_cons, List.sum_nil, add_zero] at h5
  rw [sub_eq_zero.2 hA, sub_eq_zero.2 hB, sub_eq_zero.2 hC] at h5
  simp only [dotProduct_zero, add_zero] at h5
  have n1 := dot_self_nonneg3 (A - (R *ᵥ a + t))
  have n2 := dot_self_nonneg3 (B - (R *ᵥ b + t))
  have n3 := dot_self_nonneg3 (C - (R *ᵥ c + t))
  refine ⟨?_, ?_, ?_⟩
  · exact sub_eq_zero.1 (dot_self_eq_zero3.1 (by linarith))
  · exact sub_eq_zero.1 (dot_self_eq_zero3.1 (by linarith))
  · exact sub_eq_zero.1 (dot_self_eq_zero3.1 (by linarith))

/-- The frame of two vectors takes them to vectors that depend on the inner products only. -/
theorem frame_coords {u w : Vec3} (h : crossProduct u w ≠ 0) :
    ∃ N : Mat3, IsRot N ∧ N *ᵥ u = ![√(u ⬝ᵥ u), 0, 0] ∧
      N *ᵥ w = ![(u ⬝ᵥ w) / √(u ⬝ᵥ u),
        √((u ⬝ᵥ u) * (w ⬝ᵥ w) - (u ⬝ᵥ w) ^ 2) / √(u ⬝ᵥ u), 0] := by
  have hu : u ≠ 0 := fun e => h (by rw [e]; simp)
  have hn := norm3_pos hu
  obtain ⟨n, hn1⟩ := normalize3_isSome hu
  obtain ⟨-, e, en⟩ := normalize3_eq_some hn1
  have hc : crossProduct n w ≠ 0 := by
    rw [e, map_smul, LinearMap.smul_apply]
    exact smul_ne_zero (inv_ne_zero hn.ne') h
  obtain ⟨N, hN⟩ := frameOf_some hc
  have s := frameOf_spec en hN
  refine ⟨N, s.rot, ?_, ?_⟩
  · have : u = norm3 u • n := by rw [e, smul_smul, mul_inv_cancel₀ hn.ne', one_smul]
    conv_lhs => rw [this, mulVec_smul, s.fst]
    apply ext3 <;> simp [norm3]
  · rw [s.snd]
    have e1 : n ⬝ᵥ w = u ⬝ᵥ w / √(u ⬝ᵥ u) := by
      rw [e, smul_dotProduct, smul_eq_mul, norm3]; field_simp
    have e2 : norm3 (crossProduct n w) =
        √((u ⬝ᵥ u) * (w ⬝ᵥ w) - (u ⬝ᵥ w) ^ 2) / √(u ⬝ᵥ u) := by
      rw [e, map_smul, LinearMap.smul_apply, norm3_smul, abs_of_pos (inv_pos.2 hn), lagrange]
      unfold norm3
      field_simp
    rw [e1, e2]

/-- Congruent triangles are related by a rigid transformation. -/
theorem congruent_rot {u w u' w' : Vec3} (h : crossProduct u w ≠ 0) (h1 : u ⬝ᵥ u = u' ⬝ᵥ u')
    (h2 : w ⬝ᵥ w = w' ⬝ᵥ w') (h3 : u ⬝ᵥ w = u' ⬝ᵥ w') :
    ∃ Q : Mat3, IsRot Q ∧ u = Q *ᵥ u' ∧ w = Q *ᵥ w' := by
  have h' : crossProduct u' w' ≠ 0 := by
    intro e
    apply h
    rw [← dot_self_eq_zero3, ← lagrange, h1, h2, h3, lagrange, e, dotProduct_zero]
  obtain ⟨N, hN, n1, n2⟩ := frame_coords h
  obtain ⟨M, hM, m1, m2⟩ := frame_coords h'
  refine ⟨N.transpose * M, hN.transpose.mul hM, ?_, ?_⟩
  · rw [← mulVec_mulVec, m1, ← h1, ← n1, rot_transpose_mulVec hN.1]
  · rw [← mulVec_mulVec, m2, ← h1, ← h2, ← h3, ← n2, rot_transpose_mulVec hN.1]

/-! ### The solver -/

/-- The data of a triangle seen from the origin of the camera frame. -/
theorem gaoData_ratios {f1 f2 f3 A B C a b c : Vec3} {l1 l2 l3 : ℝ} (u1 : f1 ⬝ᵥ f1 = 1)
    (u2 : f2 ⬝ᵥ f2 = 1) (u3 : f3 ⬝ᵥ f3 = 1) (h3 : 0 < l3) (hAB : A - B ≠ 0)
    (ha : a = l1 • f1) (hb : b = l2 • f2) (hc : c = l3 • f3)
    (dAB : (A - B) ⬝ᵥ (A - B) = (a - b) ⬝ᵥ (a - b))
    (dBC : (B - C) ⬝ᵥ (B - C) = (b - c) ⬝ᵥ (b - c))
    (dAC : (A - C) ⬝ᵥ (A - C) = (a - c) ⬝ᵥ (a - c)) :
    GaoRatios (gaoData f1 f2 f3 A B C) (l1 / l3) (l2 / l3) ((norm3 (A - B) / l3) ^ 2) := by
  have hn := (norm3_pos hAB).ne'
  have h3' := h3.ne'
  have e1 : norm3 (A - B) ^ 2 = l1 ^ 2 + l2 ^ 2 - 2 * (f1 ⬝ᵥ f2) * l1 * l2 := by
    rw [norm3_sq, dAB, ha, hb]
    simp only [sub_dotProduct, dotProduct_sub, smul_dotProduct, dotProduct_smul, smul_eq_mul,
      u1, u2, dotProduct_comm f2 f1]
    ring
  have e2 : norm3 (B - C) ^ 2 = l2 ^ 2 + l3 ^ 2 - 2 * (f2 ⬝ᵥ f3) * l2 * l3 := by
    rw [norm3_sq, dBC, hb, hc]
    simp only [sub_dotProduct, dotProduct_sub, smul_dotProduct, dotProduct_smul, smul_eq_mul,
      u3, u2, dotProduct_comm f3 f2]
    ring
  have e3 : norm3 (A - C) ^ 2 = l1 ^ 2 + l3 ^ 2 - 2 * (f1 ⬝ᵥ f3) * l1 * l3 := by
    rw [norm3_sq, dAC, ha, hc]
    simp only [sub_dotProduct, dotProduct_sub, smul_dotProduct, dotProduct_smul, smul_eq_mul,
      u3, u1, dotProduct_comm f3 f1]
    ring
  refine ⟨?_, ?_, ?_⟩
  · simp only [gaoData]
    rw [div_pow, e1]
    field_simp
  · simp only [gaoData]
    have : (norm3 (B - C) / norm3 (A - B)) ^ 2 * (norm3 (A - B) / l3) ^ 2 =
        norm3 (B - C) ^ 2 / l3 ^ 2 := by field_simp
    rw [this, e2]
    field_simp
  · simp only [gaoData]
    have : (norm3 (A - C) / norm3 (A - B)) ^ 2 * (norm3 (A - B) / l3) ^ 2 =
        norm3 (A - C) ^ 2 / l3 ^ 2 := by field_simp
    rw [this, e3]
    field_simp

/-- The shape of the result once a finite pose is returned. -/
theorem p3pGao_shape {svd : Mat3 → Mat3 × Mat3} {f1 f2 f3 A B C : Vec3} {P : Vec3 × Mat3}
    (h : some P ∈ p3pGao svd f1 f2 f3 A B C) :
    A - B ≠ 0 ∧ gaoB0 (gaoData f1 f2 f3 A B C) ≠ 0 ∧ ∃ roots : List ℝ,
      o4Roots (gaoFactors (gaoData f1 f2 f3 A B C) 0) (gaoFactors (gaoData f1 f2 f3 A B C) 1)
        (gaoFactors (gaoData f1 f2 f3 A B C) 2) (gaoFactors (gaoData f1 f2 f3 A B C) 3)
        (gaoFactors (gaoData f1 f2 f3 A B C) 4) = some roots ∧
      p3pGao svd f1 f2 f3 A B C = roots.map fun x =>
        (gaoDepths (gaoData f1 f2 f3 A B C) (norm3 (A - B)) x).bind fun d =>
          arunComplete svd [(A, d.1 • f1), (B, d.2.1 • f2), (C, d.2.2 • f3)] := by
  have hAB : A - B ≠ 0 := by
    intro e
    have : norm3 (A - B) = 0 := by rw [e]; simp [norm3]
    unfold p3pGao at h
    simp only [this] at h
    split_ifs at h <;> simp at h
  have hn := (norm3_pos hAB).ne'
  unfold p3pGao at h ⊢
  simp only [if_neg hn] at h ⊢
  split_ifs at h with h1 h2
  · simp at h
  · simp at h
  rw [if_neg h1, if_neg h2]
  split at h
  · simp at h
  rename_i roots hr
  refine ⟨hAB, ?_, roots, hr, ?_⟩
  · intro e
    obtain ⟨x, -, hx⟩ := List.mem_map.1 h
    rw [gaoDepths, if_pos e] at hx
    cases hx
  · rfl

/-- If a triangle in the camera frame has the right distances then its alignment is returned. -/
theorem p3pGao_of_triangle {svd : Mat3 → Mat3 × Mat3}
    {f1 f2 f3 A B C : Vec3} {l1 l2 l3 : ℝ} {P : Vec3 × Mat3}
    (h : some P ∈ p3pGao svd f1 f2 f3 A B C) (u1 : f1 ⬝ᵥ f1 = 1) (u2 : f2 ⬝ᵥ f2 = 1)
    (u3 : f3 ⬝ᵥ f3 = 1) (h3 : 0 < l3)
    (dAB : (A - B) ⬝ᵥ (A - B) = (l1 • f1 - l2 • f2) ⬝ᵥ (l1 • f1 - l2 • f2))
    (dBC : (B - C) ⬝ᵥ (B - C) = (l2 • f2 - l3 • f3) ⬝ᵥ (l2 • f2 - l3 • f3))
    (dAC : (A - C) ⬝ᵥ (A - C) = (l1 • f1 - l3 • f3) ⬝ᵥ (l1 • f1 - l3 • f3)) :
    arunComplete svd [(A, l1 • f1), (B, l2 • f2), (C, l3 • f3)] ∈ p3pGao svd f1 f2 f3 A B C := by
  obtain ⟨hAB, h0, roots, hr, e⟩ := p3pGao_shape h
  rw [e, List.mem_map]
  have g := gaoData_ratios u1 u2 u3 h3 hAB rfl rfl rfl dAB dBC dAC
  have hn := norm3_pos hAB
  refine ⟨l1 / l3, o4Roots_mem hr g.root, ?_⟩
  rw [gaoDepths_eq g h0 (by positivity), Real.sqrt_sq (by positivity)]
  have e3 : norm3 (A - B) / (norm3 (A - B) / l3) = l3 := by
    have := hn.ne'
    have := h3.ne'
    field_simp
  simp only [Option.bind_some, e3, div_mul_cancel₀ _ h3.ne']

/-- The distances of the camera points of a real root. -/
theorem gaoDepths_dist {f1 f2 f3 A B C : Vec3} {x : ℝ} {d : ℝ × ℝ × ℝ} (hAB : A - B ≠ 0)
    (u1 : f1 ⬝ᵥ f1 = 1) (u2 : f2 ⬝ᵥ f2 = 1) (u3 : f3 ⬝ᵥ f3 = 1)
    (hx : gaoQuartic (gaoData f1 f2 f3 A B C) x = 0)
    (hd : gaoDepths (gaoData f1 f2 f3 A B C) (norm3 (A - B)) x = some d) :
    0 < d.2.2 ∧
    (A - B) ⬝ᵥ (A - B) = (d.1 • f1 - d.2.1 • f2) ⬝ᵥ (d.1 • f1 - d.2.1 • f2) ∧
    (B - C) ⬝ᵥ (B - C) = (d.2.1 • f2 - d.2.2 • f3) ⬝ᵥ (d.2.1 • f2 - d.2.2 • f3) ∧
    (A - C) ⬝ᵥ (A - C) = (d.1 • f1 - d.2.2 • f3) ⬝ᵥ (d.1 • f1 - d.2.2 • f3) := by
  have hn := norm3_pos hAB
  unfold gaoDepths at hd
  split at hd
  · cases hd
  rename_i h0
  have g := gao_ratios_of_root h0 hx
  simp only at hd
  generalize gaoPart1 (gaoData f1 f2 f3 A B C) x * gaoPart2 (gaoData f1 f2 f3 A B C) x /
    gaoB0 (gaoData f1 f2 f3 A B C) = y at hd g
  have ev : x * x + y ^ 2 - (gaoData f1 f2 f3 A B C).r * (x * y) =
    x ^ 2 + y ^ 2 - (gaoData f1 f2 f3 A B C).r * x * y := by ring
  rw [ev] at hd
  split at hd
  · cases hd
  rename_i hv
  have ga := g.ha
  have gb := g.hb
  have gv := g.hv
  generalize hvv : x ^ 2 + y ^ 2 - (gaoData f1 f2 f3 A B C).r * x * y = v at hd hv ga gb gv
  have hv' : 0 < v := not_le.1 hv
  have hs := Real.sqrt_pos.2 hv'
  obtain rfl := Option.some.inj hd
  obtain ⟨Z, hZ⟩ : ∃ Z, Z = norm3 (A - B) / √v := ⟨_, rfl⟩
  have hZ0 : 0 < Z := by rw [hZ]; positivity
  have hZ2 : Z ^ 2 * v = norm3 (A - B) ^ 2 := by
    rw [hZ, div_pow, Real.sq_sqrt hv'.le, div_mul_cancel₀ _ hv'.ne']
  simp only [← hZ]
  refine ⟨hZ0, ?_, ?_, ?_⟩
  · rw [← norm3_sq, ← hZ2, ← hvv]
    simp only [sub_dotProduct, dotProduct_sub, smul_dotProduct, dotProduct_smul, smul_eq_mul,
      u1, u2, dotProduct_comm f2 f1, gaoData]
    ring
  · have : norm3 (B - C) ^ 2 = (gaoData f1 f2 f3 A B C).a * (Z ^ 2 * v) := by
      rw [hZ2]
      simp only [gaoData]
      have := hn.ne'
      field_simp
    rw [← norm3_sq, this]
    have e : (gaoData f1 f2 f3 A B C).a * (Z ^ 2 * v) =
      Z ^ 2 * (y ^ 2 + 1 - (gaoData f1 f2 f3 A B C).p * y) := by rw [← ga]; ring
    rw [e]
    simp only [sub_dotProduct, dotProduct_sub, smul_dotProduct, dotProduct_smul, smul_eq_mul,
      u3, u2, dotProduct_comm f3 f2, gaoData]
    ring
  · have : norm3 (A - C) ^ 2 = (gaoData f1 f2 f3 A B C).b * (Z ^ 2 * v) := by
      rw [hZ2]
      simp only [gaoData]
      have := hn.ne'
      field_simp
    rw [← norm3_sq, this]
    have e : (gaoData f1 f2 f3 A B C).b * (Z ^ 2 * v) =
      Z ^ 2 * (x ^ 2 + 1 - (gaoData f1 f2 f3 A B C).q * x) := by rw [← gb]; ring
    rw [e]
    simp only [sub_dotProduct, dotProduct_sub, smul_dotProduct, dotProduct_smul, smul_eq_mul,
      u3, u1, dotProduct_comm f3 f1, gaoData]
    ring

/-- Three points with given distances, the first triangle not being flat, are aligned exactly. -/
theorem arun_of_dist {svd : Mat3 → Mat3 × Mat3}
    (hsvd : ∀ H, ∃ σ, Spec.IsSvd H (svd H).1 (svd H).2 σ) {A B C a b c : Vec3}
    (hcol : crossProduct (B - A) (C - A) ≠ 0)
    (dAB : (A - B) ⬝ᵥ (A - B) = (a - b) ⬝ᵥ (a - b))
    (dBC : (B - C) ⬝ᵥ (B - C) = (b - c) ⬝ᵥ (b - c))
    (dAC : (A - C) ⬝ᵥ (A - C) = (a - c) ⬝ᵥ (a - c)) :
    ∃ t R, arunComplete svd [(A, a), (B, b), (C, c)] = some (t, R) ∧ IsRot R ∧
      A = R *ᵥ a + t ∧ B = R *ᵥ b + t ∧ C = R *ᵥ c + t := by
  obtain ⟨Q, hQ, q1, q2⟩ := congruent_rot (u' := b - a) (w' := c - a) hcol
    (by rw [← neg_sub A B, ← neg_sub a b, neg_dotProduct_neg, neg_dotProduct_neg, dAB])
    (by rw [← neg_sub A C, ← neg_sub a c, neg_dotProduct_neg, neg_dotProduct_neg, dAC])
    (by
      simp only [sub_dotProduct, dotProduct_sub, dotProduct_comm B A, dotProduct_comm C A,
        dotProduct_comm b a, dotProduct_comm c a, dotProduct_comm C B, dotProduct_comm c b]
        at dAB dBC dAC ⊢
      linarith)
  refine arun_three hsvd hQ (s := A - Q *ᵥ a) (by abel) ?_ ?_
  · rw [mulVec_sub] at q1
    rw [← sub_add_cancel B A, q1]; abel
  · rw [mulVec_sub] at q2
    rw [← sub_add_cancel C A, q2]; abel

theorem pose_unique {R Q : Mat3} {A B C a b c t s : Vec3} (hR : IsRot R) (hQ : IsRot Q)
    (hcol : crossProduct (B - A) (C - A) ≠ 0)
    (a1 : A = R *ᵥ a + t) (a2 : B = R *ᵥ b + t) (a3 : C = R *ᵥ c + t)
    (b1 : A = Q *ᵥ a + s) (b2 : B = Q *ᵥ b + s) (b3 : C = Q *ᵥ c + s) : t = s ∧ R = Q := by
  have r1 : B - A = R *ᵥ (b - a) := by rw [a1, a2, mulVec_sub]; abel
  have r2 : C - A = R *ᵥ (c - a) := by rw [a1, a3, mulVec_sub]; abel
  have q1 : B - A = Q *ᵥ (b - a) := by rw [b1, b2, mulVec_sub]; abel
  have q2 : C - A = Q *ᵥ (c - a) := by rw [b1, b3, mulVec_sub]; abel
  have hne : crossProduct (b - a) (c - a) ≠ 0 := by
    intro e
    apply hcol
    rw [r1, r2, rot_cross hR, e, mulVec_zero]
  have hRQ : R = Q := rot_eq_of_two hR hQ hne (r1 ▸ q1) (r2 ▸ q2)
  refine ⟨?_, hRQ⟩
  rw [hRQ] at a1
  exact add_left_cancel (a1.symm.trans b1)

end OpenGV
