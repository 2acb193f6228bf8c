import Verif.Proof.EpnpExact

/-!
# The second and third approximation of EPnP on exact data
-/

namespace OpenGV

open Matrix Spec

/-- The least-squares solution of a solvable system with independent columns. -/
theorem leastSquares_unique {m n : ℕ} {M : Matrix (Fin m) (Fin n) ℝ} {b : Fin m → ℝ} {x y : Fin n → ℝ}
    (hinj : ∀ d, M *ᵥ d = 0 → d = 0) (hls : IsLeastSquares M b x) (hy : M *ᵥ y = b) : x = y := by
  rw [← sub_eq_zero]
  apply hinj
  have h3 : ∀ j, (fun i => M i j) ⬝ᵥ (M *ᵥ (x - y)) = 0 := by
    intro j
    have := hls j
    rw [mulVec_sub, hy, ← neg_sub, dotProduct_neg, this, neg_zero]
  have h4 : (M *ᵥ (x - y)) ⬝ᵥ (M *ᵥ (x - y)) = 0 := by
    rw [mulVec_dot_cols]
    exact Finset.sum_eq_zero fun j _ => by rw [h3 j, mul_zero]
  exact dotProduct_self_eq_zero.1 h4

theorem sqrt_mul_self_cases (x : ℝ) : √(x * x) = |x| := Real.sqrt_mul_self_eq_abs x

theorem epnpApprox2_square (x y : ℝ) : epnpApprox2 ![x * x, x * y, y * y] = ![x, y, 0, 0] ∨
    epnpApprox2 ![x * x, x * y, y * y] = ![-x, -y, 0, 0] := by
  have e1 : (if y * y > 0 then √(y * y) else 0) = |y| := by
    split_ifs with h
    · exact sqrt_mul_self_cases y
    · have : y = 0 := by nlinarith [mul_self_nonneg y]
      rw [this, abs_zero]
  have hx : ¬ x * x < 0 := not_lt.2 (mul_self_nonneg x)
  have e2 : epnpApprox2 ![x * x, x * y, y * y] = ![if x * y < 0 then -|x| else |x|, |y|, 0, 0] := by
    show ![if x * y < 0 then -(if x * x < 0 then _ else √(x * x)) else (if x * x < 0 then _ else √(x * x)),
      if x * x < 0 then _ else (if y * y > 0 then √(y * y) else 0), 0, 0] = _
    rw [if_neg hx, if_neg hx, e1, sqrt_mul_self_cases]
  rw [e2]
  rcases lt_trichotomy x 0 with h | h | h <;> rcases lt_trichotomy y 0 with h' | h' | h'
  · right; rw [if_neg (by nlinarith), abs_of_neg h, abs_of_neg h']
  · right; rw [if_neg (by rw [h']; simp), abs_of_neg h, h']; simp
  · left; rw [if_pos (by nlinarith), abs_of_neg h, abs_of_pos h', neg_neg]
  · right; rw [if_neg (by rw [h]; simp), abs_of_neg h', h]; simp
  · left; rw [h, h']; simp
  · left; rw [if_neg (by rw [h]; simp), abs_of_pos h', h]; simp
  · right; rw [if_pos (by nlinarith), abs_of_pos h, abs_of_neg h']
  · left; rw [if_neg (by rw [h']; simp), abs_of_pos h, h']; simp
  · left; rw [if_neg (by nlinarith), abs_of_pos h, abs_of_pos h']

theorem epnpApprox2_negated (x y : ℝ) (h : x * y ≠ 0) :
    epnpApprox2 ![-(x * x), -(x * y), -(y * y)] 0 * epnpApprox2 ![-(x * x), -(x * y), -(y * y)] 1 =
      -(x * y) := by
  have hx : x ≠ 0 := left_ne_zero_of_mul h
  have hy : y ≠ 0 := right_ne_zero_of_mul h
  have hx2 : -(x * x) < 0 := neg_neg_of_pos (mul_self_pos.2 hx)
  have hy2 : -(y * y) < 0 := neg_neg_of_pos (mul_self_pos.2 hy)
  show (if -(x * y) < 0 then -(if -(x * x) < 0 then √(- -(x * x)) else _) else
    (if -(x * x) < 0 then √(- -(x * x)) else _)) *
    (if -(x * x) < 0 then (if -(y * y) < 0 then √(- -(y * y)) else 0) else _) = _
  rw [if_pos hx2, if_pos hx2, if_pos hy2, neg_neg, neg_neg, sqrt_mul_self_cases, sqrt_mul_self_cases]
  split_ifs with h1
  · rw [neg_mul, ← abs_mul, abs_of_pos (by linarith)]
  · have : x * y < 0 := lt_of_le_of_ne (by linarith) h
    rw [← abs_mul, abs_of_neg this]

theorem epnpApprox1_square (x y z w s : ℝ) (hx : x ≠ 0) (hs : s = 1 ∨ s = -1) :
    epnpApprox1 ![s * (x * x), s * (x * y), s * (x * z), s * (x * w)] = some ![x, y, z, w] ∨
      epnpApprox1 ![s * (x * x), s * (x * y), s * (x * z), s * (x * w)] = some ![-x, -y, -z, -w] := by
  have hx2 : 0 < x * x := mul_self_pos.2 hx
  have key : epnpApprox1 ![s * (x * x), s * (x * y), s * (x * z), s * (x * w)] =
      some ![|x|, x * y / |x|, x * z / |x|, x * w / |x|] := by
    rcases hs with rfl | rfl
    · show (if 1 * (x * x) < 0 then _ else if √(1 * (x * x)) = 0 then none else
        some ![√(1 * (x * x)), 1 * (x * y) / √(1 * (x * x)), 1 * (x * z) / √(1 * (x * x)),
          1 * (x * w) / √(1 * (x * x))]) = _
      rw [if_neg (by linarith), one_mul, one_mul, one_mul, one_mul, sqrt_mul_self_cases,
        if_neg (abs_ne_zero.2 hx)]
    · show (if -1 * (x * x) < 0 then some ![√(-(-1 * (x * x))), -(-1 * (x * y)) / √(-(-1 * (x * x))),
        -(-1 * (x * z)) / √(-(-1 * (x * x))), -(-1 * (x * w)) / √(-(-1 * (x * x)))] else _) = _
      have e : ∀ t : ℝ, -(-1 * t) = t := fun t => by ring
      rw [if_pos (by linarith), e, e, e, e, sqrt_mul_self_cases]
  rw [key]
  rcases abs_choice x with h | h
  · left
    rw [h, mul_div_cancel_left₀ _ hx, mul_div_cancel_left₀ _ hx, mul_div_cancel_left₀ _ hx]
  · right
    rw [h, div_neg, div_neg, div_neg, mul_div_cancel_left₀ _ hx, mul_div_cancel_left₀ _ hx,
      mul_div_cancel_left₀ _ hx]

theorem epnpApprox3_eq (b : Fin 5 → ℝ) (h : epnpApprox2 ![b 0, b 1, b 2] 0 ≠ 0) :
    epnpApprox3 b = some ![epnpApprox2 ![b 0, b 1, b 2] 0, epnpApprox2 ![b 0, b 1, b 2] 1,
      b 3 / epnpApprox2 ![b 0, b 1, b 2] 0, 0] := by
  show (if epnpApprox2 ![b 0, b 1, b 2] 0 = 0 then none else _) = _
  rw [if_neg h]
  rfl

theorem epnpApprox3_square (x y z : ℝ) (hx : x ≠ 0) :
    epnpApprox3 ![x * x, x * y, y * y, x * z, y * z] = some ![x, y, z, 0] ∨
      epnpApprox3 ![x * x, x * y, y * y, x * z, y * z] = some ![-x, -y, -z, 0] := by
  rcases epnpApprox2_square x y with h | h
  · left
    have h0 : epnpApprox2 ![x * x, x * y, y * y] 0 = x := by rw [h]; rfl
    have h1 : epnpApprox2 ![x * x, x * y, y * y] 1 = y := by rw [h]; rfl
    have := epnpApprox3_eq ![x * x, x * y, y * y, x * z, y * z] (by
      show epnpApprox2 ![x * x, x * y, y * y] 0 ≠ 0
      rwa [h0])
    refine this.trans ?_
    show some ![epnpApprox2 ![x * x, x * y, y * y] 0, epnpApprox2 ![x * x, x * y, y * y] 1,
      x * z / epnpApprox2 ![x * x, x * y, y * y] 0, 0] = _
    rw [h0, h1, mul_div_cancel_left₀ z hx]
  · right
    have h0 : epnpApprox2 ![x * x, x * y, y * y] 0 = -x := by rw [h]; rfl
    have h1 : epnpApprox2 ![x * x, x * y, y * y] 1 = -y := by rw [h]; rfl
    have := epnpApprox3_eq ![x * x, x * y, y * y, x * z, y * z] (by
      show epnpApprox2 ![x * x, x * y, y * y] 0 ≠ 0
      rwa [h0, neg_ne_zero])
    refine this.trans ?_
    show some ![epnpApprox2 ![x * x, x * y, y * y] 0, epnpApprox2 ![x * x, x * y, y * y] 1,
      x * z / epnpApprox2 ![x * x, x * y, y * y] 0, 0] = _
    rw [h0, h1, div_neg, mul_div_cancel_left₀ z hx]

theorem epnpL3_mulVec (L : Matrix (Fin 6) (Fin 10) ℝ) (b : Fin 3 → ℝ) (i : Fin 6) :
    (epnpL3 L *ᵥ b) i = L i 0 * b 0 + L i 1 * b 1 + L i 2 * b 2 := by
  unfold mulVec
  rw [dotProduct, Fin.sum_univ_three]
  rfl

theorem epnpL5_mulVec (L : Matrix (Fin 6) (Fin 10) ℝ) (b : Fin 5 → ℝ) (i : Fin 6) :
    (epnpL5 L *ᵥ b) i = L i 0 * b 0 + L i 1 * b 1 + L i 2 * b 2 + L i 3 * b 3 + L i 4 * b 4 := by
  unfold mulVec
  rw [dotProduct, Fin.sum_univ_five]
  rfl

theorem epnpL_two (U : Matrix (Fin 12) (Fin 12) ℝ) (x y : ℝ) (i : Fin 6) :
    epnpRho (epnpCcs U ![x, y, 0, 0]) i =
      epnpL U i 0 * (x * x) + epnpL U i 1 * (x * y) + epnpL U i 2 * (y * y) := by
  rw [← epnpL_dist, epnpL_row]
  show _ * (x * x) + _ * (x * y) + _ * (y * y) + _ * (x * 0) + _ * (y * 0) + _ * (0 * 0) +
    _ * (x * 0) + _ * (y * 0) + _ * (0 * 0) + _ * (0 * 0) = epnpDv U 0 i ⬝ᵥ epnpDv U 0 i * (x * x) +
      2 * (epnpDv U 0 i ⬝ᵥ epnpDv U 1 i) * (x * y) + epnpDv U 1 i ⬝ᵥ epnpDv U 1 i * (y * y)
  ring

theorem epnpApprox2_exact {U : Matrix (Fin 12) (Fin 12) ℝ} {x y : ℝ} {b3 : Fin 3 → ℝ}
    (hinj : ∀ d, epnpL3 (epnpL U) *ᵥ d = 0 → d = 0)
    (hls : IsLeastSquares (epnpL3 (epnpL U)) (epnpRho (epnpCcs U ![x, y, 0, 0])) b3) :
    epnpApprox2 b3 = ![x, y, 0, 0] ∨ epnpApprox2 b3 = ![-x, -y, 0, 0] := by
  have : b3 = ![x * x, x * y, y * y] := by
    refine leastSquares_unique hinj hls ?_
    funext i
    rw [epnpL3_mulVec, epnpL_two]
    rfl
  rw [this]
  exact epnpApprox2_square x y

theorem epnpApprox3_exact {U : Matrix (Fin 12) (Fin 12) ℝ} {x y : ℝ} {b5 : Fin 5 → ℝ} (hx : x ≠ 0)
    (hinj : ∀ d, epnpL5 (epnpL U) *ᵥ d = 0 → d = 0)
    (hls : IsLeastSquares (epnpL5 (epnpL U)) (epnpRho (epnpCcs U ![x, y, 0, 0])) b5) :
    epnpApprox3 b5 = some ![x, y, 0, 0] ∨ epnpApprox3 b5 = some ![-x, -y, 0, 0] := by
  have : b5 = ![x * x, x * y, y * y, x * 0, y * 0] := by
    refine leastSquares_unique hinj hls ?_
    funext i
    rw [epnpL5_mulVec, epnpL_two]
    show _ * (x * x) + _ * (x * y) + _ * (y * y) + _ * (x * 0) + _ * (y * 0) = _
    ring
  rw [this]
  simpa using epnpApprox3_square x y 0 hx

/-- Singular vectors for which the columns of the systems are independent. -/
def epnpTwoU : Matrix (Fin 12) (Fin 12) ℝ := Matrix.of fun c r =>
  if (c, r) = (3, 11) ∨ (c, r) = (6, 10) ∨ (c, r) = (9, 9) then 1 else 0

theorem epnpTwoU_dv : ∀ i k, epnpDv epnpTwoU 0 i k = (![-1, 0, 0, 1, 1, 0] : Fin 6 → ℝ) i *
      (![1, 0, 0] : Vec3) k ∧
    epnpDv epnpTwoU 1 i k = (![0, -1, 0, -1, 0, 1] : Fin 6 → ℝ) i * (![1, 0, 0] : Vec3) k ∧
    epnpDv epnpTwoU 2 i k = (![0, 0, -1, 0, -1, -1] : Fin 6 → ℝ) i * (![1, 0, 0] : Vec3) k := by
  intro i k
  fin_cases i <;> fin_cases k <;> simp [epnpDv, epnpV, epnpPair, idx12, epnpTwoU]

theorem epnpTwoU_inj5 : ∀ d, epnpL5 (epnpL epnpTwoU) *ᵥ d = 0 → d = 0 := by
  intro d hd
  have h : ∀ i, epnpL epnpTwoU i 0 * d 0 + epnpL epnpTwoU i 1 * d 1 + epnpL epnpTwoU i 2 * d 2 +
      epnpL epnpTwoU i 3 * d 3 + epnpL epnpTwoU i 4 * d 4 = 0 := by
    intro i
    rw [← epnpL5_mulVec, hd]
    rfl
  have e0 : ∀ i, epnpDv epnpTwoU 0 i = fun k => (![-1, 0, 0, 1, 1, 0] : Fin 6 → ℝ) i *
    (![1, 0, 0] : Vec3) k := fun i => funext fun k => (epnpTwoU_dv i k).1
  have e1 : ∀ i, epnpDv epnpTwoU 1 i = fun k => (![0, -1, 0, -1, 0, 1] : Fin 6 → ℝ) i *
    (![1, 0, 0] : Vec3) k := fun i => funext fun k => (epnpTwoU_dv i k).2.1
  have e2 : ∀ i, epnpDv epnpTwoU 2 i = fun k => (![0, 0, -1, 0, -1, -1] : Fin 6 → ℝ) i *
    (![1, 0, 0] : Vec3) k := fun i => funext fun k => (epnpTwoU_dv i k).2.2
  have h0 := h 0
  have h1 := h 1
  have h3 := h 3
  have h4 := h 4
  have h5 := h 5
  simp [epnpL, e0, e1, e2, dotProduct, Fin.sum_univ_three] at h0 h1 h3 h4 h5
  funext i
  fin_cases i
  · show d 0 = 0; linarith
  · show d 1 = 0; linarith
  · show d 2 = 0; linarith
  · show d 3 = 0; linarith
  · show d 4 = 0; linarith

theorem epnpTwoU_inj3 : ∀ d, epnpL3 (epnpL epnpTwoU) *ᵥ d = 0 → d = 0 := by
  intro d hd
  have h : (![d 0, d 1, d 2, 0, 0] : Fin 5 → ℝ) = 0 := by
    apply epnpTwoU_inj5
    funext i
    have := congrFun hd i
    rw [epnpL3_mulVec] at this
    rw [epnpL5_mulVec]
    show _ * d 0 + _ * d 1 + _ * d 2 + _ * 0 + _ * 0 = 0
    rw [mul_zero, mul_zero, add_zero, add_zero]
    exact this
  funext i
  fin_cases i
  · exact congrFun h 0
  · exact congrFun h 1
  · exact congrFun h 2

end OpenGV
