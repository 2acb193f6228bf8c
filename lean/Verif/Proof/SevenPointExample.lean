import Verif.Proof.SevenPoint

namespace OpenGV

open Matrix Spec

/-- Seven correspondences whose null space are the diagonal matrices of trace zero. -/
def sevenExample : List (Vec3 × Vec3) :=
  [(![1, 0, 0], ![0, 1, 0]), (![1, 0, 0], ![0, 0, 1]), (![0, 1, 0], ![1, 0, 0]),
    (![0, 1, 0], ![0, 0, 1]), (![0, 0, 1], ![1, 0, 0]), (![0, 0, 1], ![0, 1, 0]),
    (![1, 1, 1], ![1, 1, 1])]

theorem sevenExample_iff (F : Mat3) : (∀ c ∈ sevenExample, c.1 ⬝ᵥ (F *ᵥ c.2) = 0) ↔
    F 0 1 = 0 ∧ F 0 2 = 0 ∧ F 1 0 = 0 ∧ F 1 2 = 0 ∧ F 2 0 = 0 ∧ F 2 1 = 0 ∧
      F 0 0 + F 1 1 + F 2 2 = 0 := by
  simp [sevenExample, dot3, mulVec3]
  intro h1 h2 h3 h4 h5 h6
  rw [h1, h2, h3, h4, h5, h6]
  ring_nf

theorem sevenExample_kernel (F : Mat3) (h : ∀ c ∈ sevenExample, c.1 ⬝ᵥ (F *ᵥ c.2) = 0) :
    ∃ a b : ℝ, F = a • diagonal ![1, 0, -1] + b • diagonal ![0, 1, -1] := by
  obtain ⟨h1, h2, h3, h4, h5, h6, h7⟩ := (sevenExample_iff F).1 h
  refine ⟨F 0 0, F 1 1, ?_⟩
  apply mat3_ext <;> simp [h1, h2, h3, h4, h5, h6]
  linarith

theorem sevenExample_sol (d : Vec3) (h : d 0 + d 1 + d 2 = 0) :
    ∀ c ∈ sevenExample, c.1 ⬝ᵥ ((diagonal d) *ᵥ c.2) = 0 := by
  rw [sevenExample_iff]
  simpa using h

theorem gram_entry {m n : ℕ} (A : Matrix (Fin m) (Fin n) ℝ) (V : Matrix (Fin n) (Fin n) ℝ)
    (j l : Fin n) : (V.transpose * (A.transpose * A) * V) j l =
      (A *ᵥ fun i => V i j) ⬝ᵥ (A *ᵥ fun i => V i l) := by
  rw [show V.transpose * (A.transpose * A) * V = (A * V).transpose * (A * V) by
    rw [transpose_mul]; simp only [Matrix.mul_assoc]]
  rfl

/-- Right singular vectors of a matrix with seven rows, nine columns and a kernel of dimension two,
with a prescribed basis of the kernel. -/
theorem svd_prescribed {m : ℕ} (hm : m ≤ 7) {A : Matrix (Fin m) (Fin 9) ℝ} {u v : Fin 9 → ℝ} (hu : u ⬝ᵥ u = 1)
    (hv : v ⬝ᵥ v = 1) (huv : u ⬝ᵥ v = 0) (hAu : A *ᵥ u = 0) (hAv : A *ᵥ v = 0)
    (hker : ∀ x, A *ᵥ x = 0 → ∃ a b : ℝ, x = a • u + b • v) :
    ∃ V σ, IsRightSvd A V σ ∧ (fun i => V i 8) = u ∧ (fun i => V i 7) = v := by
  obtain ⟨V0, σ, h⟩ := exists_rightSvd A
  have s7 := svd_sigma_wide h 7 hm
  have s8 := svd_sigma_wide h 8 (hm.trans (by decide))
  have k7 := svd_kernel_wide h 7 hm
  have k8 := svd_kernel_wide h 8 (hm.trans (by decide))
  have o : ∀ j l : Fin 9, (fun i => V0 i j) ⬝ᵥ (fun i => V0 i l) = (1 : Matrix _ _ ℝ) j l := by
    intro j l
    rw [← h.orth]; rfl
  obtain ⟨a7, b7, e7⟩ := hker _ k7
  obtain ⟨a8, b8, e8⟩ := hker _ k8
  -- the two bases are related by an orthogonal 2x2 matrix
  have d77 := o 7 7
  have d88 := o 8 8
  have d78 := o 7 8
  rw [e7] at d77 d78
  rw [e8] at d88 d78
  simp only [add_dotProduct, dotProduct_add, smul_dotProduct, dotProduct_smul, hu, hv, huv,
    dotProduct_comm v u, smul_eq_mul] at d77 d88 d78
  simp at d77 d88 d78
  have hdet : a7 * b8 - a8 * b7 ≠ 0 := by
    intro hd
    have : (a7 * b8 - a8 * b7) ^ 2 = 1 := by
      linear_combination (a8 * a8 + b8 * b8) * d77 + d88 - (a7 * a8 + b7 * b8) * d78
    rw [hd] at this; norm_num at this
  have ou : ∀ j : Fin 9, j ≠ 7 → j ≠ 8 → (fun i => V0 i j) ⬝ᵥ u = 0 ∧
      (fun i => V0 i j) ⬝ᵥ v = 0 := by
    intro j h7 h8
    have f7 := o j 7
    have f8 := o j 8
    rw [e7] at f7
    rw [e8] at f8
    simp only [dotProduct_add, dotProduct_smul, smul_eq_mul, Matrix.one_apply, if_neg h7,
      if_neg h8] at f7 f8
    constructor
    · apply mul_left_cancel₀ hdet
      linear_combination b8 * f7 - b7 * f8
    · apply mul_left_cancel₀ hdet
      linear_combination a7 * f8 - a8 * f7
  set c : Fin 9 → Fin 9 → ℝ := fun j => if j = 8 then u else if j = 7 then v else fun i => V0 i j
    with hc
  have c8 : c 8 = u := by simp [hc]
  have c7 : c 7 = v := by simp [hc]
  have cj : ∀ j, j ≠ 7 → j ≠ 8 → c j = fun i => V0 i j := by
    intro j h7 h8; simp [hc, h7, h8]
  set V : Matrix (Fin 9) (Fin 9) ℝ := Matrix.of fun i j => c j i with hV
  have gram0 : ∀ j l : Fin 9, (A *ᵥ fun i => V0 i j) ⬝ᵥ (A *ᵥ fun i => V0 i l) =
      diagonal (fun i => σ i ^ 2) j l := by
    intro j l
    rw [← h.gram, gram_entry]
  refine ⟨V, σ, ⟨?_, ?_, h.nonneg, h.anti⟩, ?_, ?_⟩
  · ext j l
    have : (V.transpose * V) j l = c j ⬝ᵥ c l := rfl
    rw [this]
    by_cases j7 : j = 7
    · subst j7
      by_cases l7 : l = 7
      · subst l7; rw [c7, hv]; simp
      · by_cases l8 : l = 8
        · subst l8; rw [c7, c8, dotProduct_comm, huv]; simp
        · rw [c7, cj l l7 l8, dotProduct_comm, (ou l l7 l8).2, Matrix.one_apply, if_neg (Ne.symm l7)]
    · by_cases j8 : j = 8
      · subst j8
        by_cases l7 : l = 7
        · subst l7; rw [c7, c8, huv]; simp
        · by_cases l8 : l = 8
          · subst l8; rw [c8, hu]; simp
          · rw [c8, cj l l7 l8, dotProduct_comm, (ou l l7 l8).1, Matrix.one_apply,
              if_neg (Ne.symm l8)]
      · rw [cj j j7 j8]
        by_cases l7 : l = 7
        · subst l7; rw [c7, (ou j j7 j8).2, Matrix.one_apply, if_neg j7]
        · by_cases l8 : l = 8
          · subst l8; rw [c8, (ou j j7 j8).1, Matrix.one_apply, if_neg j8]
          · rw [cj l l7 l8, o]
  · have z8 : A *ᵥ c 8 = 0 := by rw [c8, hAu]
    have z7 : A *ᵥ c 7 = 0 := by rw [c7, hAv]
    ext j l
    have : (V.transpose * (A.transpose * A) * V) j l = (A *ᵥ c j) ⬝ᵥ (A *ᵥ c l) :=
      gram_entry A V j l
    rw [this]
    by_cases j7 : j = 7
    · subst j7; rw [z7, zero_dotProduct, diagonal_apply]; split <;> simp [s7]
    · by_cases j8 : j = 8
      · subst j8; rw [z8, zero_dotProduct, diagonal_apply]; split <;> simp [s8]
      · by_cases l7 : l = 7
        · subst l7; rw [z7, dotProduct_zero, diagonal_apply, if_neg j7]
        · by_cases l8 : l = 8
          · subst l8; rw [z8, dotProduct_zero, diagonal_apply, if_neg j8]
          · rw [cj j j7 j8, cj l l7 l8, gram0]
  · funext i; exact congrFun c8 i
  · funext i; exact congrFun c7 i

theorem vec9_dot (F G : Mat3) : vec9 F ⬝ᵥ vec9 G = F 0 0 * G 0 0 + F 0 1 * G 0 1 + F 0 2 * G 0 2 +
    F 1 0 * G 1 0 + F 1 1 * G 1 1 + F 1 2 * G 1 2 + F 2 0 * G 2 0 + F 2 1 * G 2 1 + F 2 2 * G 2 2 := by
  simp only [dotProduct, vec9, Fin.sum_univ_succ, Fin.sum_univ_zero]
  simp
  ring

theorem sevenExample_svd (a b c d : ℝ) (h1 : 0 < a ^ 2 + b ^ 2 + (a + b) ^ 2)
    (h2 : 0 < c ^ 2 + d ^ 2 + (c + d) ^ 2) (h : a * c + b * d + (a + b) * (c + d) = 0) :
    ∃ V σ, IsRightSvd (epipolarA sevenExample) V σ ∧
      (unvec fun i => V i 8) = (√(a ^ 2 + b ^ 2 + (a + b) ^ 2))⁻¹ • diagonal ![a, b, -(a + b)] ∧
      (unvec fun i => V i 7) = (√(c ^ 2 + d ^ 2 + (c + d) ^ 2))⁻¹ • diagonal ![c, d, -(c + d)] := by
  set n1 := (√(a ^ 2 + b ^ 2 + (a + b) ^ 2))⁻¹ with hn1
  set n2 := (√(c ^ 2 + d ^ 2 + (c + d) ^ 2))⁻¹ with hn2
  have q1 : n1 ^ 2 * (a ^ 2 + b ^ 2 + (a + b) ^ 2) = 1 := by
    rw [hn1, inv_pow, Real.sq_sqrt h1.le, inv_mul_cancel₀ h1.ne']
  have q2 : n2 ^ 2 * (c ^ 2 + d ^ 2 + (c + d) ^ 2) = 1 := by
    rw [hn2, inv_pow, Real.sq_sqrt h2.le, inv_mul_cancel₀ h2.ne']
  have p1 : n1 ≠ 0 := by rintro e; rw [e] at q1; norm_num at q1
  have p2 : n2 ≠ 0 := by rintro e; rw [e] at q2; norm_num at q2
  clear_value n1 n2
  have hdet : a * d - b * c ≠ 0 := by
    intro e
    have : (a ^ 2 + b ^ 2 + (a + b) ^ 2) * (c ^ 2 + d ^ 2 + (c + d) ^ 2) =
      (a * c + b * d + (a + b) * (c + d)) ^ 2 + 3 * (a * d - b * c) ^ 2 := by ring
    rw [h, e] at this
    have := mul_pos h1 h2
    linarith
  obtain ⟨V, σ, g1, g2, g3⟩ := svd_prescribed (by decide) (A := epipolarA sevenExample)
    (u := vec9 (n1 • diagonal ![a, b, -(a + b)])) (v := vec9 (n2 • diagonal ![c, d, -(c + d)]))
    (by rw [vec9_dot]; simp; linear_combination q1) (by rw [vec9_dot]; simp; linear_combination q2)
    (by rw [vec9_dot]; simp; linear_combination n1 * n2 * h)
    (by rw [epipolarA_mulVec, unvec_vec9, sevenExample_iff]; simp; ring)
    (by rw [epipolarA_mulVec, unvec_vec9, sevenExample_iff]; simp; ring)
    (by
      intro x hx
      rw [epipolarA_mulVec, sevenExample_iff] at hx
      obtain ⟨h1, h2, h3, h4, h5, h6, h7⟩ := hx
      set F := unvec x with hF
      obtain ⟨D, hD⟩ : ∃ D, D = a * d - b * c := ⟨_, rfl⟩
      rw [← hD] at hdet
      refine ⟨(F 0 0 * d - F 1 1 * c) / (n1 * D), (a * F 1 1 - b * F 0 0) / (n2 * D), ?_⟩
      rw [← vec9_unvec x, ← hF]
      have h8 : F 2 2 = -(F 0 0 + F 1 1) := by linarith
      funext i
      fin_cases i <;> simp [vec9, h1, h2, h3, h4, h5, h6, h8]
      · field_simp; rw [hD]; ring
      · field_simp; rw [hD]; ring
      · field_simp; rw [hD]; ring)
  exact ⟨V, σ, g1, by rw [g2, unvec_vec9], by rw [g3, unvec_vec9]⟩

end OpenGV
