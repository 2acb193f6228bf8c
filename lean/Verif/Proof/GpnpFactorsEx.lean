import Verif.Proof.GpnpFactors

/-!
# Examples for the factors of GPnP, and their dependence on the control points
-/

namespace OpenGV

open Matrix Finset

theorem intPts_eta (c : Fin 4 → Vec3) : ![c 0, c 1, c 2, c 3] = c := by
  funext i
  fin_cases i <;> rfl

theorem Gpnp1.comb_eq (i : Fin 4) : gpnpCcam ((intVec [7, -4, -9, -6, -9, 9, 2, 6, 1, -3, 3, -3]) + (2 : ℝ) • (intVec [-2, 1, 3, 3, 3, -3, -1, -3, 0, 3, 0, 0])) i =
    intPts ptsEx i := by
  funext t
  fin_cases i <;> fin_cases t <;> simp [gpnpCcam, intVec, intPts, ptsEx] <;> norm_num

theorem Gpnp1.run_init : gRun (init (intVec [7, -4, -9, -6, -9, 9, 2, 6, 1, -3, 3, -3]) (intVec [-2, 1, 3, 3, 3, -3, -1, -3, 0, 3, 0, 0])
    (intPts ptsEx 0) (intPts ptsEx 1) (intPts ptsEx 2) (intPts ptsEx 3)) compute =
    gRun (gInit 0 initTerms (gVars (vecsEx.map intVec) (intPts ptsEx))) compute := by
  unfold init
  rw [intPts_eta]
  rfl

theorem Gpnp1.example_factors : ∃ (a v0 : Fin 12 → ℝ) (c : Fin 4 → Vec3) (z0 : ℝ) (fs : List ℝ),
    (∀ i j, (gpnpCcam (a + z0 • v0) i - gpnpCcam (a + z0 • v0) j) ⬝ᵥ
      (gpnpCcam (a + z0 • v0) i - gpnpCcam (a + z0 • v0) j) = (c i - c j) ⬝ᵥ (c i - c j)) ∧
    (gRun (init a v0 (c 0) (c 1) (c 2) (c 3)) compute).bind factors = some fs := by
  obtain ⟨G, hG, h⟩ := runEx
  have hp : ¬ (G 3 1 = 0) := by
    intro e
    · exact h (3, 1) (by simp) e
  have hf : ∃ fs, factors G = some fs := by
    exact ⟨_, if_neg hp⟩
  obtain ⟨fs, hf⟩ := hf
  refine ⟨(intVec [7, -4, -9, -6, -9, 9, 2, 6, 1, -3, 3, -3]), (intVec [-2, 1, 3, 3, 3, -3, -1, -3, 0, 3, 0, 0]), intPts ptsEx, 2, fs,
    fun i j => by rw [comb_eq, comb_eq], ?_⟩
  rw [run_init, hG]
  exact hf

theorem Gpnp2.comb_eq (i : Fin 4) : gpnpCcam ((intVec [-7, -8, 9, 10, 5, 9, -13, 3, -4, -10, -8, -9]) + (3 : ℝ) • (intVec [3, 3, -3, -3, -3, -1, 3, -2, 2, 3, 2, 3]) + (1 : ℝ) • (intVec [-1, -1, 1, -2, 1, -3, 1, 2, -2, 0, 2, 0])) i =
    intPts ptsEx i := by
  funext t
  fin_cases i <;> fin_cases t <;> simp [gpnpCcam, intVec, intPts, ptsEx] <;> norm_num

theorem Gpnp2.run_init : gRun (init (intVec [-7, -8, 9, 10, 5, 9, -13, 3, -4, -10, -8, -9]) (intVec [3, 3, -3, -3, -3, -1, 3, -2, 2, 3, 2, 3]) (intVec [-1, -1, 1, -2, 1, -3, 1, 2, -2, 0, 2, 0])
    (intPts ptsEx 0) (intPts ptsEx 1) (intPts ptsEx 2) (intPts ptsEx 3)) compute =
    gRun (gInit 0 initTerms (gVars (vecsEx.map intVec) (intPts ptsEx))) compute := by
  unfold init
  rw [intPts_eta]
  rfl

theorem Gpnp2.example_factors : ∃ (a v0 v1 : Fin 12 → ℝ) (c : Fin 4 → Vec3) (z0 z1 : ℝ) (fs : List ℝ),
    (∀ i j, (gpnpCcam (a + z0 • v0 + z1 • v1) i - gpnpCcam (a + z0 • v0 + z1 • v1) j) ⬝ᵥ
      (gpnpCcam (a + z0 • v0 + z1 • v1) i - gpnpCcam (a + z0 • v0 + z1 • v1) j) = (c i - c j) ⬝ᵥ (c i - c j)) ∧
    (gRun (init a v0 v1 (c 0) (c 1) (c 2) (c 3)) compute).bind factors = some fs := by
  obtain ⟨G, hG, h⟩ := runEx
  have hp : ¬ (G 8 4 = 0 ∨ G 7 3 = 0) := by
    rintro (e | e)
    · exact h (8, 4) (by simp) e
    · exact h (7, 3) (by simp) e
  have hf : ∃ fs, factors G = some fs := by
    exact ⟨_, if_neg hp⟩
  obtain ⟨fs, hf⟩ := hf
  refine ⟨(intVec [-7, -8, 9, 10, 5, 9, -13, 3, -4, -10, -8, -9]), (intVec [3, 3, -3, -3, -3, -1, 3, -2, 2, 3, 2, 3]), (intVec [-1, -1, 1, -2, 1, -3, 1, 2, -2, 0, 2, 0]), intPts ptsEx, 3, 1, fs,
    fun i j => by rw [comb_eq, comb_eq], ?_⟩
  rw [run_init, hG]
  exact hf

theorem Gpnp3.comb_eq (i : Fin 4) : gpnpCcam ((intVec [-4, -5, -5, 0, 5, -3, 7, -5, 1, -1, -3, 5]) + (-2 : ℝ) • (intVec [-2, 1, 1, -2, -1, 1, 0, 2, 1, -3, 1, -3]) + (-1 : ℝ) • (intVec [3, 0, -1, 1, -2, -2, 2, 0, 1, 3, 1, 0]) + (3 : ℝ) • (intVec [0, 2, 3, -2, -2, 2, -2, 3, 1, 0, 2, -3])) i =
    intPts ptsEx i := by
  funext t
  fin_cases i <;> fin_cases t <;> simp [gpnpCcam, intVec, intPts, ptsEx] <;> norm_num

theorem Gpnp3.run_init : gRun (init (intVec [-4, -5, -5, 0, 5, -3, 7, -5, 1, -1, -3, 5]) (intVec [-2, 1, 1, -2, -1, 1, 0, 2, 1, -3, 1, -3]) (intVec [3, 0, -1, 1, -2, -2, 2, 0, 1, 3, 1, 0]) (intVec [0, 2, 3, -2, -2, 2, -2, 3, 1, 0, 2, -3])
    (intPts ptsEx 0) (intPts ptsEx 1) (intPts ptsEx 2) (intPts ptsEx 3)) compute =
    gRun (gInit 8 initTerms (gVars (vecsEx.map intVec) (intPts ptsEx))) compute := by
  unfold init
  rw [intPts_eta]
  rfl

theorem Gpnp3.example_factors : ∃ (a v0 v1 v2 : Fin 12 → ℝ) (c : Fin 4 → Vec3) (z0 z1 z2 : ℝ) (fs : List ℝ),
    (∀ i j, (gpnpCcam (a + z0 • v0 + z1 • v1 + z2 • v2) i - gpnpCcam (a + z0 • v0 + z1 • v1 + z2 • v2) j) ⬝ᵥ
      (gpnpCcam (a + z0 • v0 + z1 • v1 + z2 • v2) i - gpnpCcam (a + z0 • v0 + z1 • v1 + z2 • v2) j) = (c i - c j) ⬝ᵥ (c i - c j)) ∧
    (gRun (init a v0 v1 v2 (c 0) (c 1) (c 2) (c 3)) compute).bind factors = some fs := by
  obtain ⟨G, hG, h⟩ := runEx
  have hp : ¬ (G 13 16 = 0 ∨ G 12 15 = 0 ∨ G 11 14 = 0) := by
    rintro (e | e | e)
    · exact h (13, 16) (by simp) e
    · exact h (12, 15) (by simp) e
    · exact h (11, 14) (by simp) e
  have hf : ∃ fs, factors G = some fs := by
    exact ⟨_, if_neg hp⟩
  obtain ⟨fs, hf⟩ := hf
  refine ⟨(intVec [-4, -5, -5, 0, 5, -3, 7, -5, 1, -1, -3, 5]), (intVec [-2, 1, 1, -2, -1, 1, 0, 2, 1, -3, 1, -3]), (intVec [3, 0, -1, 1, -2, -2, 2, 0, 1, 3, 1, 0]), (intVec [0, 2, 3, -2, -2, 2, -2, 3, 1, 0, 2, -3]), intPts ptsEx, -2, -1, 3, fs,
    fun i j => by rw [comb_eq, comb_eq], ?_⟩
  rw [run_init, hG]
  exact hf

theorem Gpnp4.comb_eq (i : Fin 4) : gpnpCcam ((intVec [1, -9, -4, 2, 14, 5, 8, 10, 8, -4, 4, -13]) + (2 : ℝ) • (intVec [-2, -1, -3, 2, 0, 0, -2, -3, -3, -3, 0, 1]) + (3 : ℝ) • (intVec [-1, 3, 3, -3, -2, 1, 1, -1, -1, 3, -2, 3]) + (-1 : ℝ) • (intVec [-3, -1, -2, -3, 3, 2, 3, -1, 3, -1, -2, -2]) + (-1 : ℝ) • (intVec [-1, -1, 2, 3, 2, 3, 3, -1, -3, 3, 1, -1])) i =
    intPts ptsEx i := by
  funext t
  fin_cases i <;> fin_cases t <;> simp [gpnpCcam, intVec, intPts, ptsEx] <;> norm_num

theorem Gpnp4.run_init : gRun (init (intVec [1, -9, -4, 2, 14, 5, 8, 10, 8, -4, 4, -13]) (intVec [-2, -1, -3, 2, 0, 0, -2, -3, -3, -3, 0, 1]) (intVec [-1, 3, 3, -3, -2, 1, 1, -1, -1, 3, -2, 3]) (intVec [-3, -1, -2, -3, 3, 2, 3, -1, 3, -1, -2, -2]) (intVec [-1, -1, 2, 3, 2, 3, 3, -1, -3, 3, 1, -1])
    (intPts ptsEx 0) (intPts ptsEx 1) (intPts ptsEx 2) (intPts ptsEx 3)) compute =
    gRun (gInit 22 initTerms (gVars (vecsEx.map intVec) (intPts ptsEx))) compute := by
  unfold init
  rw [intPts_eta]
  rfl

theorem Gpnp4.example_factors : ∃ (a v0 v1 v2 v3 : Fin 12 → ℝ) (c : Fin 4 → Vec3) (z0 z1 z2 z3 : ℝ) (fs : List ℝ),
    (∀ i j, (gpnpCcam (a + z0 • v0 + z1 • v1 + z2 • v2 + z3 • v3) i - gpnpCcam (a + z0 • v0 + z1 • v1 + z2 • v2 + z3 • v3) j) ⬝ᵥ
      (gpnpCcam (a + z0 • v0 + z1 • v1 + z2 • v2 + z3 • v3) i - gpnpCcam (a + z0 • v0 + z1 • v1 + z2 • v2 + z3 • v3) j) = (c i - c j) ⬝ᵥ (c i - c j)) ∧
    (gRun (init a v0 v1 v2 v3 (c 0) (c 1) (c 2) (c 3)) compute).bind factors = some fs := by
  obtain ⟨G, hG, h⟩ := runEx
  have hp : ¬ (G 23 35 = 0 ∨ G 22 34 = 0 ∨ G 21 33 = 0 ∨ G 20 32 = 0) := by
    rintro (e | e | e | e)
    · exact h (23, 35) (by simp) e
    · exact h (22, 34) (by simp) e
    · exact h (21, 33) (by simp) e
    · exact h (20, 32) (by simp) e
  have hf : ∃ fs, factors G = some fs := by
    exact ⟨_, if_neg hp⟩
  obtain ⟨fs, hf⟩ := hf
  refine ⟨(intVec [1, -9, -4, 2, 14, 5, 8, 10, 8, -4, 4, -13]), (intVec [-2, -1, -3, 2, 0, 0, -2, -3, -3, -3, 0, 1]), (intVec [-1, 3, 3, -3, -2, 1, 1, -1, -1, 3, -2, 3]), (intVec [-3, -1, -2, -3, 3, 2, 3, -1, 3, -1, -2, -2]), (intVec [-1, -1, 2, 3, 2, 3, 3, -1, -3, 3, 1, -1]), intPts ptsEx, 2, 3, -1, -1, fs,
    fun i j => by rw [comb_eq, comb_eq], ?_⟩
  rw [run_init, hG]
  exact hf

theorem Gpnp5.comb_eq (i : Fin 4) : gpnpCcam ((intVec [10, 9, 0, 15, 15, -2, 19, -1, 9, -17, -5, -13]) + (3 : ℝ) • (intVec [-3, -1, 0, -2, -2, -1, -3, -1, -1, 3, 1, 1]) + (1 : ℝ) • (intVec [-3, 1, 2, 2, -1, -3, -1, -1, 3, -1, 0, 2]) + (2 : ℝ) • (intVec [-1, -2, 0, 0, 2, -2, -3, -1, -3, 2, -1, 3]) + (-2 : ℝ) • (intVec [0, -3, 1, 3, 0, -1, 0, 1, 3, -3, 0, -3]) + (3 : ℝ) • (intVec [2, -2, 1, -2, -3, 3, -2, 3, 0, -1, 1, -1])) i =
    intPts ptsEx i := by
  funext t
  fin_cases i <;> fin_cases t <;> simp [gpnpCcam, intVec, intPts, ptsEx] <;> norm_num

theorem Gpnp5.run_init : gRun (init (intVec [10, 9, 0, 15, 15, -2, 19, -1, 9, -17, -5, -13]) (intVec [-3, -1, 0, -2, -2, -1, -3, -1, -1, 3, 1, 1]) (intVec [-3, 1, 2, 2, -1, -3, -1, -1, 3, -1, 0, 2]) (intVec [-1, -2, 0, 0, 2, -2, -3, -1, -3, 2, -1, 3]) (intVec [0, -3, 1, 3, 0, -1, 0, 1, 3, -3, 0, -3]) (intVec [2, -2, 1, -2, -3, 3, -2, 3, 0, -1, 1, -1])
    (intPts ptsEx 0) (intPts ptsEx 1) (intPts ptsEx 2) (intPts ptsEx 3)) compute =
    gRun (gInit 59 initTerms (gVars (vecsEx.map intVec) (intPts ptsEx))) compute := by
  unfold init
  rw [intPts_eta]
  rfl

theorem Gpnp5.example_factors : ∃ (a v0 v1 v2 v3 v4 : Fin 12 → ℝ) (c : Fin 4 → Vec3) (z0 z1 z2 z3 z4 : ℝ) (fs : List ℝ),
    (∀ i j, (gpnpCcam (a + z0 • v0 + z1 • v1 + z2 • v2 + z3 • v3 + z4 • v4) i - gpnpCcam (a + z0 • v0 + z1 • v1 + z2 • v2 + z3 • v3 + z4 • v4) j) ⬝ᵥ
      (gpnpCcam (a + z0 • v0 + z1 • v1 + z2 • v2 + z3 • v3 + z4 • v4) i - gpnpCcam (a + z0 • v0 + z1 • v1 + z2 • v2 + z3 • v3 + z4 • v4) j) = (c i - c j) ⬝ᵥ (c i - c j)) ∧
    (gRun (init a v0 v1 v2 v3 v4 (c 0) (c 1) (c 2) (c 3)) compute).bind factors = some fs := by
  obtain ⟨G, hG, h⟩ := runEx
  have hp : ¬ (G 42 78 = 0 ∨ G 41 77 = 0 ∨ G 40 76 = 0 ∨ G 39 75 = 0 ∨ G 38 74 = 0) := by
    rintro (e | e | e | e | e)
    · exact h (42, 78) (by simp) e
    · exact h (41, 77) (by simp) e
    · exact h (40, 76) (by simp) e
    · exact h (39, 75) (by simp) e
    · exact h (38, 74) (by simp) e
  have hf : ∃ fs, factors G = some fs := by
    exact ⟨_, if_neg hp⟩
  obtain ⟨fs, hf⟩ := hf
  refine ⟨(intVec [10, 9, 0, 15, 15, -2, 19, -1, 9, -17, -5, -13]), (intVec [-3, -1, 0, -2, -2, -1, -3, -1, -1, 3, 1, 1]), (intVec [-3, 1, 2, 2, -1, -3, -1, -1, 3, -1, 0, 2]), (intVec [-1, -2, 0, 0, 2, -2, -3, -1, -3, 2, -1, 3]), (intVec [0, -3, 1, 3, 0, -1, 0, 1, 3, -3, 0, -3]), (intVec [2, -2, 1, -2, -3, 3, -2, 3, 0, -1, 1, -1]), intPts ptsEx, 3, 1, 2, -2, 3, fs,
    fun i j => by rw [comb_eq, comb_eq], ?_⟩
  rw [run_init, hG]
  exact hf

theorem Gpnp5.example_wrong : ∃ (a v0 v1 v2 v3 v4 : Fin 12 → ℝ) (c : Fin 4 → Vec3)
    (z0 z1 z2 z3 z4 w : ℝ), (∀ i, gpnpCcam (a + z0 • v0 + z1 • v1 + z2 • v2 + z3 • v3 + z4 • v4) i = c i) ∧
    (gRun (init a v0 v1 v2 v3 v4 (c 0) (c 1) (c 2) (c 3)) compute).bind factors = some [z0, z1, z2, z3, w] ∧
      w ≠ z4 := by
  obtain ⟨G, hG, h⟩ := runEx
  have hp : ¬ (G 42 78 = 0 ∨ G 41 77 = 0 ∨ G 40 76 = 0 ∨ G 39 75 = 0 ∨ G 38 74 = 0) := by
    rintro (e | e | e | e | e)
    · exact h (42, 78) (by simp) e
    · exact h (41, 77) (by simp) e
    · exact h (40, 76) (by simp) e
    · exact h (39, 75) (by simp) e
    · exact h (38, 74) (by simp) e
  have hf : ∃ fs, (gRun (init (intVec [10, 9, 0, 15, 15, -2, 19, -1, 9, -17, -5, -13]) (intVec [-3, -1, 0, -2, -2, -1, -3, -1, -1, 3, 1, 1]) (intVec [-3, 1, 2, 2, -1, -3, -1, -1, 3, -1, 0, 2]) (intVec [-1, -2, 0, 0, 2, -2, -3, -1, -3, 2, -1, 3]) (intVec [0, -3, 1, 3, 0, -1, 0, 1, 3, -3, 0, -3]) (intVec [2, -2, 1, -2, -3, 3, -2, 3, 0, -1, 1, -1])
      (intPts ptsEx 0) (intPts ptsEx 1) (intPts ptsEx 2) (intPts ptsEx 3)) compute).bind factors =
        some fs := by
    rw [run_init, hG]
    exact ⟨_, if_neg hp⟩
  obtain ⟨fs, hf⟩ := hf
  obtain ⟨w, h1, G', h2, h3, h4⟩ := factors_eq (c := intPts ptsEx) (fun i j => by rw [comb_eq, comb_eq]) hf
  rw [run_init, hG] at h2
  have h2 : G = G' := Option.some.inj h2
  subst h2
  refine ⟨_, _, _, _, _, _, intPts ptsEx, 3, 1, 2, -2, 3, w, comb_eq, h1 ▸ hf, ?_⟩
  rintro rfl
  have := h (38, 76) (by simp)
  apply this
  have e : G 38 76 * ((2 : ℝ) - 1) = 0 := by
    have : (3 : ℝ) - 3 = 0 := sub_self _
    rw [← h4, this, mul_zero]
  linarith

/-! ### One point four times -/

theorem gVars_indep (vecs : List (Fin 12 → ℝ)) (p q : Vec3) :
    gVars vecs ![p, p, p, p] = gVars vecs ![q, q, q, q] := by
  have h : ∀ (p : Vec3) (i : Fin 4), (![p, p, p, p] : Fin 4 → Vec3) i = p := fun p i => by
    fin_cases i <;> rfl
  funext u
  unfold gVars
  simp only [h, sub_self]

theorem gpnpFactors_indep (a : Fin 12 → ℝ) (V : Matrix (Fin 12) (Fin 12) ℝ) (c c' : Fin 4 → Vec3)
    (k : ℕ) : gpnpFactors a V c k = gpnpFactors a V c' k := by
  unfold gpnpFactors Gpnp1.init Gpnp2.init Gpnp3.init Gpnp4.init Gpnp5.init
  simp only [gVars_indep _ (c 0) (c' 0)]

theorem gpnpSolution_zero (a : Fin 12 → ℝ) (V : Matrix (Fin 12) (Fin 12) ℝ) (k : ℕ) :
    gpnpSolution a V (List.replicate k 0) = a := by
  unfold gpnpSolution
  rw [Finset.sum_eq_zero, add_zero]
  intro i _
  simp

theorem gpnpSolution_one (a : Fin 12 → ℝ) (V : Matrix (Fin 12) (Fin 12) ℝ) (z0 : ℝ) :
    gpnpSolution a V [z0] = a + z0 • V.transpose 11 := by
  unfold gpnpSolution
  show a + ∑ i : Fin 1, _ = _
  rw [Fin.sum_univ_one]
  rfl

theorem gpnpSolution_two (a : Fin 12 → ℝ) (V : Matrix (Fin 12) (Fin 12) ℝ) (z0 z1 : ℝ) :
    gpnpSolution a V [z0, z1] = a + z0 • V.transpose 10 + z1 • V.transpose 11 := by
  unfold gpnpSolution
  show a + ∑ i : Fin 2, _ = _
  rw [Fin.sum_univ_two, ← add_assoc]
  rfl

theorem gpnpSolution_three (a : Fin 12 → ℝ) (V : Matrix (Fin 12) (Fin 12) ℝ) (z0 z1 z2 : ℝ) :
    gpnpSolution a V [z0, z1, z2] =
      a + z0 • V.transpose 9 + z1 • V.transpose 10 + z2 • V.transpose 11 := by
  unfold gpnpSolution
  show a + ∑ i : Fin 3, _ = _
  rw [Fin.sum_univ_three, ← add_assoc, ← add_assoc]
  rfl

theorem gpnpSolution_four (a : Fin 12 → ℝ) (V : Matrix (Fin 12) (Fin 12) ℝ) (z0 z1 z2 z3 : ℝ) :
    gpnpSolution a V [z0, z1, z2, z3] =
      a + z0 • V.transpose 8 + z1 • V.transpose 9 + z2 • V.transpose 10 + z3 • V.transpose 11 := by
  unfold gpnpSolution
  show a + ∑ i : Fin 4, _ = _
  rw [Fin.sum_univ_four, ← add_assoc, ← add_assoc, ← add_assoc]
  rfl

theorem gpnpSolution_five (a : Fin 12 → ℝ) (V : Matrix (Fin 12) (Fin 12) ℝ) (z0 z1 z2 z3 z4 : ℝ) :
    gpnpSolution a V [z0, z1, z2, z3, z4] = a + z0 • V.transpose 7 + z1 • V.transpose 8 +
      z2 • V.transpose 9 + z3 • V.transpose 10 + z4 • V.transpose 11 := by
  unfold gpnpSolution
  show a + ∑ i : Fin 5, _ = _
  rw [Fin.sum_univ_five, ← add_assoc, ← add_assoc, ← add_assoc, ← add_assoc]
  rfl

theorem gpnpFactors_coincident {a : Fin 12 → ℝ} {V : Matrix (Fin 12) (Fin 12) ℝ} {c : Fin 4 → Vec3}
    {zs : List ℝ}
    (h : ∀ i j, gpnpCcam (gpnpSolution a V zs) i = gpnpCcam (gpnpSolution a V zs) j) :
    gpnpFactors a V c zs.length = none := by
  match zs, h with
  | [], _ => rfl
  | [_], h =>
    rw [gpnpSolution_one] at h
    exact Gpnp1.factors_coincident h
  | [_, _], h =>
    rw [gpnpSolution_two] at h
    exact Gpnp2.factors_coincident h
  | [_, _, _], h =>
    rw [gpnpSolution_three] at h
    exact Gpnp3.factors_coincident h
  | [_, _, _, _], h =>
    rw [gpnpSolution_four] at h
    exact Gpnp4.factors_coincident h
  | [_, _, _, _, _], h =>
    rw [gpnpSolution_five] at h
    exact Gpnp5.factors_coincident h
  | _ :: _ :: _ :: _ :: _ :: _ :: _, _ => rfl

end OpenGV
