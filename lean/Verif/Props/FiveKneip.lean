import Verif.Proof.FiveKneipCert
import Verif.Proof.SvdExists
import Verif.Proof.EigenSystem

/-!
# Properties of `fivept_kneip` (C63)

The solver builds a matrix of 66 rows and 197 columns, whose columns belong to monomials in the nine
entries of the rotation, runs a generated elimination program and reads rotations from the
eigenvectors of an action matrix.
-/

namespace OpenGV.Props

open Matrix OpenGV.Spec

/-- **C63 (eigenvectors).** If the elimination does not divide by zero, every real or complex rotation
at which all ten determinants of three normal vectors vanish belongs to an eigenvector of the action
matrix: the vector of the twenty monomials, with the eigenvalue `R 0 0`. -/
theorem C63_eigenvector (f1 f2 : Fin 5 → Vec3) (G : GMat ℝ)
    (hG : gRun (kneipInit f1 f2) FiveKneip.compute = some G) (R : Matrix (Fin 3) (Fin 3) ℂ)
    (hR : R * Rᵀ = 1) (hd : R.det = 1)
    (h0 : ∀ a b c : Fin 5, a < b → b < c →
      (Matrix.of ![crossProduct (fun k => (f1 a k : ℂ)) (R *ᵥ fun k => (f2 a k : ℂ)),
        crossProduct (fun k => (f1 b k : ℂ)) (R *ᵥ fun k => (f2 b k : ℂ)),
        crossProduct (fun k => (f1 c k : ℂ)) (R *ᵥ fun k => (f2 c k : ℂ))]).det = 0) :
    (kneipM G).map (fun x => (x : ℂ)) *ᵥ
        ![R 0 1 ^ 2, R 0 0 * R 2 2, R 0 0 * R 2 1, R 0 0 * R 2 0, R 0 0 * R 1 2, R 0 0 * R 1 1,
          R 0 0 * R 1 0, R 0 0 * R 0 2, R 0 0 * R 0 1, R 0 0 ^ 2, R 2 2, R 2 1, R 2 0, R 1 2, R 1 1,
          R 1 0, R 0 2, R 0 1, R 0 0, 1] =
      R 0 0 • ![R 0 1 ^ 2, R 0 0 * R 2 2, R 0 0 * R 2 1, R 0 0 * R 2 0, R 0 0 * R 1 2, R 0 0 * R 1 1,
          R 0 0 * R 1 0, R 0 0 * R 0 2, R 0 0 * R 0 1, R 0 0 ^ 2, R 2 2, R 2 1, R 2 0, R 1 2, R 1 1,
          R 1 0, R 0 2, R 0 1, R 0 0, 1] :=
  FiveKneip.action_eigen Complex.ofRealHom hG hR hd h0

/-- **C63 (recovery).** Let the features be the directions of five points in front of both cameras,
seen from the pose `(R, t)`. If the elimination does not divide by zero and the eigenvectors for the
eigenvalue `R 0 0` form a line, then the true rotation is among the results, whatever eigenvectors
are computed. -/
theorem C63_recovers (f1 f2 : Fin 5 → Vec3) (R : Mat3) (t : Vec3) (hR : IsRot R) (p : Fin 5 → Vec3)
    (a b : Fin 5 → ℝ) (ha : ∀ i, 0 < a i) (hb : ∀ i, 0 < b i) (h1 : ∀ i, f1 i = a i • p i)
    (h2 : ∀ i, f2 i = b i • (Rᵀ *ᵥ (p i - t))) (G : GMat ℝ)
    (hG : gRun (kneipInit f1 f2) FiveKneip.compute = some G)
    (hline : ∀ u v : Fin 20 → ℂ, u ≠ 0 →
      (kneipM G).map (fun r => (r : ℂ)) *ᵥ u = (R 0 0 : ℂ) • u →
      (kneipM G).map (fun r => (r : ℂ)) *ᵥ v = (R 0 0 : ℂ) • v → ∃ c : ℂ, v = c • u)
    (eig : Matrix (Fin 20) (Fin 20) ℝ → (Fin 20 → ℂ) × Matrix (Fin 20) (Fin 20) ℂ)
    (he : IsEigenSystem (kneipM G) (eig (kneipM G)).1 (eig (kneipM G)).2) :
    ∃ Rs, kneipMain f1 f2 eig = some Rs ∧ R ∈ Rs := by
  have hp : FiveKneip.Pose f1 f2 R t := ⟨hR, fun i => ⟨p i, a i, b i, ha i, hb i, h1 i, h2 i⟩⟩
  have hRR := rot_mul_transpose hR.1
  have hreal := FiveKneip.action_eigen (RingHom.id ℝ) hG hRR hR.2
    (fun x y z _ _ => FiveKneip.pose_det hp x y z)
  have hmap : (kneipM G).map (RingHom.id ℝ) = kneipM G := by
    ext i j
    rfl
  rw [hmap] at hreal
  have hne : FiveKneip.monos R ≠ 0 := by
    intro h
    have := congrFun h 19
    simp [FiveKneip.monos] at this
  obtain ⟨i, hi⟩ := eigenvalues_mem he.values hne hreal
  have hcplx : (kneipM G).map (fun r => (r : ℂ)) *ᵥ FiveKneip.monos (R.map fun x => (x : ℂ)) =
      (R 0 0 : ℂ) • FiveKneip.monos (R.map fun x => (x : ℂ)) := by
    have e : FiveKneip.monos (R.map fun x => (x : ℂ)) = fun k => ((FiveKneip.monos R k : ℝ) : ℂ) := by
      funext k
      fin_cases k <;> simp [FiveKneip.monos]
    rw [e]
    funext k
    have := congrArg (fun z : ℝ => (z : ℂ)) (congrFun hreal k)
    simp only [mulVec, dotProduct, Matrix.map_apply, Pi.smul_apply, smul_eq_mul] at this ⊢
    push_cast at this
    exact this
  have hne' : FiveKneip.monos (R.map fun x => (x : ℂ)) ≠ 0 := by
    intro h
    have := congrFun h 19
    simp [FiveKneip.monos] at this
  have hv := he.vectors i
  rw [hi] at hv
  obtain ⟨c, hc⟩ := hline _ _ hne' hcplx hv
  have hc0 : c ≠ 0 := by
    rintro rfl
    rw [zero_smul] at hc
    have := he.unit i
    have h0 : ∀ k, (eig (kneipM G)).2 k i = 0 := fun k => congrFun hc k
    simp [h0] at this
  refine ⟨_, by rw [kneipMain, hG]; rfl, ?_⟩
  rw [List.mem_filterMap]
  refine ⟨i, List.mem_finRange i, ?_⟩
  rw [hi, hc]
  exact FiveKneip.pose_candidate hp hc0

/-- **C63 (source of the results).** Every matrix in the result belongs to an eigenvalue whose
imaginary part is between -0.1 and 0.1, and is read from its eigenvector: the entries 18 to 10, divided
by the last one, are its rows, up to positive factors for the second and third row. -/
theorem C63_source (f1 f2 : Fin 5 → Vec3)
    (eig : Matrix (Fin 20) (Fin 20) ℝ → (Fin 20 → ℂ) × Matrix (Fin 20) (Fin 20) ℂ) (Rs : List Mat3)
    (h : kneipMain f1 f2 eig = some Rs) (R : Mat3) (hR : R ∈ Rs) :
    ∃ G i, gRun (kneipInit f1 f2) FiveKneip.compute = some G ∧
      |((eig (kneipM G)).1 i).im| < 0.1 ∧ (eig (kneipM G)).2 19 i ≠ 0 ∧
      let x : Fin 20 → ℝ := fun k => ((eig (kneipM G)).2 k i / (eig (kneipM G)).2 19 i).re
      R 0 = ![x 18, x 17, x 16] ∧ ∃ a b : ℝ, 0 < a ∧ 0 < b ∧ R 1 = a • ![x 15, x 14, x 13] ∧
        R 2 = b • ![x 12, x 11, x 10] := by
  unfold kneipMain at h
  rw [Option.map_eq_some_iff] at h
  obtain ⟨G, hG0, hG⟩ := h
  rw [← hG, List.mem_filterMap] at hR
  obtain ⟨i, -, hi⟩ := hR
  obtain ⟨-, -, -, c4, c5⟩ := FiveKneip.candidate_spec hi
  refine ⟨G, i, hG0, c5, ?_⟩
  unfold kneipRead at c4
  split at c4
  · exact absurd c4 (by simp)
  rename_i h1
  simp only at c4
  split at c4
  · exact absurd c4 (by simp)
  rename_i h2
  push Not at h2
  refine ⟨h1, ?_⟩
  have hpos : ∀ x : Vec3, norm3 x ≠ 0 → 0 < (norm3 x)⁻¹ := fun x hx =>
    inv_pos.2 (lt_of_le_of_ne (norm3_nonneg x) (Ne.symm hx))
  obtain rfl := Option.some.inj c4
  refine ⟨?_, _, _, hpos _ h2.1, hpos _ h2.2, ?_, ?_⟩
  · funext j
    fin_cases j <;> rfl
  · funext j
    fin_cases j <;> rfl
  · funext j
    fin_cases j <;> rfl

/-- **C63 (results).** Every matrix in the result has determinant near one, second and third row of
length one, the first row nearly so, rows nearly orthogonal, a last column that nearly agrees with
the cofactors, and the determinants of three normal
vectors are small; and no translation computed from two of the normal vectors puts a feature in front
of one camera and behind the other. -/
theorem C63_results (f1 f2 : Fin 5 → Vec3)
    (eig : Matrix (Fin 20) (Fin 20) ℝ → (Fin 20 → ℂ) × Matrix (Fin 20) (Fin 20) ℂ) (Rs : List Mat3)
    (h : kneipMain f1 f2 eig = some Rs) (R : Mat3) (hR : R ∈ Rs) :
    |R.det - 1| < 0.1 ∧ R 1 ⬝ᵥ R 1 = 1 ∧ R 2 ⬝ᵥ R 2 = 1 ∧ |R 0 ⬝ᵥ R 0 - 1| < 0.001 ∧
    |R 0 ⬝ᵥ R 1| < 0.001 ∧ |R 0 ⬝ᵥ R 2| < 0.001 ∧ |R 1 ⬝ᵥ R 2| < 0.001 ∧
    |R 1 0 * R 2 1 - R 2 0 * R 1 1 - R 0 2| < 0.001 ∧
    |R 2 0 * R 0 1 - R 0 0 * R 2 1 - R 1 2| < 0.001 ∧
    |R 0 0 * R 1 1 - R 1 0 * R 0 1 - R 2 2| < 0.001 ∧
    (∀ a b c : Fin 5, a < b → b < c → |(Matrix.of ![crossProduct (f1 a) (R *ᵥ f2 a),
      crossProduct (f1 b) (R *ᵥ f2 b), crossProduct (f1 c) (R *ᵥ f2 c)]).det| < 0.001) ∧
    ∀ i a b : Fin 5, a < b →
      0 ≤ crossProduct (crossProduct (crossProduct (f1 a) (R *ᵥ f2 a)) (crossProduct (f1 b) (R *ᵥ f2 b)))
          (f1 i) ⬝ᵥ
        crossProduct (crossProduct (crossProduct (f1 a) (R *ᵥ f2 a)) (crossProduct (f1 b) (R *ᵥ f2 b)))
          (R *ᵥ f2 i) := by
  unfold kneipMain at h
  rw [Option.map_eq_some_iff] at h
  obtain ⟨G, -, hG⟩ := h
  rw [← hG, List.mem_filterMap] at hR
  obtain ⟨i, -, hi⟩ := hR
  obtain ⟨c1, c2, c3, c4, -⟩ := FiveKneip.candidate_spec hi
  obtain ⟨n1, n2⟩ := FiveKneip.read_norms c4
  unfold kneipEval at c2
  have hnn : ∀ (L : List (Fin 5 × Fin 5 × Fin 5)),
      0 ≤ (L.map fun t => |(kneipNormals f1 f2 R t.1 t.2.1 t.2.2).det|).sum ∧
      ∀ t ∈ L, |(kneipNormals f1 f2 R t.1 t.2.1 t.2.2).det| ≤
        (L.map fun t => |(kneipNormals f1 f2 R t.1 t.2.1 t.2.2).det|).sum := by
    intro L
    induction L with
    | nil => exact ⟨le_rfl, fun t ht => absurd ht (by simp)⟩
    | cons x L ih =>
      rw [List.map_cons, List.sum_cons]
      refine ⟨add_nonneg (abs_nonneg _) ih.1, fun t ht => ?_⟩
      rcases List.mem_cons.1 ht with rfl | ht
      · linarith [ih.1]
      · linarith [ih.2 t ht, abs_nonneg (kneipNormals f1 f2 R x.1 x.2.1 x.2.2).det]
  obtain ⟨s0, s1⟩ := hnn kneipTriples
  have g1 := abs_nonneg (R 0 0 * R 0 0 + R 0 1 * R 0 1 + R 0 2 * R 0 2 - 1)
  have g2 := abs_nonneg (R 0 0 * R 1 0 + R 0 1 * R 1 1 + R 0 2 * R 1 2)
  have g3 := abs_nonneg (R 0 0 * R 2 0 + R 0 1 * R 2 1 + R 0 2 * R 2 2)
  have g4 := abs_nonneg (R 1 0 * R 1 0 + R 1 1 * R 1 1 + R 1 2 * R 1 2 - 1)
  have g5 := abs_nonneg (R 1 0 * R 2 0 + R 1 1 * R 2 1 + R 1 2 * R 2 2)
  have g6 := abs_nonneg (R 2 0 * R 2 0 + R 2 1 * R 2 1 + R 2 2 * R 2 2 - 1)
  have g7 := abs_nonneg (R 1 0 * R 2 1 - R 2 0 * R 1 1 - R 0 2)
  have g8 := abs_nonneg (R 2 0 * R 0 1 - R 0 0 * R 2 1 - R 1 2)
  have g9 := abs_nonneg (R 0 0 * R 1 1 - R 1 0 * R 0 1 - R 2 2)
  refine ⟨c1, n1, n2, ?_, ?_, ?_, ?_, by linarith, by linarith, by linarith,
    fun a b c hab hbc => ?_, fun i a b hab => not_lt.1 (c3 i a b hab)⟩
  · rw [dot3]
    linarith
  · rw [dot3]
    linarith
  · rw [dot3]
    linarith
  · rw [dot3]
    linarith
  · have := s1 _ (FiveKneip.triples_mem a b c hab hbc)
    simp only at this
    have e : (Matrix.of ![crossProduct (f1 a) (R *ᵥ f2 a), crossProduct (f1 b) (R *ᵥ f2 b),
        crossProduct (f1 c) (R *ᵥ f2 c)]).det = (kneipNormals f1 f2 R a b c).det := by
      rw [kneipNormals, det_transpose]
    rw [e]
    linarith

/-- A rotation with entries in sevenths. -/
noncomputable def kneipExR : Mat3 :=
  !![-3 / 7, 6 / 7, -2 / 7; 2 / 7, 3 / 7, 6 / 7; 6 / 7, 2 / 7, -3 / 7]

theorem kneipExR_rot : IsRot kneipExR := by
  constructor
  · ext i j
    fin_cases i <;> fin_cases j <;> simp [kneipExR, Matrix.mul_apply, Fin.sum_univ_three] <;> norm_num
  · rw [kneipExR, det_fin_three]
    simp
    norm_num

/-- Five points; they are the features in the first camera. -/
def kneipExF1 : Fin 5 → Vec3 := ![![1, -1, 1], ![1, 1, 0], ![-1, 1, 1], ![-1, 0, 1], ![1, 0, 1]]

/-- The features in the second camera. -/
def kneipExF2 : Fin 5 → Vec3 :=
  ![![10, 1, -12], ![8, 5, 3], ![20, -5, 4], ![18, -8, -2], ![12, 4, -6]]

theorem kneipEx_eq : FiveKneip.exf1 = kneipExF1 ∧ FiveKneip.exf2 = kneipExF2 := by
  constructor
  · funext i k
    fin_cases i <;> fin_cases k <;>
      simp [FiveKneip.exf1, FiveKneip.intF, FiveKneip.exF1, kneipExF1]
  · funext i k
    fin_cases i <;> fin_cases k <;>
      simp [FiveKneip.exf2, FiveKneip.intF, FiveKneip.exF2, kneipExF2]

/-- The hypotheses of the three theorems can be met: five points seen from the pose with rotation
`kneipExR` and translation `(1, 0, -1)`. The elimination does not divide by zero, and the true
rotation is found. -/
example : ∃ eig Rs, kneipMain kneipExF1 kneipExF2 eig = some Rs ∧ kneipExR ∈ Rs := by
  obtain ⟨G, hG, hline⟩ := FiveKneip.ex_run
  rw [kneipEx_eq.1, kneipEx_eq.2] at hG
  obtain ⟨D, V, hDV⟩ := exists_eigenSystem (kneipM G)
  refine ⟨fun _ => (D, V), C63_recovers _ _ kneipExR ![1, 0, -1] kneipExR_rot kneipExF1 (fun _ => 1)
    (fun _ => 7) (fun _ => one_pos) (fun _ => by norm_num) (fun i => (one_smul _ _).symm) ?_ G hG ?_
    _ hDV⟩
  · intro i
    funext k
    fin_cases i <;> fin_cases k <;>
      simp [kneipExF1, kneipExF2, kneipExR, mulVec, dotProduct, Fin.sum_univ_three] <;> norm_num
  · have e : kneipExR 0 0 = -3 / 7 := by simp [kneipExR]
    rw [e]
    exact hline

end OpenGV.Props
