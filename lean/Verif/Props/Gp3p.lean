import Verif.Proof.Gp3pPose
import Verif.Proof.Gp3pCert
import Verif.Proof.EigenSystem
import Verif.Props.Rotation

/-!
# Properties of `gp3p` (C67)

The solver builds a matrix of 48 rows and 85 columns, whose columns belong to monomials in three
Cayley parameters and three depths, runs a generated elimination program and reads poses from the
eigenvectors of an action matrix. The program leaves out terms that cancel; that they do is proved for
all inputs.
-/

namespace OpenGV.Props

open Matrix OpenGV.Spec

/-- **C67 (eigenvectors).** If the elimination does not divide by zero, all real or complex Cayley
parameters `s` and depths `n` that solve the equations of the three points belong to an eigenvector of
the action matrix: the vector of the eight monomials, with the eigenvalue `s 0`. -/
theorem C67_eigenvector (f v p : Mat3) (G : GMat ℝ)
    (hG : gRun (Gp3p.init f v p) Gp3p.compute = some G) (s n : Fin 3 → ℂ)
    (h : ∀ i j : Fin 3, (1 + s 0 ^ 2 + s 1 ^ 2 + s 2 ^ 2) •
      ((n i • (fun k => (f k i : ℂ)) + fun k => (v k i : ℂ)) -
        (n j • (fun k => (f k j : ℂ)) + fun k => (v k j : ℂ))) =
      !![1 + s 0 ^ 2 - s 1 ^ 2 - s 2 ^ 2, 2 * (s 0 * s 1 - s 2), 2 * (s 0 * s 2 + s 1);
        2 * (s 0 * s 1 + s 2), 1 - s 0 ^ 2 + s 1 ^ 2 - s 2 ^ 2, 2 * (s 1 * s 2 - s 0);
        2 * (s 0 * s 2 - s 1), 2 * (s 1 * s 2 + s 0), 1 - s 0 ^ 2 - s 1 ^ 2 + s 2 ^ 2] *ᵥ
        fun k => (p k i : ℂ) - (p k j : ℂ)) :
    (gp3pM G).map (fun x => (x : ℂ)) *ᵥ ![s 0 ^ 2, n 2, n 1, n 0, s 2, s 1, s 0, 1] =
      s 0 • ![s 0 ^ 2, n 2, n 1, n 0, s 2, s 1, s 0, 1] :=
  Gp3p.action_eigen Complex.ofRealHom (Gp3p.init_zeroRun f v p) hG fun i j k => congrFun (h i j) k

/-- **C67 (recovery).** Let three points be seen from the pose `(R, t)` by the cameras of a rig: the
camera `i` sees its point in the direction `f` turned by its rotation, from its offset, at the depth
`n i`. Let the rotation not be a half-turn. If the elimination does not divide by zero and the
eigenvectors for the first Cayley parameter of the transpose form a line, then the pose is among the
results, whatever eigenvectors are computed. -/
theorem C67_recovers (A : Adapters.AbsAdapter) (i0 i1 i2 : ℕ) (a b c : Adapters.AbsObs)
    (h0 : A.read i0 = some a) (h1 : A.read i1 = some b) (h2 : A.read i2 = some c) (R : Mat3) (t : Vec3)
    (hR : IsRot R) (htr : R.trace ≠ -1) (n : Fin 3 → ℝ)
    (ha : a.p = R *ᵥ (n 0 • (a.rot *ᵥ a.f) + a.off) + t)
    (hb : b.p = R *ᵥ (n 1 • (b.rot *ᵥ b.f) + b.off) + t)
    (hc : c.p = R *ᵥ (n 2 • (c.rot *ᵥ c.f) + c.off) + t) (G : GMat ℝ)
    (hG : gRun (Gp3p.init (Matrix.of ![a.rot *ᵥ a.f, b.rot *ᵥ b.f, c.rot *ᵥ c.f])ᵀ
      (Matrix.of ![a.off, b.off, c.off])ᵀ (Matrix.of ![a.p, b.p, c.p])ᵀ) Gp3p.compute = some G)
    (hline : ∀ u w : Fin 8 → ℂ, u ≠ 0 →
      (gp3pM G).map (fun r => (r : ℂ)) *ᵥ u = (((R 1 2 - R 2 1) / (1 + R.trace) : ℝ) : ℂ) • u →
      (gp3pM G).map (fun r => (r : ℂ)) *ᵥ w = (((R 1 2 - R 2 1) / (1 + R.trace) : ℝ) : ℂ) • w →
      ∃ k : ℂ, w = k • u)
    (eig : Matrix (Fin 8) (Fin 8) ℝ → (Fin 8 → ℂ) × Matrix (Fin 8) (Fin 8) ℂ)
    (he : IsEigenSystem (gp3pM G) (eig (gp3pM G)).1 (eig (gp3pM G)).2) :
    ∃ L, gp3p A i0 i1 i2 eig = some (some L) ∧ some (R, t) ∈ L := by
  obtain ⟨s, -, hs⟩ := C19_cayley2rot_rot2cayley Rᵀ hR.transpose (by rwa [trace_transpose])
  have hsR : (cayley2rot s)ᵀ = R := by rw [hs, transpose_transpose]
  have hx : (R 1 2 - R 2 1) / (1 + R.trace) = s 0 := by
    rw [Gp3p.cayley_first s, hsR]
  rw [hx] at hline
  set f : Mat3 := (Matrix.of ![a.rot *ᵥ a.f, b.rot *ᵥ b.f, c.rot *ᵥ c.f])ᵀ with hf
  set v : Mat3 := (Matrix.of ![a.off, b.off, c.off])ᵀ with hv
  set p : Mat3 := (Matrix.of ![a.p, b.p, c.p])ᵀ with hp
  have hcols : gp3pCols ![a, b, c] = (f, v, p) := by
    simp only [gp3pCols, Prod.mk.injEq]
    refine ⟨?_, ?_, ?_⟩
    · ext k i
      fin_cases i <;> rfl
    · ext k i
      fin_cases i <;> rfl
    · ext k i
      fin_cases i <;> rfl
  have hpose : ∀ i, p.col i = (cayley2rot s)ᵀ *ᵥ (n i • f.col i + v.col i) + t := by
    rw [hsR]
    intro i
    fin_cases i
    · exact ha
    · exact hb
    · exact hc
  have hreal := Gp3p.action_eigen (RingHom.id ℝ) (Gp3p.init_zeroRun f v p) hG (Gp3p.pose_sol hpose)
  have hmap : (gp3pM G).map (RingHom.id ℝ) = gp3pM G := by
    ext i j
    rfl
  rw [hmap] at hreal
  set w := Gp3p.monos (s 0) (s 1) (s 2) (n 0) (n 1) (n 2) with hw
  have h7 : w 7 = 1 := by simp [hw, Gp3p.monos]
  have hne : w ≠ 0 := by
    intro h
    rw [h] at h7
    simp at h7
  obtain ⟨i, hi⟩ := eigenvalues_mem he.values hne hreal
  have hcplx : (gp3pM G).map (fun r => (r : ℂ)) *ᵥ (fun k => (w k : ℂ)) =
      (s 0 : ℂ) • fun k => (w k : ℂ) := by
    rw [map_ofReal_mulVec, hreal]
    funext k
    simp
  have hne' : (fun k => (w k : ℂ)) ≠ 0 := by
    intro h
    have := congrFun h 7
    simp [h7] at this
  have hvec := he.vectors i
  rw [hi] at hvec
  obtain ⟨k, hk⟩ := hline _ _ hne' hcplx hvec
  have hk0 : k ≠ 0 := by
    rintro rfl
    rw [zero_smul] at hk
    have := he.unit i
    have h0 : ∀ j, (eig (gp3pM G)).2 j i = 0 := fun j => congrFun hk j
    simp [h0] at this
  refine ⟨_, by
    unfold gp3p
    rw [h0, h1, h2]
    simp only
    rw [hcols]
    simp only
    rw [gp3pMain, hG]
    rfl, ?_⟩
  rw [List.mem_filterMap]
  refine ⟨i, List.mem_finRange i, ?_⟩
  rw [hi, hk]
  unfold gp3pCandidate
  rw [if_pos (by simp; norm_num), if_neg (by simp [h7, hk0]), Gp3p.read_monos hk0]
  simp only
  rw [Gp3p.pose_true hpose, hsR]

/-- **C67 (source of the results).** The results are exactly the poses read from the eigenvectors of the
eigenvalues whose imaginary part is less than 0.0001, so also from those with a negative imaginary part.
An eigenvector with last entry zero gives a pose that is not a number. -/
theorem C67_source (f v p : Mat3)
    (eig : Matrix (Fin 8) (Fin 8) ℝ → (Fin 8 → ℂ) × Matrix (Fin 8) (Fin 8) ℂ)
    (L : List (Option (Mat3 × Vec3))) (h : gp3pMain f v p eig = some L) :
    ∃ G, gRun (Gp3p.init f v p) Gp3p.compute = some G ∧
      (none ∈ L ↔ ∃ i, ((eig (gp3pM G)).1 i).im < 0.0001 ∧ (eig (gp3pM G)).2 7 i = 0) ∧
      ∀ R t, some (R, t) ∈ L ↔ ∃ i, ((eig (gp3pM G)).1 i).im < 0.0001 ∧ (eig (gp3pM G)).2 7 i ≠ 0 ∧
        let x : Fin 8 → ℝ := fun k => ((eig (gp3pM G)).2 k i / (eig (gp3pM G)).2 7 i).re
        R = (cayley2rot ![x 6, x 5, x 4])ᵀ ∧
        t = (1 / 3 : ℝ) • (p.col 0 + p.col 1 + p.col 2) - (1 / 3 : ℝ) • (R *ᵥ (x 3 • f.col 0 + v.col 0) +
          R *ᵥ (x 2 • f.col 1 + v.col 1) + R *ᵥ (x 1 • f.col 2 + v.col 2)) := by
  unfold gp3pMain at h
  rw [Option.map_eq_some_iff] at h
  obtain ⟨G, hG0, hG⟩ := h
  refine ⟨G, hG0, ?_, fun R t => ?_⟩
  · rw [← hG, List.mem_filterMap]
    simp only [List.mem_finRange, true_and, gp3pCandidate]
    refine exists_congr fun i => ?_
    split_ifs with c1 c2
    · simp [c1, c2]
    · simp [c2]
    · simp [c1]
  · rw [← hG, List.mem_filterMap]
    simp only [List.mem_finRange, true_and, gp3pCandidate]
    refine exists_congr fun i => ?_
    split_ifs with c1 c2
    · simp [c2]
    · simp only [c1, c2, Option.some.injEq, ne_eq, not_false_eq_true, true_and, gp3pPose, gp3pRead,
        Prod.mk.injEq, Fin.sum_univ_three]
      constructor
      · rintro ⟨rfl, rfl⟩
        exact ⟨rfl, rfl⟩
      · rintro ⟨rfl, rfl⟩
        exact ⟨rfl, rfl⟩
    · simp [c1]

/-- **C67 (results).** Every pose in the result that is a number has a proper rotation that is not a
half-turn, and its translation takes the mean of the three points in the rig, at the depths read from
one of the eigenvectors, to the mean of the points in the world. -/
theorem C67_results (f v p : Mat3)
    (eig : Matrix (Fin 8) (Fin 8) ℝ → (Fin 8 → ℂ) × Matrix (Fin 8) (Fin 8) ℂ)
    (L : List (Option (Mat3 × Vec3))) (h : gp3pMain f v p eig = some L) (R : Mat3) (t : Vec3)
    (hL : some (R, t) ∈ L) :
    IsRot R ∧ -1 < R.trace ∧ ∃ G i, gRun (Gp3p.init f v p) Gp3p.compute = some G ∧
      (eig (gp3pM G)).2 7 i ≠ 0 ∧
      R *ᵥ (((eig (gp3pM G)).2 3 i / (eig (gp3pM G)).2 7 i).re • f.col 0 + v.col 0) + t +
      (R *ᵥ (((eig (gp3pM G)).2 2 i / (eig (gp3pM G)).2 7 i).re • f.col 1 + v.col 1) + t) +
      (R *ᵥ (((eig (gp3pM G)).2 1 i / (eig (gp3pM G)).2 7 i).re • f.col 2 + v.col 2) + t) =
        p.col 0 + p.col 1 + p.col 2 := by
  obtain ⟨G, hG, -, hs⟩ := C67_source f v p eig L h
  obtain ⟨i, -, h7, h1, h2⟩ := (hs R t).1 hL
  refine ⟨h1 ▸ (cayley2rot_isRot _).transpose, h1 ▸ Gp3p.cayley_trace _, G, i, hG, h7, ?_⟩
  rw [h2]
  funext k
  simp only [Pi.add_apply, Pi.sub_apply, Pi.smul_apply, smul_eq_mul]
  ring

/-- **C67 (number of results).** The test on the imaginary part has no absolute value, so of each pair
of conjugate eigenvalues one passes: whatever the input, at least four poses are returned, although
three points may have no real solution. -/
theorem C67_number (f v p : Mat3)
    (eig : Matrix (Fin 8) (Fin 8) ℝ → (Fin 8 → ℂ) × Matrix (Fin 8) (Fin 8) ℂ)
    (he : ∀ M, IsEigenvalues M (eig M).1) (L : List (Option (Mat3 × Vec3)))
    (h : gp3pMain f v p eig = some L) : 4 ≤ L.length ∧ L.length ≤ 8 := by
  unfold gp3pMain at h
  rw [Option.map_eq_some_iff] at h
  obtain ⟨G, -, hG⟩ := h
  constructor
  · have h1 := Gp3p.eigenvalues_half (he (gp3pM G))
    rw [← hG, List.length_filterMap_eq_countP, Gp3p.count_finRange]
    have h2 : (Finset.univ.filter fun i => ((eig (gp3pM G)).1 i).im ≤ 0).card ≤ _ :=
      Finset.card_le_card (t := Finset.univ.filter fun i => (gp3pCandidate f v p ((eig (gp3pM G)).1 i)
        fun k => (eig (gp3pM G)).2 k i).isSome = true) fun i hi => by
      simp only [Finset.mem_filter, Finset.mem_univ, true_and] at hi ⊢
      unfold gp3pCandidate
      rw [if_pos (lt_of_le_of_lt hi (by norm_num))]
      split_ifs <;> rfl
    omega
  · rw [← hG]
    exact (List.length_filterMap_le _ _).trans (by simp)

/-- The correspondences of the example: three cameras, the second one turned, see three points. -/
def gp3pExObs : Fin 3 → Adapters.AbsObs := ![
  ⟨![12, -17, 6], ![-2, 1, 0], ![0, 1, -1], 1⟩,
  ⟨![16, 1, -11], ![0, -2, -1], ![1, -1, -1], !![0, -1, 0; 1, 0, 0; 0, 0, 1]⟩,
  ⟨![-12, 10, 1], ![2, 1, -2], ![0, 0, 0], 1⟩]

/-- An adapter with these correspondences. -/
def gp3pExAdapter : Adapters.AbsAdapter where
  getBearingVector i := if h : i < 3 then some (gp3pExObs ⟨i, h⟩).f else none
  getWeight _ := some 1
  getPoint i := if h : i < 3 then some (gp3pExObs ⟨i, h⟩).p else none
  getCamOffset i := if h : i < 3 then some (gp3pExObs ⟨i, h⟩).off else none
  getCamRotation i := if h : i < 3 then some (gp3pExObs ⟨i, h⟩).rot else none
  getNumberCorrespondences := 3

/-- The rotation of the example. -/
noncomputable def gp3pExR : Mat3 := !![-3 / 7, 6 / 7, 2 / 7; -2 / 7, -3 / 7, 6 / 7; 6 / 7, 2 / 7, 3 / 7]

theorem gp3pExR_rot : IsRot gp3pExR := by
  constructor
  · ext i j
    fin_cases i <;> fin_cases j <;>
      simp [gp3pExR, Matrix.mul_apply, Fin.sum_univ_three] <;> norm_num
  · simp [gp3pExR, Matrix.det_fin_three]
    norm_num

/-- The matrices of the example are those of `Gp3p.ex_run`. -/
theorem gp3pEx_eq :
    (Matrix.of ![(gp3pExObs 0).rot *ᵥ (gp3pExObs 0).f, (gp3pExObs 1).rot *ᵥ (gp3pExObs 1).f,
      (gp3pExObs 2).rot *ᵥ (gp3pExObs 2).f])ᵀ = Gp3p.exF ∧
    (Matrix.of ![(gp3pExObs 0).off, (gp3pExObs 1).off, (gp3pExObs 2).off])ᵀ = Gp3p.exV ∧
    (Matrix.of ![(gp3pExObs 0).p, (gp3pExObs 1).p, (gp3pExObs 2).p])ᵀ = Gp3p.exP := by
  refine ⟨?_, ?_, ?_⟩ <;>
  · ext i j
    fin_cases i <;> fin_cases j <;>
      simp [gp3pExObs, Gp3p.exF, Gp3p.exV, Gp3p.exP]

/-- The pose of the example is among the results. -/
example : ∃ eig L, gp3p gp3pExAdapter 0 1 2 eig = some (some L) ∧
    some (gp3pExR, ![0, 1, -1]) ∈ L := by
  obtain ⟨G, hG, hline⟩ := Gp3p.ex_run
  rw [← gp3pEx_eq.1, ← gp3pEx_eq.2.1, ← gp3pEx_eq.2.2] at hG
  obtain ⟨D, V, hDV⟩ := exists_eigenSystem (gp3pM G)
  have htr : gp3pExR.trace = -3 / 7 := by
    simp [gp3pExR, Matrix.trace, Fin.sum_univ_three]
    norm_num
  refine ⟨fun _ => (D, V), C67_recovers _ 0 1 2 (gp3pExObs 0) (gp3pExObs 1) (gp3pExObs 2) rfl rfl rfl
    gp3pExR ![0, 1, -1] gp3pExR_rot (by rw [htr]; norm_num) (fun _ => 1 / 7) ?_ ?_ ?_ G hG ?_ _ hDV⟩
  · funext k
    fin_cases k <;>
      simp [gp3pExObs, gp3pExR, mulVec, dotProduct, Fin.sum_univ_three] <;> norm_num
  · have e : (gp3pExObs 1).rot *ᵥ (gp3pExObs 1).f = ![-1, 16, -11] := by
      funext k
      fin_cases k <;> simp [gp3pExObs, mulVec, dotProduct, Fin.sum_univ_three]
    rw [e]
    funext k
    fin_cases k <;>
      simp [gp3pExObs, gp3pExR, mulVec, dotProduct, Fin.sum_univ_three] <;> norm_num
  · funext k
    fin_cases k <;>
      simp [gp3pExObs, gp3pExR, mulVec, dotProduct, Fin.sum_univ_three] <;> norm_num
  · have e : (gp3pExR 1 2 - gp3pExR 2 1) / (1 + gp3pExR.trace) = 1 := by
      rw [htr]
      simp [gp3pExR]
      norm_num
    rw [e]
    exact hline

/-- The solver returns at least four poses for the example. -/
example : ∃ eig L, gp3pMain Gp3p.exF Gp3p.exV Gp3p.exP eig = some L ∧ 4 ≤ L.length := by
  obtain ⟨G, hG, -⟩ := Gp3p.ex_run
  choose D V hDV using fun M : Matrix (Fin 8) (Fin 8) ℝ => exists_eigenSystem M
  refine ⟨fun M => (D M, V M), _, by rw [gp3pMain, hG]; rfl, ?_⟩
  exact (C67_number Gp3p.exF Gp3p.exV Gp3p.exP (fun M => (D M, V M)) (fun M => (hDV M).values) _
    (by rw [gp3pMain, hG]; rfl)).1

/-- The true parameters of the example give an eigenvector. -/
example : ∃ G, gRun (Gp3p.init Gp3p.exF Gp3p.exV Gp3p.exP) Gp3p.compute = some G ∧
    (gp3pM G).map (fun x => (x : ℂ)) *ᵥ ![1, 1 / 7, 1 / 7, 1 / 7, 2, 1, 1, 1] =
      ![1, 1 / 7, 1 / 7, 1 / 7, 2, 1, 1, 1] := by
  obtain ⟨G, hG, -⟩ := Gp3p.ex_run
  refine ⟨G, hG, ?_⟩
  have := C67_eigenvector _ _ _ G hG ![1, 1, 2] (fun _ => 1 / 7) ?_
  · simpa using this
  · intro i j
    funext k
    fin_cases i <;> fin_cases j <;> fin_cases k <;>
      simp [Gp3p.exF, Gp3p.exV, Gp3p.exP, mulVec, dotProduct, Fin.sum_univ_three] <;> norm_num

end OpenGV.Props
