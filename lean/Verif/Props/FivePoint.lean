import Verif.Proof.FivePointElim
import Verif.Proof.FivePointExample
import Verif.Props.RelativePose

/-!
# Properties of the five-point solvers (C37, C38, C54)

`combo EE x y z` is the matrix `x E0 + y E1 + z E2 + E3`, where the columns of `EE` are the rows of
`E0`, ..., `E3` in sequence. `EssentialConstraints E` says `det E = 0` and
`2 E Eᵀ E - tr(E Eᵀ) E = 0`.
-/

namespace OpenGV.Props

open Matrix OpenGV.Spec

/-! ## The constraint matrices -/

/-- **C37 (Nister).** For every basis and every combination, the product of the matrix with the vector
of monomials vanishes exactly when the combination satisfies the constraints. -/
theorem C37_nister (EE : Matrix (Fin 9) (Fin 4) ℝ) (x y z : ℝ) :
    nisterA EE *ᵥ nisterMonomials x y z = 0 ↔ EssentialConstraints (combo EE x y z) := by
  rw [nisterA_mulVec, nisterConstraints_iff]

/-- **C37 (Stewenius).** The same for the other solver and also for complex combinations. -/
theorem C37_stewenius (EE : Matrix (Fin 9) (Fin 4) ℝ) (x y z : ℂ) :
    (steweniusA EE).map (fun w => (w : ℂ)) *ᵥ steweniusMonomials x y z = 0 ↔
      EssentialConstraints (combo (EE.map fun w => (w : ℂ)) x y z) := by
  rw [← steweniusConstraints_iff, ← steweniusA_mulVec]
  simp

/-- **C37 (meaning).** The real matrices satisfying the constraints are the essential matrices: a
skew-symmetric matrix times a rotation. -/
theorem C37_essential (E : Mat3) :
    EssentialConstraints E ↔ ∃ (t : Vec3) (R : Mat3), IsRot R ∧ E = skew t * R :=
  essential_iff E

/-- The constraints hold for a combination of the basis of a concrete set of five correspondences; they
do not hold for the identity. -/
example : nisterA (nullBasis fiveV) *ᵥ nisterMonomials 1 3 (-3) = 0 ∧
    ¬ EssentialConstraints (1 : Mat3) :=
  ⟨(C37_nister _ _ _ _).2 fiveExample_constraints, fun h => by simpa using h.1⟩

/-! ## Nister's elimination -/

/-- **C38 (completeness).** If the left half of the matrix is invertible, then for every combination
satisfying the constraints, `z` is a root of the polynomial of degree ten, and where the denominator
does not vanish the values recomputed from `z` are `x` and `y`. -/
theorem C38_complete (EE : Matrix (Fin 9) (Fin 4) ℝ) (A3 : Matrix (Fin 10) (Fin 10) ℝ)
    (hA : reducedA (nisterA EE) = some A3) (x y z : ℝ)
    (h : EssentialConstraints (combo EE x y z)) :
    evalPoly 11 (entries (nisterPolys A3).p10) z = 0 ∧
    (polyVal 7 (entries (nisterPolys A3).p3) z ≠ 0 →
      polyVal 8 (entries (nisterPolys A3).p1) z / polyVal 7 (entries (nisterPolys A3).p3) z = x ∧
      polyVal 8 (entries (nisterPolys A3).p2) z / polyVal 7 (entries (nisterPolys A3).p3) z = y) := by
  obtain ⟨h1, h2, h3⟩ := nister_eliminate hA ((C37_nister EE x y z).2 h)
  refine ⟨h1, fun h0 => ?_⟩
  rw [polyVal_eq] at h0 ⊢
  rw [polyVal_eq, polyVal_eq, ← h2, ← h3]
  exact ⟨by field_simp, by field_simp⟩

/-- **C38 (essential matrix).** At the exact root, and if the numerical refinement leaves an exact
solution of the equations alone, the matrix made of the root is the essential matrix scaled to unit
norm. -/
theorem C38_essential (EE : Matrix (Fin 9) (Fin 4) ℝ) (A3 : Matrix (Fin 10) (Fin 10) ℝ)
    (hA : reducedA (nisterA EE) = some A3) (x y z : ℝ)
    (h : EssentialConstraints (combo EE x y z)) (hne : combo EE x y z ≠ 0)
    (h0 : polyVal 7 (entries (nisterPolys A3).p3) z ≠ 0)
    (pollish : ℝ × ℝ × ℝ → ℝ × ℝ × ℝ)
    (hp : ∀ q, nisterA EE *ᵥ nisterMonomials q.1 q.2.1 q.2.2 = 0 → pollish q = q) :
    ∃ k : ℝ, 0 < k ∧ nisterOne EE (nisterPolys A3) pollish z = some (k • combo EE x y z) ∧
      ∑ i, ∑ j, (k • combo EE x y z) i j ^ 2 = 1 := by
  obtain ⟨hx, hy⟩ := (C38_complete EE A3 hA x y z h).2 h0
  obtain ⟨k, hk, h1, h2⟩ := normalizeE_eq (e := fun i =>
    x * EE i 0 + y * EE i 1 + z * EE i 2 + EE i 3) hne
  refine ⟨k, hk, ?_, h2⟩
  unfold nisterOne
  rw [if_neg h0]
  simp only [hx, hy, hp (x, y, z) ((C37_nister EE x y z).2 h)]
  exact h1

/-- A concrete set of five correspondences of the pose `(fiveT, fiveR)`. -/
example : ∃ k : ℝ, 0 < k ∧ nisterOne (nullBasis fiveV) (nisterPolys fiveNisterA3) id (-3) =
    some (k • (skew fiveT * fiveR)) := by
  obtain ⟨k, hk, h, -⟩ := C38_essential _ _ fiveNister_reduced 1 3 (-3) fiveExample_constraints
    fiveExample_ne fiveNister_p3 id (fun _ _ => rfl)
  refine ⟨k * 5⁻¹, by positivity, ?_⟩
  rw [h, fiveExample_combo, smul_smul]

/-! ## Stewenius' action matrix -/

/-- **C54 (eigenvectors).** If the left half of the matrix is invertible, every real or complex
combination satisfying the constraints belongs to an eigenvector of the action matrix: the vector of
the ten monomials, with the eigenvalue `x`. -/
theorem C54_eigenvector (EE : Matrix (Fin 9) (Fin 4) ℝ) (A3 : Matrix (Fin 10) (Fin 10) ℝ)
    (hA : reducedA (steweniusA EE) = some A3) (x y z : ℂ)
    (h : EssentialConstraints (combo (EE.map fun w => (w : ℂ)) x y z)) :
    (steweniusM A3).map (fun w => (w : ℂ)) *ᵥ
        ![x ^ 2, x * y, y ^ 2, x * z, y * z, z ^ 2, x, y, z, 1] =
      x • ![x ^ 2, x * y, y ^ 2, x * z, y * z, z ^ 2, x, y, z, 1] :=
  stewenius_eigenvector hA ((C37_stewenius EE x y z).2 h)

/-- **C54 (reading the solution).** From any non-zero multiple of this vector the solver computes the
combination, scaled to have the sum of squares one. -/
theorem C54_read (EE : Matrix (Fin 9) (Fin 4) ℝ) (x y z c : ℂ) (hc : c ≠ 0)
    (hs : ∑ i, ∑ j, (combo (EE.map fun w => (w : ℂ)) x y z i j) ^ 2 ≠ 0) :
    ∃ k : ℂ, k ≠ 0 ∧ steweniusOne EE
        (c • ![x ^ 2, x * y, y ^ 2, x * z, y * z, z ^ 2, x, y, z, 1]) =
      some (k • combo (EE.map fun w => (w : ℂ)) x y z) ∧
      ∑ i, ∑ j, ((k • combo (EE.map fun w => (w : ℂ)) x y z) i j) ^ 2 = 1 :=
  steweniusOne_eq EE x y z c hc hs

/-- **C54 (null space).** The true essential matrix of correspondences with five independent rows is a
combination of the four basis matrices of both solvers. -/
theorem C54_null_space (cs : List (Vec3 × Vec3)) (V : Matrix (Fin 9) (Fin 9) ℝ) (σ : Fin 9 → ℝ)
    (hV : IsRightSvd (epipolarA cs) V σ) (hσ : σ 4 ≠ 0) (E : Mat3)
    (hE : ∀ c ∈ cs, c.1 ⬝ᵥ (E *ᵥ c.2) = 0) :
    ∃ w : Fin 4 → ℝ, E = ofRows (nullBasis V *ᵥ w) := by
  have hf : epipolarA cs *ᵥ vec9 E = 0 := by
    rw [epipolarA_mulVec, unvec_vec9]
    exact hE
  exact ⟨_, by rw [← kernel_coords hV hσ hf, ← unvec_ofRows, unvec_vec9]⟩

/-- **C54 (recovery).** Let the true essential matrix be the combination `w` of the basis matrices with
`w 3 ≠ 0`, let the left half of the matrix be invertible, and let the eigenvectors for the eigenvalue
`w 0 / w 3` form a line. Then, whatever eigenvectors are computed, one of the matrices handed to the
selection is a non-zero multiple of the true essential matrix. -/
theorem C54_recovers (V : Matrix (Fin 9) (Fin 9) ℝ) (t : Vec3) (R : Mat3) (hR : IsRot R)
    (ht : t ≠ 0) (w : Fin 4 → ℝ) (hw : w 3 ≠ 0) (hE : skew t * R = ofRows (nullBasis V *ᵥ w))
    (A3 : Matrix (Fin 10) (Fin 10) ℝ) (hA : reducedA (steweniusA (nullBasis V)) = some A3)
    (hline : ∀ u v : Fin 10 → ℂ, u ≠ 0 →
      (steweniusM A3).map (fun r => (r : ℂ)) *ᵥ u = ((w 0 / w 3 : ℝ) : ℂ) • u →
      (steweniusM A3).map (fun r => (r : ℂ)) *ᵥ v = ((w 0 / w 3 : ℝ) : ℂ) • v → ∃ c : ℂ, v = c • u)
    (eigv : Matrix (Fin 10) (Fin 10) ℝ → Matrix (Fin 10) (Fin 10) ℂ)
    (hv : IsEigenvectors (steweniusM A3) (eigv (steweniusM A3))) :
    ∃ Es, steweniusMain (nullBasis V) eigv = some Es ∧ ∃ k : ℝ, k ≠ 0 ∧
      some (k • (skew t * R)) ∈ Es.map (Option.map realParts) := by
  set EE := nullBasis V with hEE
  set x := w 0 / w 3 with hx
  set y := w 1 / w 3 with hy
  set z := w 2 / w 3 with hz
  have hcombo : skew t * R = w 3 • combo EE x y z := by rw [hE, ofRows_combo EE w hw]
  have hcombo' : combo EE x y z = (w 3)⁻¹ • (skew t * R) := by
    rw [hcombo, smul_smul, inv_mul_cancel₀ hw, one_smul]
  have hEne : skew t * R ≠ 0 := by
    intro e
    apply ht
    have := congrArg (· * R.transpose) e
    simp only [Matrix.mul_assoc, rot_mul_transpose hR.1, Matrix.mul_one, Matrix.zero_mul] at this
    have h0 := congrFun (congrFun this 2) 1
    have h1 := congrFun (congrFun this 0) 2
    have h2 := congrFun (congrFun this 1) 0
    simp [skew] at h0 h1 h2
    apply ext3 <;> simpa using by assumption
  have hne : combo EE x y z ≠ 0 := by
    rw [hcombo']
    exact smul_ne_zero (inv_ne_zero hw) hEne
  have hcons : EssentialConstraints (combo EE x y z) := by
    rw [hcombo']
    exact essentialConstraints_smul _ ((essential_iff _).2 ⟨t, R, hR, rfl⟩)
  have hcast : combo (EE.map fun r => (r : ℂ)) x y z = (combo EE x y z).map Complex.ofRealHom := by
    ext i j
    fin_cases i <;> fin_cases j <;> simp [combo, ofRows]
  have hconsC : EssentialConstraints (combo (EE.map fun r => (r : ℂ)) (x : ℂ) y z) := by
    rw [hcast]
    exact essentialConstraints_map Complex.ofRealHom hcons
  have heig := C54_eigenvector EE A3 hA x y z hconsC
  set b : Fin 10 → ℂ := ![(x : ℂ) ^ 2, x * y, y ^ 2, x * z, y * z, z ^ 2, x, y, z, 1] with hb
  have hb0 : b ≠ 0 := by
    intro e
    have := congrFun e 9
    simp [hb] at this
  obtain ⟨D, hD, hcol⟩ := hv
  -- the eigenvalue is in the list
  obtain ⟨c, hc⟩ : ∃ c, D c = (x : ℂ) := by
    have hdet : ((x : ℂ) • (1 : Matrix (Fin 10) (Fin 10) ℂ) -
        (steweniusM A3).map (fun r => (r : ℂ))).det = 0 := by
      apply exists_mulVec_eq_zero_iff.1
      exact ⟨b, hb0, by rw [sub_mulVec, smul_mulVec, one_mulVec, heig, sub_self]⟩
    rw [hD x, Finset.prod_eq_zero_iff] at hdet
    obtain ⟨c, -, hc⟩ := hdet
    exact ⟨c, (sub_eq_zero.1 hc).symm⟩
  obtain ⟨hu0, hu⟩ := hcol c
  rw [hc] at hu
  obtain ⟨a, ha⟩ := hline b _ hb0 heig hu
  have ha0 : a ≠ 0 := by
    rintro rfl
    rw [zero_smul] at ha
    exact hu0 ha
  obtain ⟨k, hk, h1, -⟩ := steweniusOne_real EE x y z a ha0 hne
  refine ⟨_, by rw [steweniusMain, hA], k * (w 3)⁻¹, mul_ne_zero hk.ne' (inv_ne_zero hw), ?_⟩
  rw [List.map_map, List.mem_map]
  refine ⟨c, List.mem_finRange c, ?_⟩
  simp only [Function.comp]
  rw [ha]
  have : steweniusOne EE (a • b) = _ := h1
  rw [this, hcombo', smul_smul]
  congr 1

/-- A concrete set of five correspondences of the pose `(fiveT, fiveR)`, with all hypotheses: the
singular value decomposition, the null space, and the recovery. -/
example : ∃ eigv Es, steweniusMain (nullBasis fiveV) eigv = some Es ∧ ∃ k : ℝ, k ≠ 0 ∧
    some (k • (skew fiveT * fiveR)) ∈ Es.map (Option.map realParts) := by
  obtain ⟨W, hW⟩ := exists_eigenvectors (steweniusM fiveSteweniusA3)
  refine ⟨fun _ => W, C54_recovers fiveV fiveT fiveR fiveR_isRot fiveT_ne ![5, 15, -15, 5] (by simp)
    fiveExample_w fiveSteweniusA3 fiveStewenius_reduced ?_ _ hW⟩
  intro u v hu h1 h2
  have e1 : ((![5, 15, -15, 5] : Fin 4 → ℝ) 0 / (![5, 15, -15, 5] : Fin 4 → ℝ) 3 : ℝ) = 1 := by
    simp
  rw [e1, Complex.ofReal_one] at h1 h2
  have hu' := fiveStewenius_line u h1
  have hv' := fiveStewenius_line v h2
  have hu9 : u 9 ≠ 0 := by
    intro e
    rw [e, zero_smul] at hu'
    exact hu hu'
  refine ⟨v 9 / u 9, ?_⟩
  rw [hv', hu', smul_smul]
  congr 1
  simp [exB]
  field_simp

example : ∃ w : Fin 4 → ℝ, skew fiveT * fiveR = ofRows (nullBasis fiveV *ᵥ w) :=
  C54_null_space fiveExample fiveV _ fiveExample_svd (by simp) _ fiveExample_epipolar

end OpenGV.Props
