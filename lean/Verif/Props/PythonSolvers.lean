import Verif.Proof.PythonSolvers
import Verif.Props.Python
import Verif.Props.RelativePose
import Verif.Props.Arun

/-!
# C74, continued: solvers as called from Python
-/

namespace OpenGV.Props

open OpenGV.Python Adapters Matrix

/-- **C74 (p2p).** Called from Python with exact data in the first two rows and the true rotation, `p2p`
returns the position of the camera as an array of three numbers (see C41 for the excluded case); with
fewer than two rows it raises an `IndexError`. -/
theorem C74_p2p (R : Mat3) (f0 f1 P0 P1 t : Vec3) (l0 l1 : ℝ) (fs ps : List Vec3)
    (hR : R.transpose * R = 1) (hdet : R.det = 1) (h0 : f0 ⬝ᵥ f0 = 1) (h1 : f1 ⬝ᵥ f1 = 1)
    (hne : crossProduct f0 f1 ≠ 0) (e0 : P0 = t + l0 • (R *ᵥ f0)) (e1 : P1 = t + l1 • (R *ᵥ f1))
    (hP : P0 ≠ P1) (htie : ¬(|(P1 - P0) 0| = |(P1 - P0) 1| ∧ (P1 - P0) 2 = 0)) :
    pyP2p (ofRows (f0 :: f1 :: fs)) (ofRows (P0 :: P1 :: ps)) (arrayFromMatrix R) =
      .ok (some ⟨[3], [t 0, t 1, t 2]⟩) ∧
    ∀ vs qs : List Vec3, vs.length < 2 ∨ qs.length < 2 →
      pyP2p (ofRows vs) (ofRows qs) (arrayFromMatrix R) = .error .indexError := by
  have hA (a b : NdArray ℝ) : newAdapterR a b (arrayFromMatrix R) = .ok ⟨a, b, 0, R⟩ :=
    (C74_results (0 : Matrix (Fin 3) (Fin 0) ℝ) a b 0 R).2.2.2.2
  constructor
  · simp only [pyP2p, hA, readTwo_ofRows (f0, P0) (f1, P1) fs ps,
      C41_p2p_exact R f0 f1 P0 P1 t l0 l1 hR hdet h0 h1 hne e0 e1 hP htie, Option.map_some]
    simp [arrayFromTranslation, List.ofFn_succ]
  · intro vs qs h
    simp only [pyP2p, hA, readTwo_short vs qs 0 R h]

/-- **C74 (twopt).** With the true rotation and two exact correspondences in front of both frames, `twopt`
called from Python returns the unit direction of the translation. -/
theorem C74_twopt_relative (R : Mat3) (t : Vec3) (c d : Vec3 × Vec3) (a b a' b' : ℝ)
    (fs gs : List Vec3) (hR : R.transpose * R = 1) (hc1 : c.1 ⬝ᵥ c.1 = 1) (hc2 : c.2 ⬝ᵥ c.2 = 1)
    (ha : 0 < a) (hb : 0 < b) (hb' : 0 < b')
    (hc : a • c.1 = t + b • (R *ᵥ c.2)) (hd : a' • d.1 = t + b' • (R *ᵥ d.2))
    (hn : crossProduct (crossProduct t c.1) (crossProduct t d.1) ≠ 0) :
    pyTwopt (ofRows (c.1 :: d.1 :: fs)) (ofRows (c.2 :: d.2 :: gs)) (arrayFromMatrix R) =
      .ok (some ⟨[3], [(norm3 t)⁻¹ * t 0, (norm3 t)⁻¹ * t 1, (norm3 t)⁻¹ * t 2]⟩) := by
  have hA (a b : NdArray ℝ) : newAdapterR a b (arrayFromMatrix R) = .ok ⟨a, b, 0, R⟩ :=
    (C74_results (0 : Matrix (Fin 3) (Fin 0) ℝ) a b 0 R).2.2.2.2
  simp only [pyTwopt, hA, readTwo_ofRows c d fs gs,
    C33_exact_recovery R t c d a b a' b' hR hc1 hc2 ha hb hb' hc hd hn, Option.map_some]
  simp [arrayFromTranslation, List.ofFn_succ]

/-- The points `(3, 0, 4)` and `(0, 1, 1)` seen from the origin and from `(3, 0, 0)`. -/
example : pyTwopt (ofRows [![3/5, 0, 4/5], ![0, 1, 1]]) (ofRows [![0, 0, 1], ![-3, 1, 1]])
    (arrayFromMatrix (1 : Mat3)) =
      .ok (some ⟨[3], [(norm3 ![3, 0, 0])⁻¹ * 3, (norm3 ![3, 0, 0])⁻¹ * 0, (norm3 ![3, 0, 0])⁻¹ * 0]⟩) :=
  C74_twopt_relative 1 ![3, 0, 0] (![3/5, 0, 4/5], ![0, 0, 1]) (![0, 1, 1], ![-3, 1, 1]) 5 4 1 1 [] []
    (by simp) (by norm_num [vcons2, dot3]) (by norm_num [vcons2, dot3]) (by norm_num) (by norm_num)
    (by norm_num) (by apply ext3 <;> norm_num [vcons2]) (by apply ext3 <;> norm_num [vcons2])
    (by intro h; have := congrFun h 0; norm_num [vcons2, cross_apply] at this)

/-- **C74 (rotation only).** If the bearing vectors of the first array are those of the second one rotated,
the rotation-only solvers called from Python return the rotation: from the first two rows if they are not
parallel, and from all rows if three unit vectors are distinct. -/
theorem C74_rotation_only (svd : Mat3 → Mat3 × Mat3)
    (hsvd : ∀ H, ∃ σ, Spec.IsSvd H (svd H).1 (svd H).2 σ) (R : Mat3) (hR : IsRot R) :
    (∀ (f g : Vec3) (qs : List Vec3), crossProduct f g ≠ 0 → ∃ arr,
      pyTwoptRotationOnly svd (ofRows ((f :: g :: qs).map (R *ᵥ ·))) (ofRows (f :: g :: qs)) =
        .ok arr ∧ arr.shape = [3, 3] ∧ ∀ i j : Fin 3, at2 arr i j = .ok (R i j)) ∧
    (∀ (qs : List Vec3) (a b c : Vec3), (∀ q ∈ qs, q ⬝ᵥ q = 1) → a ∈ qs → b ∈ qs → c ∈ qs → a ≠ b →
      a ≠ c → b ≠ c → ∃ arr,
      pyRotationOnly svd (ofRows (qs.map (R *ᵥ ·))) (ofRows qs) = .ok (some arr) ∧
        arr.shape = [3, 3] ∧ ∀ i j : Fin 3, at2 arr i j = .ok (R i j)) := by
  constructor
  · intro f g qs hpar
    refine ⟨arrayFromMatrix R, ?_, rfl, matrix_at R⟩
    simp only [pyTwoptRotationOnly, newAdapter, List.map_cons,
      readTwo_ofRows (R *ᵥ f, f) (R *ᵥ g, g) (qs.map (R *ᵥ ·)) qs,
      C24_twopt_rotation_exact svd hsvd R hR f g hpar]
  · intro qs a b c hunit ha hb hc hab hac hbc
    refine ⟨arrayFromMatrix R, ?_, rfl, matrix_at R⟩
    have hn : shape0 (ofRows (qs.map (R *ᵥ ·))) = .ok (qs.map (R *ᵥ ·)).length := rfl
    have hloop := triangulateLoop_eq (qs.map (R *ᵥ ·)) qs 0 1 (fun f g => (f, g))
      (qs.map (R *ᵥ ·)).length 0 [] (by omega)
    rw [if_pos (Or.inr (by simp))] at hloop
    simp only [List.nil_append, List.drop_zero] at hloop
    have hzip : List.zipWith (fun f g => (f, g)) (qs.map (R *ᵥ ·)) qs =
        qs.map fun q => (R *ᵥ q, q) := by
      rw [List.zipWith_map_left]
      exact List.zipWith_self
    simp only [pyRotationOnly, newAdapter, hn, hloop, hzip,
      C24_rotation_only_exact svd hsvd R hR qs hunit a b c ha hb hc hab hac hbc, Option.map_some]

/-- A camera at `(1, 0, -2)` that looks along the z axis. -/
example : pyP2p (ofRows [![0, 0, 1], ![3/5, 0, 4/5]]) (ofRows [![1, 0, 0], ![4, 0, 2]])
    (arrayFromMatrix (1 : Mat3)) = .ok (some ⟨[3], [1, 0, -2]⟩) := by
  have := (C74_p2p 1 ![0, 0, 1] ![3/5, 0, 4/5] ![1, 0, 0] ![4, 0, 2] ![1, 0, -2] 2 5 [] [] (by simp)
    (by simp) (by norm_num [vcons2, vcons3, vcons4, dot3]) (by norm_num [vcons2, vcons3, vcons4, dot3])
    (by intro h; have := congrFun h 1; norm_num [vcons2, vcons3, vcons4, cross_apply] at this)
    (by apply ext3 <;> norm_num [vcons2, vcons3, vcons4])
    (by apply ext3 <;> norm_num [vcons2, vcons3, vcons4])
    (by intro h; have := congrFun h 0; norm_num [vcons2, vcons3, vcons4] at this)
    (by rintro ⟨h, -⟩; norm_num [vcons2, vcons3, vcons4] at h)).1
  simpa using this

/-- The rotation by a quarter turn from two vectors. -/
example (svd : Mat3 → Mat3 × Mat3) (hsvd : ∀ H, ∃ σ, Spec.IsSvd H (svd H).1 (svd H).2 σ) : ∃ arr,
    pyTwoptRotationOnly svd (ofRows (([![1, 0, 0], ![0, 1, 0]] : List Vec3).map
      (!![0, -1, 0; 1, 0, 0; 0, 0, 1] *ᵥ ·))) (ofRows [![1, 0, 0], ![0, 1, 0]]) = .ok arr ∧
      at2 arr 0 1 = .ok (-1) := by
  obtain ⟨arr, h, -, he⟩ := (C74_rotation_only svd hsvd !![0, -1, 0; 1, 0, 0; 0, 0, 1]
    ⟨by apply mat3_ext <;> simp [Matrix.mul_apply, Fin.sum_univ_three], by simp [Matrix.det_fin_three]⟩).1
    ![1, 0, 0] ![0, 1, 0] []
    (by intro h; have := congrFun h 2; simp [cross_apply] at this)
  exact ⟨arr, h, he 0 1⟩

end OpenGV.Props
