import Verif.Proof.Triangulation

/-!
# Properties of the triangulation functions and the multi-camera relative scores (C17, C25, C26)
-/

namespace OpenGV.Props

open Matrix OpenGV.Spec OpenGV.MultiAdapter

/-- **C25 (when it is defined).** The midpoint triangulation has a singular system exactly when the
two viewing directions, seen in the first frame, are linearly dependent. -/
theorem C25_singular_iff_parallel (t : Vec3) (R : Mat3) (f1 f2 : Vec3) :
    triangulate2 t R f1 f2 = none ↔ ∃ a b : ℝ, (a ≠ 0 ∨ b ≠ 0) ∧ a • f1 = b • (R *ᵥ f2) := by
  rw [← cross_eq_zero_iff, ← tri_det_zero_iff]
  unfold triangulate2
  simp only []
  split <;> simp_all

example : triangulate2 ![1, 0, 0] 1 ![0, 0, 1] ![0, 0, 2] = none :=
  (C25_singular_iff_parallel _ _ _ _).2 ⟨2, 1, .inl two_ne_zero, by
    rw [one_mulVec]; ext i; fin_cases i <;> simp⟩

/-- **C25 (closest points).** A defined result is the midpoint of a point on the first viewing line
and a point on the second viewing line whose distance is minimal among all such pairs, and no
other pair has that distance. -/
theorem C25_midpoint_of_closest (t : Vec3) (R : Mat3) (f1 f2 p : Vec3)
    (h : triangulate2 t R f1 f2 = some p) :
    ∃ a b : ℝ, p = (1 / 2 : ℝ) • (a • f1 + (t + b • (R *ᵥ f2))) ∧
      ∀ a' b' : ℝ, norm3 (a • f1 - (t + b • (R *ᵥ f2))) ≤ norm3 (a' • f1 - (t + b' • (R *ᵥ f2))) ∧
        (norm3 (a' • f1 - (t + b' • (R *ᵥ f2))) = norm3 (a • f1 - (t + b • (R *ᵥ f2))) →
          a' = a ∧ b' = b) := by
  unfold triangulate2 at h
  simp only [] at h
  split at h
  · simp at h
  · rename_i hd
    have hn := tri_normal t f1 (R *ᵥ f2) hd
    simp only [] at hn
    have hcr : crossProduct f1 (R *ᵥ f2) ≠ 0 := fun e => hd ((tri_det_zero_iff _ _).2 e)
    refine ⟨_, _, (Option.some.inj h).symm, ?_⟩
    generalize (-(R *ᵥ f2 ⬝ᵥ R *ᵥ f2) * (t ⬝ᵥ f1) - -(f1 ⬝ᵥ R *ᵥ f2) * (t ⬝ᵥ R *ᵥ f2)) /
      ((f1 ⬝ᵥ f1) * -(R *ᵥ f2 ⬝ᵥ R *ᵥ f2) - -(f1 ⬝ᵥ R *ᵥ f2) * (f1 ⬝ᵥ R *ᵥ f2)) = l0 at hn ⊢
    generalize (-(f1 ⬝ᵥ R *ᵥ f2) * (t ⬝ᵥ f1) + (f1 ⬝ᵥ f1) * (t ⬝ᵥ R *ᵥ f2)) /
      ((f1 ⬝ᵥ f1) * -(R *ᵥ f2 ⬝ᵥ R *ᵥ f2) - -(f1 ⬝ᵥ R *ᵥ f2) * (f1 ⬝ᵥ R *ᵥ f2)) = l1 at hn ⊢
    generalize R *ᵥ f2 = g at hn hcr ⊢
    intro a' b'
    set w := l0 • f1 - (t + l1 • g) with hw
    have hw' : a' • f1 - (t + b' • g) = w + ((a' - l0) • f1 - (b' - l1) • g) := by
      rw [hw]; apply ext3 <;> simp <;> ring
    set u := (a' - l0) • f1 - (b' - l1) • g with hu
    have hwu : w ⬝ᵥ u = 0 := by
      rw [hu, dotProduct_sub, dotProduct_smul, dotProduct_smul, hn.1, hn.2]; simp
    have hsum : (w + u) ⬝ᵥ (w + u) = w ⬝ᵥ w + u ⬝ᵥ u := by
      rw [add_dotProduct, dotProduct_add, dotProduct_add, hwu, dotProduct_comm u w, hwu]; ring
    rw [hw']
    refine ⟨?_, fun e => ?_⟩
    · unfold norm3
      apply Real.sqrt_le_sqrt
      rw [hsum]
      linarith [dot_self_nonneg3 u]
    · have e2 : norm3 (w + u) ^ 2 = norm3 w ^ 2 := by rw [e]
      rw [norm3_sq, norm3_sq, hsum] at e2
      have hu0 : u = 0 := dot_self_eq_zero3.1 (by linarith)
      rw [hu, sub_eq_zero] at hu0
      by_contra hne
      apply hcr
      rw [cross_eq_zero_iff]
      refine ⟨_, _, ?_, hu0⟩
      by_contra hcon
      simp only [not_or, not_not] at hcon
      exact hne ⟨by linarith [hcon.1], by linarith [hcon.2]⟩

/-- **C25 (exact recovery).** If the measurements are the directions of a point in the two frames
(of any length and sign) and the viewing directions are independent, the result is the point. -/
theorem C25_exact_recovery (t : Vec3) (R : Mat3) (f1 f2 p : Vec3) (hR : R.transpose * R = 1)
    (h1 : ∃ a : ℝ, p = a • f1) (h2 : ∃ b : ℝ, R.transpose *ᵥ (p - t) = b • f2)
    (hn : ¬ ∃ a b : ℝ, (a ≠ 0 ∨ b ≠ 0) ∧ a • f1 = b • (R *ᵥ f2)) :
    triangulate2 t R f1 f2 = some p := by
  obtain ⟨a, ha⟩ := h1
  obtain ⟨b, hb⟩ := h2
  have hb' : p = t + b • (R *ᵥ f2) := by
    have := congrArg (fun v => R *ᵥ v) hb
    simp only [mulVec_mulVec, rot_mul_transpose hR, one_mulVec, mulVec_smul] at this
    rw [← this]; abel
  cases hres : triangulate2 t R f1 f2 with
  | none => exact absurd ((C25_singular_iff_parallel t R f1 f2).1 hres) hn
  | some q =>
    obtain ⟨l0, l1, hq, hmin⟩ := C25_midpoint_of_closest t R f1 f2 q hres
    have hz : norm3 (a • f1 - (t + b • (R *ᵥ f2))) = 0 := by
      rw [norm3_eq_zero, ← ha, ← hb', sub_self]
    have h0 := (hmin a b).1
    rw [hz] at h0
    have h00 := le_antisymm h0 (norm3_nonneg _)
    obtain ⟨e1, e2⟩ := (hmin a b).2 (by rw [hz, h00])
    rw [hq, ← e1, ← e2, ← ha, ← hb']
    congr 1
    apply ext3 <;> simp <;> ring

example : triangulate2 ![1, 0, 0] 1 ![0, 0, 1] ![-1, 0, 2] = some ![0, 0, 2] := by
  refine C25_exact_recovery _ _ _ _ _ (by simp) ⟨2, by ext i; fin_cases i <;> simp⟩
    ⟨1, by ext i; fin_cases i <;> simp⟩ ?_
  rw [← cross_eq_zero_iff]
  intro h
  have := congrFun h 1
  simp [cross_apply] at this

/-- **C26 (exact recovery).** The linear triangulation returns the point itself for every singular
value decomposition of its matrix, when the measurements are the directions of the point in the
two frames, are not orthogonal to the optical axes, and the viewing directions are independent. -/
theorem C26_exact_recovery (t : Vec3) (R : Mat3) (f1 f2 p : Vec3)
    (V : Matrix (Fin 4) (Fin 4) ℝ) (σ : Fin 4 → ℝ) (hR : R.transpose * R = 1)
    (h1 : ∃ a : ℝ, p = a • f1) (h2 : ∃ b : ℝ, R.transpose *ᵥ (p - t) = b • f2)
    (hn : ¬ ∃ a b : ℝ, (a ≠ 0 ∨ b ≠ 0) ∧ a • f1 = b • (R *ᵥ f2)) (hz1 : f1 2 ≠ 0) (hz2 : f2 2 ≠ 0)
    (hV : IsRightSvd (triangulateA t R f1 f2) V σ) :
    triangulateFromV V = some p := by
  obtain ⟨a, ha⟩ := h1
  obtain ⟨b, hb⟩ := h2
  have hRR := rot_mul_transpose hR
  have hb' : p - t = b • (R *ᵥ f2) := by
    have := congrArg (fun v => R *ᵥ v) hb
    simpa only [mulVec_mulVec, hRR, one_mulVec, mulVec_smul] using this
  have hker : triangulateA t R f1 f2 *ᵥ ![p 0, p 1, p 2, 1] = 0 := by
    rw [triA_kernel]
    have hp : (![p 0, p 1, p 2] : Vec3) = p := by ext i; fin_cases i <;> rfl
    simp only [Matrix.cons_val, hp, one_smul]
    rw [hb, ha]
    simp only [Pi.smul_apply, smul_eq_mul]
    refine ⟨?_, ?_, ?_, ?_⟩ <;> ring
  have hne : (![p 0, p 1, p 2, 1] : Fin 4 → ℝ) ≠ 0 := by
    intro e
    have := congrFun e 3
    simp at this
  have hlast := svd_last_kernel hV hne hker
  have hcol := svd_col_ne_zero hV (Fin.last 3)
  rw [show (Fin.last 3 : Fin 4) = 3 from rfl] at hlast hcol
  rw [triA_kernel] at hlast
  simp only [] at hlast
  obtain ⟨k0, k1, k2, k3⟩ := hlast
  set w : Vec3 := ![V 0 3, V 1 3, V 2 3] with hw
  have e1 := parallel_of_rows hz1 k0 k1
  have e2 := parallel_of_rows hz2 k2 k3
  set l := w 2 / f1 2 with hl
  set m := (R.transpose *ᵥ (w - V 3 3 • t)) 2 / f2 2 with hm
  have e2' : w - V 3 3 • t = m • (R *ᵥ f2) := by
    have := congrArg (fun v => R *ᵥ v) e2
    simpa only [mulVec_mulVec, hRR, one_mulVec, mulVec_smul] using this
  have hrel : (l - V 3 3 * a) • f1 = (m - V 3 3 * b) • (R *ᵥ f2) := by
    rw [sub_smul, sub_smul, mul_smul, mul_smul, ← ha, ← hb', ← e1, ← e2']
    apply ext3 <;> simp <;> ring
  have hla : l = V 3 3 * a := by
    by_contra hcon
    exact hn ⟨_, _, .inl (sub_ne_zero.2 hcon), hrel⟩
  have hwp : w = V 3 3 • p := by rw [e1, hla, mul_smul, ← ha]
  have hv : V 3 3 ≠ 0 := by
    intro h0
    apply hcol
    rw [h0, zero_smul] at hwp
    have g0 := congrFun hwp 0
    have g1 := congrFun hwp 1
    have g2 := congrFun hwp 2
    funext i
    fin_cases i
    · exact g0
    · exact g1
    · exact g2
    · exact h0
  unfold triangulateFromV
  rw [if_neg hv]
  congr 1
  have g0 := congrFun hwp 0
  have g1 := congrFun hwp 1
  have g2 := congrFun hwp 2
  simp only [hw, Pi.smul_apply, smul_eq_mul, Matrix.cons_val] at g0 g1 g2
  apply ext3 <;> simp only [Matrix.cons_val]
  · rw [g0]; field_simp
  · rw [g1]; field_simp
  · rw [g2]; field_simp

/-- **C26 (degenerate directions).** Without the condition on the third components the claim is
false: for a point seen in the directions `(1,0,0)` and `(0,1,0)` from two different places, the
directions are independent, but there is a singular value decomposition for which the function
returns a different point. -/
theorem C26_wrong_point_at_horizon :
    ∃ (t f1 f2 p q : Vec3) (V : Matrix (Fin 4) (Fin 4) ℝ) (σ : Fin 4 → ℝ),
      p = f1 ∧ p - t = f2 ∧ (¬ ∃ a b : ℝ, (a ≠ 0 ∨ b ≠ 0) ∧ a • f1 = b • f2) ∧
      IsRightSvd (triangulateA t 1 f1 f2) V σ ∧ triangulateFromV V = some q ∧ q ≠ p := by
  refine ⟨![1, -1, 0], ![1, 0, 0], ![0, 1, 0], ![1, 0, 0], ![0, 3/4, 0],
    !![0, 1, 0, 0; 0, 0, 4/5, 3/5; 1, 0, 0, 0; 0, 0, -(3/5), 4/5], ![√2, 0, 0, 0], rfl, ?_, ?_, ?_,
    ?_, ?_⟩
  · ext i; fin_cases i <;> simp
  · rw [← cross_eq_zero_iff]
    intro h
    have := congrFun h 2
    simp [cross_apply] at this
  · have hA : triangulateA ![1, -1, 0] 1 ![1, 0, 0] ![0, 1, 0] =
        !![0, 0, 1, 0; 0, 0, 0, 0; 0, 0, 0, 0; 0, 0, 1, 0] := by
      ext i j
      fin_cases i <;> fin_cases j <;> simp [triangulateA]
    rw [hA]
    refine ⟨?_, ?_, ?_, ?_⟩
    · ext i j
      fin_cases i <;> fin_cases j <;>
        simp [Matrix.mul_apply, Fin.sum_univ_four] <;> norm_num
    · ext i j
      fin_cases i <;> fin_cases j <;>
        simp [Matrix.mul_apply, Fin.sum_univ_four] <;> norm_num
    · intro i
      fin_cases i <;> simp
    · intro i j hij
      fin_cases i <;> fin_cases j <;> first | (simp at hij; done) | simp
  · unfold triangulateFromV
    rw [if_neg (by simp)]
    congr 1
    apply ext3 <;> simp
    norm_num
  · intro h
    have := congrFun h 0
    simp at this

/-! ## Scores of the multi-camera relative problems -/

/-- The intended scores: for every camera and every entry `i` of its index list, the two-view score
of correspondence `i` of that camera. -/
noncomputable def intendedScores (data1 data2 : List (List Vec3)) (poses : ℕ → Vec3 × Mat3)
    (indices : List (List ℕ)) : Option (List (List ℝ)) :=
  indices.zipIdx.mapM (fun p => p.1.mapM (fun i =>
    match getMulti data1 p.2 i, getMulti data2 p.2 i with
    | some f1, some f2 => relScore (poses p.2).1 (poses p.2).2 f1 f2
    | _, _ => none))

/-- What the code computes for entry `i` at position `k`: it triangulates correspondence `i` and
compares with the measurements of correspondence `k`. -/
theorem C17_actual_scores (data1 data2 : List (List Vec3)) (poses : ℕ → Vec3 × Mat3)
    (indices : List (List ℕ))
    (hv : ∀ (cam : ℕ) (ix : List ℕ), indices[cam]? = some ix → ∀ i ∈ ix,
      ∃ l, data2[cam]? = some l ∧ i < l.length) :
    multiScores data1 data2 poses indices =
      indices.zipIdx.mapM (fun p => p.1.zipIdx.mapM (fun q =>
        match getMulti data1 p.2 q.1, getMulti data2 p.2 q.1, getMulti data1 p.2 q.2,
          getMulti data2 p.2 q.2 with
        | some g1, some g2, some f1, some f2 =>
          (triangulate2 (poses p.2).1 (poses p.2).2 g1 g2).bind
            (fun x => reprojScore (poses p.2).1 (poses p.2).2 x f1 f2)
        | _, _, _, _ => none)) := by
  have gen : ∀ (ixs : List (List ℕ)) (cam : ℕ),
      (∀ (c : ℕ) (ix : List ℕ), ixs[c]? = some ix → ∀ i ∈ ix,
        ∃ l, data2[cam + c]? = some l ∧ i < l.length) →
      multiScoresOuter (tables (data2.map List.length)) data1 data2 poses cam ixs =
      (ixs.zipIdx cam).mapM (fun p => p.1.zipIdx.mapM (multiScoreAt data1 data2 poses p.2)) := by
    intro ixs
    induction ixs with
    | nil => intro cam _; rfl
    | cons ix ixs ih =>
      intro cam h
      rw [multiScoresOuter, multiScoresInner_eq data1 data2 poses cam ix 0 []
        (fun i hi => h 0 ix rfl i hi), ih (cam + 1) (fun c ix' hc i hi => by
          have := h (c + 1) ix' (by simpa using hc) i hi
          rwa [show cam + (c + 1) = cam + 1 + c by omega] at this)]
      rw [List.zipIdx_cons, List.mapM_cons]
      cases ix.zipIdx.mapM (multiScoreAt data1 data2 poses cam) with
      | none => rfl
      | some a =>
        simp only [Option.map_some, List.nil_append]
        cases (List.zipIdx ixs (cam + 1)).mapM
            (fun p => p.1.zipIdx.mapM (multiScoreAt data1 data2 poses p.2)) with
        | none => rfl
        | some b => rfl
  exact gen indices 0 (by simpa using hv)

/- The hypothesis is met by a camera with two correspondences and the index list `[1, 0]`. -/
example : ∀ (cam : ℕ) (ix : List ℕ), [[1, 0]][cam]? = some ix → ∀ i ∈ ix,
    ∃ l, [[![-1, 0, 2], ![-1, 0, (2 : ℝ)]]][cam]? = some l ∧ i < l.length := by
  intro cam ix h i hi
  cases cam with
  | zero =>
    simp only [List.getElem?_cons_zero, Option.some.injEq] at h
    subst h
    refine ⟨_, rfl, ?_⟩
    simp at hi ⊢
    omega
  | succ c => simp at h

/-- **C17 (uniform index lists).** When every camera's index list is `0, 1, ..., n-1`, the scores are
the intended ones. -/
theorem C17_uniform_indices (data1 data2 : List (List Vec3)) (poses : ℕ → Vec3 × Mat3)
    (sizes : List ℕ)
    (hv : ∀ (cam n : ℕ), sizes[cam]? = some n → 0 < n → ∃ l, data2[cam]? = some l ∧ n ≤ l.length) :
    multiScores data1 data2 poses (sizes.map List.range) =
      intendedScores data1 data2 poses (sizes.map List.range) := by
  rw [C17_actual_scores data1 data2 poses _ (by
    intro cam ix hix i hi
    rw [List.getElem?_map] at hix
    cases hs : sizes[cam]? with
    | none => simp [hs] at hix
    | some n =>
      simp only [hs, Option.map_some, Option.some.injEq] at hix
      subst hix
      have hin := List.mem_range.1 hi
      obtain ⟨l, h1, h2⟩ := hv cam n hs (by omega)
      exact ⟨l, h1, by omega⟩)]
  unfold intendedScores
  apply mapM_congr
  rintro ⟨ix, cam⟩ hp
  obtain ⟨n, _, hix⟩ := List.mem_map.1 (List.fst_mem_of_mem_zipIdx hp)
  simp only at hix ⊢
  subst hix
  rw [zipIdx_range, List.mapM_map]
  apply mapM_congr
  intro i _
  simp only [Function.comp]
  cases getMulti data1 cam i <;> cases getMulti data2 cam i <;> simp [relScore]
  cases triangulate2 _ _ _ _ <;> rfl

/-- **C17 (general index lists).** For other index lists the scores are not the intended ones: with
two correspondences that both agree perfectly with the model, selecting only the second one gives
a positive score instead of zero. -/
theorem C17_general_indices_wrong :
    ∃ (data1 data2 : List (List Vec3)) (poses : ℕ → Vec3 × Mat3) (x : ℝ),
      intendedScores data1 data2 poses [[0, 1]] = some [[0, 0]] ∧
      intendedScores data1 data2 poses [[1]] = some [[0]] ∧
      multiScores data1 data2 poses [[1]] = some [[x]] ∧ 0 < x := by
  have hd : ∀ a b c : ℝ, ∀ n : ℝ, 0 < n → a ^ 2 + b ^ 2 + c ^ 2 = n ^ 2 →
      normalize3 ![a, b, c] = some ![a / n, b / n, c / n] := by
    intro a b c n hn h
    have e : norm3 ![a, b, c] = n := by
      rw [norm3, dot3]
      simp only [Matrix.cons_val]
      rw [show a * a + b * b + c * c = n ^ 2 by rw [← h]; ring, Real.sqrt_sq hn.le]
    rw [normalize3, e, if_neg hn.ne']
    congr 1
    apply ext3 <;> simp [div_eq_inv_mul]
  have tri0 : triangulate2 ![4, 0, 0] 1 ![4/5, 3/5, 0] ![0, 1, 0] = some ![4, 3, 0] := by
    refine C25_exact_recovery _ _ _ _ _ (by simp) ⟨5, by apply ext3 <;> simp <;> norm_num⟩
      ⟨3, by apply ext3 <;> simp⟩ ?_
    rw [← cross_eq_zero_iff]
    intro h
    have := congrFun h 2
    simp [cross_apply] at this
  have tri1 : triangulate2 ![4, 0, 0] 1 ![0, 1, 0] ![-(4/5), 3/5, 0] = some ![0, 3, 0] := by
    refine C25_exact_recovery _ _ _ _ _ (by simp) ⟨3, by apply ext3 <;> simp⟩
      ⟨5, by apply ext3 <;> simp <;> norm_num⟩ ?_
    rw [← cross_eq_zero_iff]
    intro h
    have := congrFun h 2
    simp [cross_apply] at this
  have rp0 : ∀ m1 m2 : Vec3, reprojScore ![4, 0, 0] 1 ![4, 3, 0] m1 m2 =
      some ((1 - m1 ⬝ᵥ ![4/5, 3/5, 0/5]) + (1 - m2 ⬝ᵥ ![0/3, 3/3, 0/3])) := by
    intro m1 m2
    have : (transpose (1 : Mat3)) *ᵥ ![4, 3, 0] + -((transpose (1 : Mat3)) *ᵥ ![4, 0, 0]) =
        ![0, 3, 0] := by
      apply ext3 <;> simp
    rw [reprojScore, this, hd 4 3 0 5 (by norm_num) (by norm_num),
      hd 0 3 0 3 (by norm_num) (by norm_num)]
  have rp1 : ∀ m1 m2 : Vec3, reprojScore ![4, 0, 0] 1 ![0, 3, 0] m1 m2 =
      some ((1 - m1 ⬝ᵥ ![0/3, 3/3, 0/3]) + (1 - m2 ⬝ᵥ ![-4/5, 3/5, 0/5])) := by
    intro m1 m2
    have : (transpose (1 : Mat3)) *ᵥ ![0, 3, 0] + -((transpose (1 : Mat3)) *ᵥ ![4, 0, 0]) =
        ![-4, 3, 0] := by
      apply ext3 <;> simp
    rw [reprojScore, this, hd 0 3 0 3 (by norm_num) (by norm_num),
      hd (-4) 3 0 5 (by norm_num) (by norm_num)]
  have s0 : relScore ![4, 0, 0] 1 ![4/5, 3/5, 0] ![0, 1, 0] = some 0 := by
    rw [relScore, tri0]
    simp only [rp0, dot3, Matrix.cons_val]
    norm_num
  have s1 : relScore ![4, 0, 0] 1 ![0, 1, 0] ![-(4/5), 3/5, 0] = some 0 := by
    rw [relScore, tri1]
    simp only [rp1, dot3, Matrix.cons_val]
    norm_num
  refine ⟨[[![4/5, 3/5, 0], ![0, 1, 0]]], [[![0, 1, 0], ![-(4/5), 3/5, 0]]],
    fun _ => (![4, 0, 0], 1), 4/5, ?_, ?_, ?_, by norm_num⟩
  · simp [intendedScores, getMulti, s0, s1]
  · simp [intendedScores, getMulti, s1]
  · rw [C17_actual_scores _ _ _ _ (by
      intro cam ix hix i hi
      cases cam with
      | zero =>
        simp only [List.getElem?_cons_zero, Option.some.injEq] at hix
        subst hix
        simp only [List.mem_cons, List.not_mem_nil, or_false] at hi
        subst hi
        exact ⟨_, rfl, by simp⟩
      | succ c => simp at hix)]
    simp only [getMulti, List.zipIdx_cons, List.zipIdx_nil, List.mapM_cons, List.mapM_nil,
      List.getElem?_cons_zero, List.getElem?_cons_succ, tri1, Option.bind_some, rp1, dot3,
      Matrix.cons_val]
    norm_num

end OpenGV.Props
