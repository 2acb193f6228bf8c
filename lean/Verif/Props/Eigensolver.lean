import Verif.Proof.EigensolverJac
import Verif.Proof.EigenSystem
import Verif.Proof.RelativePose

/-!
# Properties of the eigensolver (C39)

A correspondence is `(weight, f1, f2)`.
-/

namespace OpenGV.Props

open Matrix OpenGV.Spec Topology

/-- **C39 (weights).** Without weights every weight is one. With weights they are divided by a
positive number that makes the sum of their squares one, unless all of them are zero. -/
theorem C39_weights (cs : List (ℝ × Vec3 × Vec3)) :
    usedWeights false cs = some (cs.map fun c => (1, c.2)) ∧
    (usedWeights true cs = none ↔ ∀ c ∈ cs, c.1 = 0) ∧
    (∀ ds, usedWeights true cs = some ds → (ds.map fun d => d.1 ^ 2).sum = 1 ∧
      ∃ k : ℝ, 0 < k ∧ ds = cs.map fun c => (k * c.1, c.2)) := by
  have hnn : 0 ≤ (cs.map fun c => c.1 ^ 2).sum :=
    List.sum_nonneg fun x hx => by
      obtain ⟨c, _, rfl⟩ := List.mem_map.1 hx
      positivity
  refine ⟨by simp [usedWeights], ?_, ?_⟩
  · simp only [usedWeights, if_true]
    constructor
    · intro h
      split at h
      · rename_i h0
        rw [Real.sqrt_eq_zero hnn] at h0
        intro c hc
        have := list_sum_zero (fun x hx => by
          obtain ⟨c, _, rfl⟩ := List.mem_map.1 hx
          positivity) h0 _ (List.mem_map_of_mem hc)
        exact pow_eq_zero_iff two_ne_zero |>.1 this
      · simp at h
    · intro h
      have : (cs.map fun c => c.1 ^ 2) = cs.map fun _ => (0 : ℝ) :=
        List.map_congr_left fun c hc => by rw [h c hc]; norm_num
      rw [this, if_pos (by simp)]
  · intro ds h
    simp only [usedWeights, if_true] at h
    split at h
    · simp at h
    · rename_i h0
      simp only [Option.some.injEq] at h
      have hpos : 0 < √((cs.map fun c => c.1 ^ 2).sum) :=
        lt_of_le_of_ne (Real.sqrt_nonneg _) (Ne.symm h0)
      subst h
      refine ⟨?_, _, inv_pos.2 hpos, List.map_congr_left fun c _ => by rw [div_eq_inv_mul]⟩
      rw [List.map_map]
      have : (cs.map ((fun d : ℝ × Vec3 × Vec3 => d.1 ^ 2) ∘ fun c : ℝ × Vec3 × Vec3 =>
          (c.1 / √((cs.map fun c => c.1 ^ 2).sum), c.2))) =
          cs.map fun c => ((cs.map fun c => c.1 ^ 2).sum)⁻¹ * c.1 ^ 2 :=
        List.map_congr_left fun c _ => by
          simp only [Function.comp_apply, div_pow, Real.sq_sqrt hnn]
          rw [div_eq_inv_mul]
      rw [this, List.sum_map_mul_left, inv_mul_cancel₀]
      exact (Real.sqrt_pos.1 hpos).ne'

/-- **C39 (Gram matrix).** For every list of correspondences and every parameter vector, `composeM`
is `(1 + |c|^2)^2` times the sum of `weight * n n'` over the epipolar plane normals. -/
theorem C39_gram (cs : List (ℝ × Vec3 × Vec3)) (c : Vec3) :
    composeM (eigenSums cs) c = (1 + c ⬝ᵥ c) ^ 2 • normalGram (cayley2rot c) cs ∧
    ∀ v : Vec3, v ⬝ᵥ (composeM (eigenSums cs) c *ᵥ v) = (1 + c ⬝ᵥ c) ^ 2 *
      (cs.map fun d => d.1 * (crossProduct d.2.1 (cayley2rot c *ᵥ d.2.2) ⬝ᵥ v) ^ 2).sum := by
  have h : composeM (eigenSums cs) c = (1 + c ⬝ᵥ c) ^ 2 • normalGram (cayley2rot c) cs := by
    rw [composeM, composeMR_eigenSums, cayley2rotReduced_eq, normalGram_smul]
  refine ⟨h, fun v => ?_⟩
  rw [h, smul_mulVec, dotProduct_smul, normalGram_form, smul_eq_mul]

/-- **C39 (true pose).** For noise-free correspondences of the relative pose `(t, R)` the true
translation is in the null space of `composeM` at the true rotation. -/
theorem C39_true_pose (cs : List (ℝ × Vec3 × Vec3)) (c t : Vec3)
    (h : ∀ d ∈ cs, ∃ a b : ℝ, b ≠ 0 ∧ a • d.2.1 = t + b • (cayley2rot c *ᵥ d.2.2)) :
    composeM (eigenSums cs) c *ᵥ t = 0 := by
  rw [(C39_gram cs c).1, smul_mulVec, normalGram_mulVec]
  have : (cs.map fun d => (d.1 * (crossProduct d.2.1 (cayley2rot c *ᵥ d.2.2) ⬝ᵥ t)) •
      crossProduct d.2.1 (cayley2rot c *ᵥ d.2.2)) = cs.map fun _ => (0 : Vec3) :=
    List.map_congr_left fun d hd => by
      obtain ⟨a, b, -, e⟩ := h d hd
      have e2 : t = a • d.2.1 - b • (cayley2rot c *ᵥ d.2.2) := by rw [e]; abel
      have e3 : crossProduct d.2.1 (cayley2rot c *ᵥ d.2.2) ⬝ᵥ t = 0 := by
        rw [e2, dotProduct_sub, dotProduct_smul, dotProduct_smul, dotProduct_comm,
          dot_self_cross, dotProduct_comm, dot_cross_self]
        simp
      rw [e3, mul_zero, zero_smul]
  rw [this]
  simp

/-- **C39 (smallest eigenvalue).** For arbitrary summation terms, `getSmallestEV` is undefined
exactly when the matrix is a multiple of the identity, and otherwise is its smallest
eigenvalue. -/
theorem C39_smallest_ev (s : FSums) (c : Vec3) :
    (getSmallestEV s c = none ↔ ∃ k : ℝ, composeM s c = k • (1 : Mat3)) ∧
    ∀ x, getSmallestEV s c = some x → IsSmallestEV (composeM s c) x := by
  have hM := composeMR_transpose s (cayley2rotReduced c)
  refine ⟨smallestEVOf_none hM, fun x hx => ?_⟩
  have hne : ∀ k : ℝ, composeM s c ≠ k • (1 : Mat3) := fun k hk => by
    have := (smallestEVOf_none hM).2 ⟨k, hk⟩
    rw [getSmallestEV, composeM, this] at hx
    simp at hx
  obtain ⟨y, hy, hs, -⟩ := smallestEVOf_spec hM hne
  rw [getSmallestEV, composeM, hy] at hx
  cases hx
  exact hs

/-- Three correspondences whose normals are the axes, with the weights 1, 2 and 3. -/
def axesExample : List (ℝ × Vec3 × Vec3) :=
  [(1, ![0, 1, 0], ![0, 0, 1]), (2, ![0, 0, 1], ![1, 0, 0]), (3, ![1, 0, 0], ![0, 1, 0])]

theorem axesExample_M : composeM (eigenSums axesExample) 0 = !![1, 0, 0; 0, 2, 0; 0, 0, 3] := by
  have hR : cayley2rot 0 = 1 := by
    apply mat3_ext <;> simp [cayley2rot]
  rw [(C39_gram _ _).1, hR]
  apply mat3_ext <;> simp [normalGram, axesExample, cross_apply]

example : getSmallestEV (eigenSums axesExample) 0 = some 1 := by
  have hM := axesExample_M
  set s := eigenSums axesExample
  obtain ⟨h1, h2⟩ := C39_smallest_ev s 0
  cases hx : getSmallestEV s 0 with
  | none =>
    obtain ⟨k, hk⟩ := h1.1 hx
    rw [hM] at hk
    have e0 := congrFun (congrFun hk 0) 0
    have e1 := congrFun (congrFun hk 1) 1
    simp at e0 e1
    linarith
  | some x =>
    obtain ⟨⟨v, hv, e⟩, hmin⟩ := h2 x hx
    rw [hM] at e hmin
    have hx1 := hmin ![1, 0, 0]
    rw [dot3, dot3, mulVec3, mulVec3, mulVec3] at hx1
    simp at hx1
    have f0 := congrFun e 0
    have f1 := congrFun e 1
    have f2 := congrFun e 2
    simp [mulVec3] at f0 f1 f2
    have v1 : v 1 = 0 := f1.resolve_left (by linarith)
    have v2 : v 2 = 0 := f2.resolve_left (by linarith)
    have v0 : v 0 ≠ 0 := fun v0 => hv (ext3 v0 v1 v2)
    have g0 : (1 - x) * v 0 = 0 := by linarith
    rcases mul_eq_zero.1 g0 with g0 | g0
    · congr 1; linarith
    · exact absurd g0 v0

/-- **C39 (objective).** With positive weights the value minimised is never negative, and it is
zero exactly when some translation direction satisfies every epipolar constraint for the
rotation. -/
theorem C39_objective (cs : List (ℝ × Vec3 × Vec3)) (c : Vec3) (x : ℝ) (hw : ∀ d ∈ cs, 0 < d.1)
    (h : getSmallestEV (eigenSums cs) c = some x) :
    0 ≤ x ∧ (x = 0 ↔ ∃ t : Vec3, t ≠ 0 ∧
      ∀ d ∈ cs, t ⬝ᵥ crossProduct d.2.1 (cayley2rot c *ᵥ d.2.2) = 0) := by
  obtain ⟨⟨v, hv, e⟩, hmin⟩ := (C39_smallest_ev _ c).2 x h
  have hvv : 0 < v ⬝ᵥ v :=
    lt_of_le_of_ne (dot_self_nonneg3 v) fun h0 => hv (dot_self_eq_zero3.1 h0.symm)
  have hpos : 0 < (1 + c ⬝ᵥ c) ^ 2 := by
    have := dot_self_nonneg3 c
    positivity
  have hform := (C39_gram cs c).2 v
  rw [e, dotProduct_smul, smul_eq_mul] at hform
  have hnn : ∀ v : Vec3, 0 ≤
      (cs.map fun d => d.1 * (crossProduct d.2.1 (cayley2rot c *ᵥ d.2.2) ⬝ᵥ v) ^ 2).sum :=
    fun v => List.sum_nonneg fun x hx => by
      obtain ⟨d, hd, rfl⟩ := List.mem_map.1 hx
      have := hw d hd
      positivity
  have hx0 : 0 ≤ x := by
    have := mul_nonneg hpos.le (hnn v)
    rw [← hform] at this
    exact nonneg_of_mul_nonneg_left this hvv
  refine ⟨hx0, ?_, ?_⟩
  · intro hx
    rw [hx, zero_mul] at hform
    have hs := (mul_eq_zero.1 hform.symm).resolve_left hpos.ne'
    refine ⟨v, hv, fun d hd => ?_⟩
    have hall := list_sum_zero (fun x hx => by
      obtain ⟨d, hd, rfl⟩ := List.mem_map.1 hx
      have := hw d hd
      positivity) hs _ (List.mem_map_of_mem hd)
    have := (mul_eq_zero.1 hall).resolve_left (hw d hd).ne'
    rw [dotProduct_comm]
    exact pow_eq_zero_iff two_ne_zero |>.1 this
  · rintro ⟨t, ht, h0⟩
    have htt : 0 < t ⬝ᵥ t :=
      lt_of_le_of_ne (dot_self_nonneg3 t) fun h0 => ht (dot_self_eq_zero3.1 h0.symm)
    have h1 := hmin t
    rw [(C39_gram cs c).2 t] at h1
    have h2 : (cs.map fun d => d.1 * (crossProduct d.2.1 (cayley2rot c *ᵥ d.2.2) ⬝ᵥ t) ^ 2) =
        cs.map fun _ => (0 : ℝ) := List.map_congr_left fun d hd => by
      rw [dotProduct_comm, h0 d hd]; ring
    rw [h2] at h1
    simp only [List.map_const', List.sum_replicate, smul_zero, mul_zero] at h1
    by_contra hne
    have : 0 < x * (t ⬝ᵥ t) := mul_pos (lt_of_le_of_ne hx0 (Ne.symm hne)) htt
    linarith

/-- **C39 (Jacobian).** Whenever the Jacobian is defined, the value next to it is the one of
`getSmallestEV`, which is defined nearby, and the Jacobian lists its partial derivatives. -/
theorem C39_jacobian (cs : List (ℝ × Vec3 × Vec3)) (c : Vec3) (v : ℝ) (jac : Vec3)
    (h : getSmallestEVwithJacobian (eigenSums cs) c = some (v, jac)) :
    getSmallestEV (eigenSums cs) c = some v ∧ ∀ k,
      (∀ᶠ x in 𝓝 (c k), (getSmallestEV (eigenSums cs) (Function.update c k x)).isSome) ∧
      HasDerivAt (fun x => (getSmallestEV (eigenSums cs) (Function.update c k x)).getD 0) (jac k)
        (c k) := by
  set s := eigenSums cs with hs
  rw [getSmallestEVwithJacobian] at h
  split at h
  · simp at h
  rename_i hg
  simp only [not_or, not_le, not_lt] at hg
  obtain ⟨ht, habs, hst⟩ := hg
  simp only [Option.some.injEq, Prod.mk.injEq] at h
  obtain ⟨hv, hj⟩ := h
  have hval : getSmallestEV s c = some v := by
    rw [getSmallestEV, smallestEVOf, if_neg (by simp only [not_or, not_le, not_lt]; exact ⟨ht, habs⟩)]
    rw [← hv]; rfl
  refine ⟨hval, fun k => ?_⟩
  have hu : Function.update c k (c k) = c := Function.update_eq_self k c
  have hA : ∀ i j, HasDerivAt (fun x => cayley2rotReduced (Function.update c k x) i j)
      (rJac c k i j) (c k) := rJac_deriv c k
  have hM := composeMJac_deriv (eigenSums_symm cs) hA
  have hM' : ∀ i j, HasDerivAt (fun x => composeM s (Function.update c k x) i j)
      (composeMJac s (cayley2rotReduced c) (rJac c k) i j) (c k) := by
    intro i j
    have := hM i j
    rw [hu] at this
    exact this
  have hst' : evS (cubicB (composeM s c)) (cubicC (composeM s c)) (cubicD (composeM s c)) ^ 2 <
      evT (cubicB (composeM s c)) (cubicC (composeM s c)) := by
    rw [sub_pos, div_lt_one ht] at hst
    exact hst
  have hd := evJac_deriv (M := fun x => composeM s (Function.update c k x)) hM' (by
    rw [hu]; exact ht) (by rw [hu]; exact hst')
  have hb : ContinuousAt (fun x => evT (cubicB (composeM s (Function.update c k x)))
      (cubicC (composeM s (Function.update c k x)))) (c k) := by
    have hc : ∀ i j, ContinuousAt (fun x => composeM s (Function.update c k x) i j) (c k) :=
      fun i j => (hM' i j).continuousAt
    have h00 := hc 0 0
    have h01 := hc 0 1
    have h02 := hc 0 2
    have h11 := hc 1 1
    have h12 := hc 1 2
    have h22 := hc 2 2
    unfold evT cubicB cubicC
    fun_prop
  have hev : ∀ᶠ x in 𝓝 (c k), 0 < evT (cubicB (composeM s (Function.update c k x)))
      (cubicC (composeM s (Function.update c k x))) :=
    hb.eventually (eventually_gt_nhds (by simp only [hu]; exact ht))
  have hsome : ∀ x, 0 < evT (cubicB (composeM s (Function.update c k x)))
      (cubicC (composeM s (Function.update c k x))) →
      getSmallestEV s (Function.update c k x) =
        some (evFormula (cubicB (composeM s (Function.update c k x)))
          (evS (cubicB (composeM s (Function.update c k x)))
            (cubicC (composeM s (Function.update c k x)))
            (cubicD (composeM s (Function.update c k x))))
          (evT (cubicB (composeM s (Function.update c k x)))
            (cubicC (composeM s (Function.update c k x))))) := by
    intro x hx
    have hsym := composeMR_transpose s (cayley2rotReduced (Function.update c k x))
    obtain ⟨y, hy, -, hy2⟩ := smallestEVOf_spec hsym ((evT_pos_iff hsym).1 hx)
    rw [getSmallestEV, composeM, hy, hy2]
  refine ⟨hev.mono fun x hx => by rw [hsome x hx]; rfl, ?_⟩
  have hjk : jac k = evJac (composeM s (Function.update c k (c k)))
      (composeMJac s (cayley2rotReduced c) (rJac c k)) := by
    rw [hu, ← hj]; rfl
  rw [hjk]
  exact hd.congr_of_eventuallyEq (hev.mono fun x hx => by simp only [hsome x hx, Option.getD_some])

/-- **C39 (where the Jacobian is defined).** The Jacobian is undefined exactly when the matrix has
an eigenvalue of multiplicity two or more. -/
theorem C39_jacobian_defined (s : FSums) (c : Vec3) :
    getSmallestEVwithJacobian s c = none ↔
      ∃ x y : ℝ, ∀ z : ℝ, (z • (1 : Mat3) - composeM s c).det = (z - x) ^ 2 * (z - y) := by
  have hM : (composeM s c).transpose = composeM s c := composeMR_transpose s (cayley2rotReduced c)
  obtain ⟨V, l, hV, hd, -⟩ := exists_sorted_diag (composeM s c) hM
  obtain ⟨eb, ec, ed⟩ := cubic_coeffs hM hV hd
  have hdet := diag_det hV hd
  have hdisc : evT (cubicB (composeM s c)) (cubicC (composeM s c)) -
      evS (cubicB (composeM s c)) (cubicC (composeM s c)) (cubicD (composeM s c)) ^ 2 =
      27 * ((l 0 - l 1) * (l 0 - l 2) * (l 1 - l 2)) ^ 2 := by
    rw [evT, evS, eb, ec, ed]; ring
  have hst := evS_sq_le hM
  have hdef : getSmallestEVwithJacobian s c = none ↔
      evT (cubicB (composeM s c)) (cubicC (composeM s c)) ≤
        evS (cubicB (composeM s c)) (cubicC (composeM s c)) (cubicD (composeM s c)) ^ 2 := by
    rw [getSmallestEVwithJacobian, ← composeM]
    generalize evT (cubicB (composeM s c)) (cubicC (composeM s c)) = T at *
    generalize evS (cubicB (composeM s c)) (cubicC (composeM s c)) (cubicD (composeM s c)) = S at *
    constructor
    · intro h
      by_contra hcon
      rw [not_le] at hcon
      have hT : 0 < T := lt_of_le_of_lt (sq_nonneg S) hcon
      rw [if_neg] at h
      · simp at h
      · simp only [not_or, not_le, not_lt]
        refine ⟨hT, ?_, ?_⟩
        · rw [abs_div, abs_of_pos (Real.sqrt_pos.2 hT), div_le_one (Real.sqrt_pos.2 hT)]
          exact Real.abs_le_sqrt hst
        · rw [sub_pos, div_lt_one hT]; exact hcon
    · intro h
      rw [if_pos]
      by_cases hT : T ≤ 0
      · exact Or.inl hT
      · refine Or.inr (Or.inr ?_)
        rw [not_le] at hT
        rw [sub_nonpos, one_le_div hT]
        exact h
  rw [hdef]
  constructor
  · intro h
    have h0 : ((l 0 - l 1) * (l 0 - l 2) * (l 1 - l 2)) ^ 2 = 0 :=
      le_antisymm (by linarith) (sq_nonneg _)
    have h1 := pow_eq_zero_iff two_ne_zero |>.1 h0
    rcases mul_eq_zero.1 h1 with h1 | h1
    · rcases mul_eq_zero.1 h1 with h1 | h1
      · exact ⟨l 0, l 2, fun z => by rw [hdet, ← sub_eq_zero.1 h1]; ring⟩
      · exact ⟨l 0, l 1, fun z => by rw [hdet, ← sub_eq_zero.1 h1]; ring⟩
    · exact ⟨l 1, l 0, fun z => by rw [hdet, ← sub_eq_zero.1 h1]; ring⟩
  · rintro ⟨x, y, h⟩
    have e : ∀ z : ℝ, z ^ 3 + cubicB (composeM s c) * z ^ 2 + cubicC (composeM s c) * z +
        cubicD (composeM s c) = (z - x) ^ 2 * (z - y) := fun z => by rw [← det_cubic hM, h]
    have e0 := e 0
    have e1 := e 1
    have e2 := e (-1)
    have fb : cubicB (composeM s c) = -(2 * x + y) := by linarith
    have fc : cubicC (composeM s c) = x ^ 2 + 2 * x * y := by linarith
    have fd : cubicD (composeM s c) = -(x ^ 2 * y) := by linarith
    rw [evT, evS, fb, fc, fd]
    apply le_of_eq
    ring

example : ∃ v jac, getSmallestEVwithJacobian (eigenSums axesExample) 0 = some (v, jac) := by
  cases h : getSmallestEVwithJacobian (eigenSums axesExample) 0 with
  | some p => exact ⟨p.1, p.2, rfl⟩
  | none =>
    exfalso
    obtain ⟨x, y, hxy⟩ := (C39_jacobian_defined _ _).1 h
    rw [axesExample_M] at hxy
    have e : ∀ z : ℝ, (z - 1) * (z - 2) * (z - 3) = (z - x) ^ 2 * (z - y) := by
      intro z
      rw [← hxy z, det_fin_three]
      simp
    have e1 : (1 - x) ^ 2 * (1 - y) = 0 := by rw [← e]; ring
    have e2 : (2 - x) ^ 2 * (2 - y) = 0 := by rw [← e]; ring
    have e3 : (3 - x) ^ 2 * (3 - y) = 0 := by rw [← e]; ring
    simp only [mul_eq_zero, ne_eq, OfNat.ofNat_ne_zero, not_false_eq_true, pow_eq_zero_iff] at e1 e2 e3
    have e0 := e 0
    rcases e1 with h1 | h1 <;> rcases e2 with h2 | h2 <;> rcases e3 with h3 | h3 <;> linarith

/-- **C39 (pose).** Noise-free correspondences with positive weights, seen in front of both frames
in the first one, not all epipolar planes equal: if the minimisation ends at the true rotation,
the rotation returned is the true one, the smallest eigenvalue is zero, and the translation
returned is a positive multiple of the true one. -/
theorem C39_pose (w : ℝ) (f1 f2 : Vec3) (cs : List (ℝ × Vec3 × Vec3)) (c t : Vec3)
    (D : Fin 3 → ℂ) (V : Matrix (Fin 3) (Fin 3) ℂ) (π : Equiv.Perm (Fin 3))
    (hw : ∀ d ∈ (w, f1, f2) :: cs, 0 < d.1)
    (hunit : f1 ⬝ᵥ f1 = 1 ∧ f2 ⬝ᵥ f2 = 1)
    (hdata : ∀ d ∈ (w, f1, f2) :: cs, ∃ a b : ℝ, b ≠ 0 ∧
      a • d.2.1 = t + b • (cayley2rot c *ᵥ d.2.2))
    (hfront : ∃ a b : ℝ, 0 < a ∧ 0 < b ∧ a • f1 = t + b • (cayley2rot c *ᵥ f2))
    (hfirst : crossProduct t f1 ≠ 0)
    (hplanes : ∃ d ∈ cs, crossProduct (crossProduct t f1) (crossProduct t d.2.1) ≠ 0)
    (heig : IsEigenSystem (composeM (eigenSums ((w, f1, f2) :: cs)) c) D V)
    (hsort : ∀ i j, i ≤ j → (D (π j)).re ≤ (D (π i)).re) :
    let out := fixTranslation f1 f2 (eigensolverMain c D V π)
    out.rotation = cayley2rot c ∧ out.eigenvalues 2 = 0 ∧
      ∃ k : ℝ, 0 < k ∧ out.translation = k • t := by
  set L := (w, f1, f2) :: cs with hL
  set R := cayley2rot c with hR
  set M := composeM (eigenSums L) c with hMdef
  have hMs : M.transpose = M := composeMR_transpose _ _
  have hpos : 0 < (1 + c ⬝ᵥ c) ^ 2 := by
    have := dot_self_nonneg3 c
    positivity
  have ht0 : t ≠ 0 := by rintro rfl; simp at hfirst
  have hMt : M *ᵥ t = 0 := C39_true_pose L c t hdata
  have hreal := eigenSystem_symm heig hMs
  have hform := (C39_gram L c).2
  have hnnl : ∀ v : Vec3, ∀ x ∈ L.map fun d => d.1 * (crossProduct d.2.1 (R *ᵥ d.2.2) ⬝ᵥ v) ^ 2,
      0 ≤ x := by
    intro v x hx
    obtain ⟨d, hd, rfl⟩ := List.mem_map.1 hx
    have := hw d hd
    positivity
  have hD0 : ∀ i, 0 ≤ (D i).re := by
    intro i
    obtain ⟨e1, e2⟩ := eigenSystem_re heig (hreal i)
    have h1 := hform fun j => (V j i).re
    rw [e1, dotProduct_smul, e2, smul_eq_mul, mul_one] at h1
    rw [h1]
    exact mul_nonneg hpos.le (List.sum_nonneg (hnnl _))
  have hzero : (D (π 2)).re = 0 := by
    obtain ⟨i, hi⟩ := eigenvalues_mem heig.values ht0 (x := 0) (by rw [hMt, zero_smul])
    have h1 := hsort (π.symm i) 2 (Fin.le_last _)
    rw [Equiv.apply_symm_apply, hi] at h1
    exact le_antisymm (by simpa using h1) (hD0 _)
  -- normals in terms of the translation
  have hnorm : ∀ d ∈ L, ∃ b : ℝ, b ≠ 0 ∧
      crossProduct d.2.1 (R *ᵥ d.2.2) = b • crossProduct t d.2.1 := by
    intro d hd
    obtain ⟨a, b, hb, e⟩ := hdata d hd
    refine ⟨b⁻¹, inv_ne_zero hb, ?_⟩
    have e2 : t = a • d.2.1 - b • (R *ᵥ d.2.2) := by rw [e]; abel
    rw [e2]
    simp only [map_sub, map_smul, LinearMap.sub_apply, LinearMap.smul_apply, cross_self, smul_zero,
      zero_sub, ← smul_neg, cross_anticomm]
    rw [smul_smul, inv_mul_cancel₀ hb, one_smul]
  have hmem1 : (w, f1, f2) ∈ L := List.mem_cons_self
  -- the eigenvector
  set v : Vec3 := fun j => (V j (π 2)).re with hv
  obtain ⟨ev1, ev2⟩ := eigenSystem_re heig (hreal (π 2))
  rw [← hv, hzero, zero_smul] at ev1
  have hv0 : ∀ d ∈ L, crossProduct t d.2.1 ⬝ᵥ v = 0 := by
    intro d hd
    have h1 := hform v
    rw [ev1, dotProduct_zero] at h1
    have h2 := list_sum_zero (hnnl v) ((mul_eq_zero.1 h1.symm).resolve_left hpos.ne') _
      (List.mem_map_of_mem hd)
    have h3 := pow_eq_zero_iff two_ne_zero |>.1 ((mul_eq_zero.1 h2).resolve_left (hw d hd).ne')
    obtain ⟨b, hb, e⟩ := hnorm d hd
    rw [e, smul_dotProduct, smul_eq_mul] at h3
    exact (mul_eq_zero.1 h3).resolve_left hb
  obtain ⟨d, hd, hpl⟩ := hplanes
  have hκ := hpl
  rw [cross_cross_left] at hκ
  set κ := t ⬝ᵥ crossProduct f1 d.2.1 with hκd
  have hκ0 : κ ≠ 0 := by rintro e; rw [e, zero_smul] at hκ; exact hκ rfl
  have hpar : crossProduct (κ • t) v = 0 := by
    rw [← cross_cross_left]
    have o1 := hv0 _ hmem1
    have o2 := hv0 d (List.mem_cons_of_mem _ hd)
    simp only at o1
    generalize crossProduct t f1 = p at *
    generalize crossProduct t d.2.1 = q at *
    rw [dot3] at o1 o2
    apply ext3
    · simp only [cross_apply, Matrix.cons_val, Pi.zero_apply]
      linear_combination q 0 * o1 - p 0 * o2
    · simp only [cross_apply, Matrix.cons_val, Pi.zero_apply]
      linear_combination q 1 * o1 - p 1 * o2
    · simp only [cross_apply, Matrix.cons_val, Pi.zero_apply]
      linear_combination q 2 * o1 - p 2 * o2
  have hpar2 : crossProduct t v = 0 := by
    rw [map_smul, LinearMap.smul_apply] at hpar
    exact (smul_eq_zero.1 hpar).resolve_left hκ0
  have htt : 0 < t ⬝ᵥ t :=
    lt_of_le_of_ne (dot_self_nonneg3 t) fun h0 => ht0 (dot_self_eq_zero3.1 h0.symm)
  have hvt : v = ((t ⬝ᵥ v) / (t ⬝ᵥ t)) • t := by
    have e0 := congrFun hpar2 0
    have e1 := congrFun hpar2 1
    have e2 := congrFun hpar2 2
    simp only [cross_apply, Matrix.cons_val, Pi.zero_apply] at e0 e1 e2
    have key : (t ⬝ᵥ t) • v = (t ⬝ᵥ v) • t := by
      rw [dot3, dot3]
      apply ext3 <;> simp only [Pi.smul_apply, smul_eq_mul]
      · linear_combination t 2 * e1 - t 1 * e2
      · linear_combination t 0 * e2 - t 2 * e0
      · linear_combination t 1 * e0 - t 0 * e1
    rw [div_eq_inv_mul, mul_smul, ← key, smul_smul, inv_mul_cancel₀ htt.ne', one_smul]
  set m := (t ⬝ᵥ v) / (t ⬝ᵥ t) with hm
  have hm0 : m ≠ 0 := by
    intro h0
    rw [h0, zero_smul] at hvt
    rw [← hv, hvt] at ev2
    simp at ev2
  -- the magnitude
  have hmag : 0 < √((D (π 0)).re ^ 2 + (D (π 1)).re ^ 2) := by
    apply Real.sqrt_pos.2
    have hne : (D (π 0)).re ≠ 0 := by
      intro h0
      have hall : ∀ i, (D i).re = 0 := fun i => by
        have h1 := hsort 0 (π.symm i) (Fin.zero_le _)
        rw [Equiv.apply_symm_apply, h0] at h1
        exact le_antisymm h1 (hD0 i)
      obtain ⟨U, l, hU, hUd, -⟩ := exists_sorted_diag M hMs
      have hUU := rot_mul_transpose hU
      have hl : l = 0 := by
        funext j
        have e1 : M * U = U * diagonal l := by
          rw [← hUd, ← Matrix.mul_assoc, ← Matrix.mul_assoc, hUU, Matrix.one_mul]
        obtain ⟨i, hi⟩ := eigenvalues_mem heig.values (x := l j) (v := fun i => U i j) (by
          intro h2
          have h1 := congrFun (congrFun hU j) j
          rw [Matrix.mul_apply] at h1
          have h3 : ∀ i, U i j = 0 := congrFun h2
          simp [h3] at h1) (by
          funext i
          have := congrFun (congrFun e1 i) j
          rw [Matrix.mul_apply, mul_diagonal] at this
          rw [mulVec, dotProduct, this, Pi.smul_apply, smul_eq_mul, mul_comm])
        have := hall i
        rw [hi] at this
        simpa using this
      have hM0 : M = 0 := by
        have : M = U * (U.transpose * M * U) * U.transpose := by
          rw [show U * (U.transpose * M * U) * U.transpose =
            (U * U.transpose) * M * (U * U.transpose) by simp only [Matrix.mul_assoc], hUU,
            Matrix.one_mul, Matrix.mul_one]
        rw [this, hUd, hl]
        simp
      have h1 := hform (crossProduct t f1)
      rw [← hMdef, hM0, zero_mulVec, dotProduct_zero] at h1
      have h2 := list_sum_zero (hnnl _) ((mul_eq_zero.1 h1.symm).resolve_left hpos.ne') _
        (List.mem_map_of_mem hmem1)
      have h3 := pow_eq_zero_iff two_ne_zero |>.1
        ((mul_eq_zero.1 h2).resolve_left (hw _ hmem1).ne')
      obtain ⟨b, hb, e⟩ := hnorm _ hmem1
      rw [e, smul_dotProduct, smul_eq_mul] at h3
      exact hfirst (dot_self_eq_zero3.1 ((mul_eq_zero.1 h3).resolve_left hb))
    have := sq_nonneg (D (π 1)).re
    positivity
  -- the sign
  obtain ⟨a, b, ha, hb, e⟩ := hfront
  have hRr := cayley2rot_isRot c
  have hg : (R *ᵥ f2) ⬝ᵥ (R *ᵥ f2) = 1 := by rw [rot_dot hRr.1, hunit.2]
  have hflow := flow_dot hunit.1 hg e
  have hlt : f1 ⬝ᵥ (R *ᵥ f2) < 1 := by
    refine lt_of_le_of_ne (unit_dot_bounds hunit.1 hg).2 fun e1 => ?_
    have e2 := (unit_dot_eq_one hunit.1 hg).1 e1
    obtain ⟨b', hb', e3⟩ := hnorm _ hmem1
    simp only at e3
    rw [← e2, cross_self] at e3
    exact hfirst ((smul_eq_zero.1 e3.symm).resolve_left hb')
  have hfl : 0 < (f1 - R *ᵥ f2) ⬝ᵥ t := by
    rw [hflow]; exact mul_pos (by linarith) (by linarith)
  have htr : (eigensolverMain c D V π).translation =
      (√((D (π 0)).re ^ 2 + (D (π 1)).re ^ 2) * m) • t := by
    rw [mul_smul, ← hvt]; rfl
  have hrot : (eigensolverMain c D V π).rotation = R := rfl
  have hev : (eigensolverMain c D V π).eigenvalues 2 = 0 := hzero
  intro out
  have hout : out = fixTranslation f1 f2 (eigensolverMain c D V π) := rfl
  rw [fixTranslation] at hout
  rw [hrot, htr, dotProduct_smul, smul_eq_mul] at hout
  rcases lt_or_gt_of_ne hm0 with hneg | hpos2
  · rw [if_pos (mul_neg_of_neg_of_pos (mul_neg_of_pos_of_neg hmag hneg) hfl)] at hout
    refine ⟨by rw [hout], by rw [hout]; exact hev,
      -(√((D (π 0)).re ^ 2 + (D (π 1)).re ^ 2) * m), ?_, ?_⟩
    · have := mul_neg_of_pos_of_neg hmag hneg
      linarith
    · rw [hout, neg_smul]
  · rw [if_neg (not_lt.2 (mul_pos (mul_pos hmag hpos2) hfl).le)] at hout
    exact ⟨by rw [hout]; exact hrot, by rw [hout]; exact hev, _, mul_pos hmag hpos2,
      by rw [hout]; exact htr⟩

/- Five points seen from `(0,0,0)` and from `(3,0,0)`, without rotation. -/
example : ∃ (w : ℝ) (f1 f2 : Vec3) (cs : List (ℝ × Vec3 × Vec3)) (c t : Vec3)
    (D : Fin 3 → ℂ) (V : Matrix (Fin 3) (Fin 3) ℂ) (π : Equiv.Perm (Fin 3)),
    cs.length = 4 ∧ (∀ d ∈ (w, f1, f2) :: cs, 0 < d.1) ∧ (f1 ⬝ᵥ f1 = 1 ∧ f2 ⬝ᵥ f2 = 1) ∧
    (∀ d ∈ (w, f1, f2) :: cs, ∃ a b : ℝ, b ≠ 0 ∧
      a • d.2.1 = t + b • (cayley2rot c *ᵥ d.2.2)) ∧
    (∃ a b : ℝ, 0 < a ∧ 0 < b ∧ a • f1 = t + b • (cayley2rot c *ᵥ f2)) ∧
    crossProduct t f1 ≠ 0 ∧
    (∃ d ∈ cs, crossProduct (crossProduct t f1) (crossProduct t d.2.1) ≠ 0) ∧
    IsEigenSystem (composeM (eigenSums ((w, f1, f2) :: cs)) c) D V ∧
    (∀ i j, i ≤ j → (D (π j)).re ≤ (D (π i)).re) := by
  have hR : cayley2rot 0 = 1 := by
    apply mat3_ext <;> simp [cayley2rot]
  set cs : List (ℝ × Vec3 × Vec3) := [(1, ![0, 1, 0], ![-(3/5), 4/5, 0]),
    (1, ![3/5, 4/5, 0], ![0, 1, 0]), (1, ![3/5, 0, 4/5], ![0, 0, 1]),
    (1, ![0, 0, -1], ![-(3/5), 0, -(4/5)])] with hcs
  obtain ⟨D, V, hDV⟩ := exists_eigenSystem
    (composeM (eigenSums (((1 : ℝ), ![0, 0, 1], ![-(3/5), 0, 4/5]) :: cs)) 0)
  obtain ⟨π, hπ⟩ := exists_sort_desc fun i => (D i).re
  refine ⟨1, ![0, 0, 1], ![-(3/5), 0, 4/5], cs, 0, ![3, 0, 0], D, V, π, rfl, ?_, ?_, ?_, ?_, ?_, ?_,
    hDV, hπ⟩
  · simp [hcs]
  · constructor
    · simp
    · simp; norm_num
  · intro d hd
    rw [hR]
    simp only [hcs, List.mem_cons, List.not_mem_nil, or_false] at hd
    rcases hd with rfl | rfl | rfl | rfl | rfl
    · exact ⟨4, 5, by norm_num, by apply ext3 <;> simp <;> norm_num⟩
    · exact ⟨4, 5, by norm_num, by apply ext3 <;> simp <;> norm_num⟩
    · exact ⟨5, 4, by norm_num, by apply ext3 <;> simp <;> norm_num⟩
    · exact ⟨5, 4, by norm_num, by apply ext3 <;> simp <;> norm_num⟩
    · exact ⟨4, 5, by norm_num, by apply ext3 <;> simp <;> norm_num⟩
  · refine ⟨4, 5, by norm_num, by norm_num, ?_⟩
    rw [hR]
    apply ext3 <;> simp <;> norm_num
  · intro h
    have := congrFun h 1
    simp [cross_apply] at this
  · refine ⟨(1, ![0, 1, 0], ![-(3/5), 4/5, 0]), by simp [hcs], ?_⟩
    intro h
    have := congrFun h 0
    simp [cross_apply] at this

end OpenGV.Props
