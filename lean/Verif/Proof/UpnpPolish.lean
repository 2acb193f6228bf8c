import Verif.Proof.UpnpSelect
import Mathlib.Topology.Order.Compact
import Mathlib.Analysis.Normed.Module.FiniteDimension

/-!
# Helper lemmas for the last step of UPnP
-/

namespace OpenGV

open Matrix

/-! ### The objective as a function of the rotation -/

/-- The translation for a rotation. -/
noncomputable def transOf (obs : List UpnpObs) (R : Mat3) : Vec3 :=
  upnpH obs *ᵥ (obs.map fun o => upnpTemp o.f *ᵥ (R *ᵥ o.p - o.v)).sum

/-- The objective for a rotation. -/
noncomputable def energyOf (obs : List UpnpObs) (R : Mat3) : ℝ :=
  (obs.map fun o => (upnpTemp o.f *ᵥ (R *ᵥ o.p + transOf obs R - o.v)) ⬝ᵥ
    (upnpTemp o.f *ᵥ (R *ᵥ o.p + transOf obs R - o.v))).sum

theorem energy_eq_of (obs : List UpnpObs) (q : Quat) :
    upnpEnergy (upnpM obs) (upnpC obs) (upnpGamma obs) q = energyOf obs (quaternion2rot q) := by
  rw [energy_eq, energyOf, transOf]
  simp only [tinv_eq]

theorem hinv_rotate (R : Mat3) (obs : List UpnpObs) :
    upnpHinv (upnpRotate R obs) = upnpHinv obs := by
  unfold upnpHinv upnpRotate
  rw [List.length_map, List.map_map]
  rfl

theorem transOf_rotate (R R' : Mat3) (obs : List UpnpObs) :
    transOf (upnpRotate R obs) R' = transOf obs (R' * R) := by
  unfold transOf
  rw [upnpH, hinv_rotate, upnpRotate, List.map_map, upnpH]
  simp only [Function.comp_def, mulVec_mulVec]

theorem energyOf_rotate (R R' : Mat3) (obs : List UpnpObs) :
    energyOf (upnpRotate R obs) R' = energyOf obs (R' * R) := by
  unfold energyOf
  simp only [transOf_rotate]
  rw [upnpRotate, List.map_map]
  simp only [Function.comp_def, mulVec_mulVec]

/-! ### The expansion -/

/-- Linear part of the monomials. -/
def linPart (d : Vec3) : Fin 10 → ℝ := ![0, 0, 0, 0, d 0, d 1, d 2, 0, 0, 0]

/-- Quadratic part of the monomials. -/
def quadPart (d : Vec3) : Fin 10 → ℝ :=
  ![0, d 0 ^ 2, d 1 ^ 2, d 2 ^ 2, 0, 0, 0, d 0 * d 1, d 0 * d 2, d 1 * d 2]

/-- The constant part of the monomials. -/
def constPart : Fin 10 → ℝ := ![1, 0, 0, 0, 0, 0, 0, 0, 0, 0]

/-- The quaternion of Cayley parameters. -/
noncomputable def cayQuat (c : Vec3) : Quat :=
  let n := √(1 + c 0 ^ 2 + c 1 ^ 2 + c 2 ^ 2)
  ![1 / n, c 0 / n, c 1 / n, c 2 / n]

theorem cayQuat_den (c : Vec3) : 0 < 1 + c 0 ^ 2 + c 1 ^ 2 + c 2 ^ 2 := by positivity

theorem cayQuat_rot (c : Vec3) : quaternion2rot (cayQuat c) = cayley2rot c := by
  have h := Real.sq_sqrt (cayQuat_den c).le
  have hn : √(1 + c 0 ^ 2 + c 1 ^ 2 + c 2 ^ 2) ≠ 0 := (Real.sqrt_pos.2 (cayQuat_den c)).ne'
  have h0 := (cayQuat_den c).ne'
  apply mat3_ext <;> simp only [quaternion2rot, cayQuat, cayley2rot] <;> simp <;> field_simp <;>
    rw [h]

theorem cayQuat_fillS (x : ℝ) (d : Vec3) : upnpFillS (cayQuat (x • d)) =
    (1 + x ^ 2 * (d 0 ^ 2 + d 1 ^ 2 + d 2 ^ 2))⁻¹ •
      (constPart + x • linPart d + x ^ 2 • quadPart d) := by
  have h := Real.sq_sqrt (cayQuat_den (x • d)).le
  have hn : √(1 + (x • d) 0 ^ 2 + (x • d) 1 ^ 2 + (x • d) 2 ^ 2) ≠ 0 :=
    (Real.sqrt_pos.2 (cayQuat_den (x • d))).ne'
  have h0 : 1 + (x • d) 0 ^ 2 + (x • d) 1 ^ 2 + (x • d) 2 ^ 2 =
    1 + x ^ 2 * (d 0 ^ 2 + d 1 ^ 2 + d 2 ^ 2) := by simp; ring
  rw [h0] at h hn
  have h2 : (1 + x ^ 2 * (d 0 ^ 2 + d 1 ^ 2 + d 2 ^ 2)) ≠ 0 := by positivity
  unfold upnpFillS cayQuat
  rw [h0]
  funext i
  fin_cases i <;> simp [constPart, linPart, quadPart] <;> field_simp <;> rw [h]

theorem quotient_taylor (p0 p1 p2 p3 p4 r x : ℝ) (hr : 0 ≤ r) (hx0 : 0 ≤ x) (hx : x ≤ 1) :
    |(p0 + p1 * x + p2 * x ^ 2 + p3 * x ^ 3 + p4 * x ^ 4) / (1 + x ^ 2 * r) ^ 2 -
      (p0 + p1 * x + (p2 - 2 * r * p0) * x ^ 2)| ≤
    (|p3 - 2 * r * p1| + |p4 - 2 * r * (p2 - 2 * r * p0) - r ^ 2 * p0| + r ^ 2 * |p1| +
      r ^ 2 * |p2 - 2 * r * p0|) * x ^ 3 := by
  have hd : 1 ≤ (1 + x ^ 2 * r) ^ 2 := by
    have : 0 ≤ x ^ 2 * r := by positivity
    nlinarith
  have e : (p0 + p1 * x + p2 * x ^ 2 + p3 * x ^ 3 + p4 * x ^ 4) / (1 + x ^ 2 * r) ^ 2 -
      (p0 + p1 * x + (p2 - 2 * r * p0) * x ^ 2) =
      (p3 - 2 * r * p1 + (p4 - 2 * r * (p2 - 2 * r * p0) - r ^ 2 * p0) * x - r ^ 2 * p1 * x ^ 2 -
        r ^ 2 * (p2 - 2 * r * p0) * x ^ 3) * x ^ 3 / (1 + x ^ 2 * r) ^ 2 := by
    have : (1 + x ^ 2 * r) ≠ 0 := by positivity
    field_simp
    ring
  rw [e, abs_div, abs_of_pos (by linarith : 0 < (1 + x ^ 2 * r) ^ 2), abs_mul,
    abs_of_nonneg (by positivity : 0 ≤ x ^ 3)]
  refine (div_le_self (by positivity) hd).trans (mul_le_mul_of_nonneg_right ?_ (by positivity))
  generalize p4 - 2 * r * (p2 - 2 * r * p0) - r ^ 2 * p0 = u
  generalize p3 - 2 * r * p1 = w
  generalize p2 - 2 * r * p0 = t
  have hx2 : x ^ 2 ≤ 1 := by nlinarith
  have hx3 : x ^ 3 ≤ 1 := by nlinarith
  refine (abs_sub _ _).trans (add_le_add ((abs_sub _ _).trans (add_le_add
    ((abs_add_le _ _).trans (add_le_add le_rfl ?_)) ?_)) ?_)
  · rw [abs_mul, abs_of_nonneg hx0]
    exact mul_le_of_le_one_right (abs_nonneg _) hx
  · rw [abs_mul, abs_mul, abs_of_nonneg (sq_nonneg x), abs_of_nonneg (sq_nonneg r)]
    exact mul_le_of_le_one_right (by positivity) hx2
  · rw [abs_mul, abs_mul, abs_of_nonneg (by positivity : 0 ≤ x ^ 3), abs_of_nonneg (sq_nonneg r)]
    exact mul_le_of_le_one_right (by positivity) hx3

theorem grad_dot (M : Matrix (Fin 10) (Fin 10) ℝ) (C : Fin 10 → ℝ) (d : Vec3) :
    upnpGrad M C ⬝ᵥ d = 2 * (constPart ⬝ᵥ (M *ᵥ linPart d)) + 2 * (C ⬝ᵥ linPart d) := by
  rw [dot3]
  simp [upnpGrad, constPart, linPart, mulVec, dotProduct, Fin.sum_univ_succ]
  ring

theorem jac_dot (M : Matrix (Fin 10) (Fin 10) ℝ) (hM : Mᵀ = M) (C : Fin 10 → ℝ) (d : Vec3) :
    1 / 2 * (d ⬝ᵥ (upnpJac M C *ᵥ d)) = linPart d ⬝ᵥ (M *ᵥ linPart d) +
      2 * (constPart ⬝ᵥ (M *ᵥ quadPart d)) + 2 * (C ⬝ᵥ quadPart d) -
      2 * (d 0 ^ 2 + d 1 ^ 2 + d 2 ^ 2) * (M 0 0 + C 0) := by
  have h : ∀ i j, M i j = M j i := fun i j => congrFun (congrFun hM j) i
  rw [dot3, mulVec3, mulVec3, mulVec3]
  simp [upnpJac, constPart, linPart, quadPart, mulVec, dotProduct, Fin.sum_univ_succ]
  rw [h 5 4, h 6 4, h 6 5]
  ring

theorem dot_symm (M : Matrix (Fin 10) (Fin 10) ℝ) (hM : Mᵀ = M) (u v : Fin 10 → ℝ) :
    u ⬝ᵥ (M *ᵥ v) = v ⬝ᵥ (M *ᵥ u) := by
  rw [dotProduct_comm, dotProduct_mulVec v, ← mulVec_transpose, hM]

/-- The second-order expansion of the objective in the Cayley parameters. -/
theorem energy_taylor (M : Matrix (Fin 10) (Fin 10) ℝ) (hM : Mᵀ = M) (C : Fin 10 → ℝ)
    (gamma : ℝ) : ∃ K : ℝ, ∀ c : Vec3, ‖c‖ ≤ 1 →
      |upnpEnergy M C gamma (cayQuat c) - (upnpEnergy M C gamma (cayQuat 0) +
        upnpGrad M C ⬝ᵥ c + 1 / 2 * (c ⬝ᵥ (upnpJac M C *ᵥ c)))| ≤ K * ‖c‖ ^ 3 := by
  obtain ⟨r, hr⟩ : ∃ r : Vec3 → ℝ, r = fun d => d 0 ^ 2 + d 1 ^ 2 + d 2 ^ 2 := ⟨_, rfl⟩
  obtain ⟨p0, hp0⟩ : ∃ p : ℝ, p = M 0 0 + 2 * C 0 + gamma := ⟨_, rfl⟩
  obtain ⟨p1, hp1⟩ : ∃ p : Vec3 → ℝ, p = fun d =>
    2 * (constPart ⬝ᵥ (M *ᵥ linPart d)) + 2 * (C ⬝ᵥ linPart d) := ⟨_, rfl⟩
  obtain ⟨p2, hp2⟩ : ∃ p : Vec3 → ℝ, p = fun d =>
    2 * (constPart ⬝ᵥ (M *ᵥ quadPart d)) + linPart d ⬝ᵥ (M *ᵥ linPart d) +
      2 * (C ⬝ᵥ quadPart d) + 2 * r d * C 0 + 2 * r d * gamma := ⟨_, rfl⟩
  obtain ⟨p3, hp3⟩ : ∃ p : Vec3 → ℝ, p = fun d =>
    2 * (linPart d ⬝ᵥ (M *ᵥ quadPart d)) + 2 * r d * (C ⬝ᵥ linPart d) := ⟨_, rfl⟩
  obtain ⟨p4, hp4⟩ : ∃ p : Vec3 → ℝ, p = fun d =>
    quadPart d ⬝ᵥ (M *ᵥ quadPart d) + 2 * r d * (C ⬝ᵥ quadPart d) + gamma * r d ^ 2 := ⟨_, rfl⟩
  have cl : Continuous linPart := by
    refine continuous_pi fun i => ?_
    fin_cases i <;> simp [linPart] <;> fun_prop
  have cq : Continuous quadPart := by
    refine continuous_pi fun i => ?_
    fin_cases i <;> simp [quadPart] <;> fun_prop
  have cr : Continuous r := by rw [hr]; fun_prop
  have c1 : Continuous p1 := by
    rw [hp1]; simp only [dotProduct, mulVec]; fun_prop
  have c2 : Continuous p2 := by
    rw [hp2]; simp only [dotProduct, mulVec]; fun_prop
  have c3 : Continuous p3 := by
    rw [hp3]; simp only [dotProduct, mulVec]; fun_prop
  have c4 : Continuous p4 := by
    rw [hp4]; simp only [dotProduct, mulVec]; fun_prop
  obtain ⟨K, hK⟩ := (isCompact_closedBall (0 : Vec3) 1).exists_bound_of_continuousOn
    (f := fun d => |p3 d - 2 * r d * p1 d| + |p4 d - 2 * r d * (p2 d - 2 * r d * p0) -
      r d ^ 2 * p0| + r d ^ 2 * |p1 d| + r d ^ 2 * |p2 d - 2 * r d * p0|)
    (by fun_prop)
  have main : ∀ (x : ℝ) (d : Vec3), upnpEnergy M C gamma (cayQuat (x • d)) =
      (p0 + p1 d * x + p2 d * x ^ 2 + p3 d * x ^ 3 + p4 d * x ^ 4) / (1 + x ^ 2 * r d) ^ 2 := by
    intro x d
    have hne : (1 + x ^ 2 * r d) ≠ 0 := by
      rw [hr]; positivity
    have hc : ∀ u : Fin 10 → ℝ, constPart ⬝ᵥ u = u 0 := by
      intro u
      simp [constPart, dotProduct, Fin.sum_univ_succ]
    have hm : (M *ᵥ constPart) 0 = M 0 0 := by
      simp [constPart, mulVec, dotProduct, Fin.sum_univ_succ]
    unfold upnpEnergy
    rw [cayQuat_fillS]
    have e : d 0 ^ 2 + d 1 ^ 2 + d 2 ^ 2 = r d := by rw [hr]
    rw [e]
    simp only [mulVec_smul, mulVec_add, dotProduct_smul, smul_dotProduct, dotProduct_add,
      add_dotProduct, smul_eq_mul]
    rw [dot_symm M hM (linPart d) constPart, dot_symm M hM (quadPart d) constPart,
      dot_symm M hM (quadPart d) (linPart d), dotProduct_comm C constPart, hc (M *ᵥ constPart), hm,
      hc C, hp0, hp1, hp2, hp3, hp4]
    field_simp
    ring
  refine ⟨K, fun c hc => ?_⟩
  obtain ⟨x, d, hd, hx, rfl⟩ : ∃ (x : ℝ) (d : Vec3), ‖d‖ ≤ 1 ∧ x = ‖c‖ ∧ c = x • d := by
    by_cases h : c = 0
    · exact ⟨0, 0, by simp, by simp [h], by simp [h]⟩
    · have hn : ‖c‖ ≠ 0 := norm_ne_zero_iff.2 h
      refine ⟨‖c‖, ‖c‖⁻¹ • c, ?_, rfl, ?_⟩
      · rw [norm_smul, norm_inv, norm_norm, inv_mul_cancel₀ hn]
      · rw [smul_smul, mul_inv_cancel₀ hn, one_smul]
  have hx0 : 0 ≤ x := by rw [hx]; exact norm_nonneg _
  have hx1 : x ≤ 1 := by rw [hx]; exact hc
  have h0 : upnpEnergy M C gamma (cayQuat 0) = p0 := by
    have := main 0 0
    simpa using this
  have hg : upnpGrad M C ⬝ᵥ (x • d) = p1 d * x := by
    rw [dotProduct_smul, grad_dot, hp1, smul_eq_mul]
    ring
  have hj : 1 / 2 * ((x • d) ⬝ᵥ (upnpJac M C *ᵥ (x • d))) = (p2 d - 2 * r d * p0) * x ^ 2 := by
    have := jac_dot M hM C d
    rw [mulVec_smul, dotProduct_smul, smul_dotProduct, smul_eq_mul, smul_eq_mul,
      show ∀ y : ℝ, 1 / 2 * (x * (x * y)) = 1 / 2 * y * x ^ 2 by intro y; ring, this, hp2, hp0, hr]
    ring
  rw [← hx, main, h0, hg, hj]
  have hr0 : 0 ≤ r d := by rw [hr]; positivity
  refine (quotient_taylor p0 (p1 d) (p2 d) (p3 d) (p4 d) (r d) x hr0 hx0 hx1).trans
    (mul_le_mul_of_nonneg_right ?_ (by positivity))
  exact (le_abs_self _).trans (hK d (by simpa using hd))

theorem upnpM_symm (obs : List UpnpObs) : (upnpM obs)ᵀ = upnpM obs := by
  unfold upnpM
  generalize upnpA obs = A
  induction obs with
  | nil => simp
  | cons o l ih => simp only [List.map_cons, List.sum_cons, transpose_add, ih, transpose_mul,
      transpose_transpose]

/-! ### Data without noise -/

theorem transOf_exact (obs : List UpnpObs) (hdet : (upnpHinv obs).det ≠ 0) {R : Mat3} {t : Vec3}
    (h : ∀ o ∈ obs, upnpTemp o.f *ᵥ (R *ᵥ o.p + t - o.v) = 0) : transOf obs R = t := by
  have e : (obs.map fun o => upnpTemp o.f *ᵥ (R *ᵥ o.p - o.v)).sum = upnpHinv obs *ᵥ t := by
    rw [hinv_mulVec, List.sum_neg]
    rw [List.map_map]
    congr 1
    apply List.map_congr_left
    intro o ho
    have := h o ho
    rw [add_sub_right_comm, mulVec_add] at this
    exact eq_neg_of_add_eq_zero_left this
  rw [transOf, e, mulVec_mulVec, upnpH, nonsing_inv_mul _ (isUnit_iff_ne_zero.2 hdet), one_mulVec]

theorem tinv_eq_of (obs : List UpnpObs) (q : Quat) :
    upnpTinv obs q = transOf obs (quaternion2rot q) := by
  rw [tinv_eq, transOf]

theorem quat_one : quaternion2rot ![1, 0, 0, 0] = 1 := by
  apply mat3_ext <;> simp [quaternion2rot]

theorem fillS_one : upnpFillS ![1, 0, 0, 0] = constPart := by
  funext i
  fin_cases i <;> simp [upnpFillS, constPart]

/-- The residuals at the identity vanish. -/
theorem residual_zero (obs : List UpnpObs) (hdet : (upnpHinv obs).det ≠ 0) {t : Vec3}
    (h : ∀ o ∈ obs, upnpTemp o.f *ᵥ (o.p + t - o.v) = 0) :
    ∀ o ∈ obs, upnpA obs o *ᵥ constPart + upnpB obs o = 0 := by
  intro o ho
  have ht : transOf obs 1 = t := transOf_exact obs hdet (by simpa using h)
  rw [← fillS_one, residual_eq, tinv_eq_of, quat_one, ht, one_mulVec]
  exact h o ho

theorem stationary_aux {l : List UpnpObs} {A : UpnpObs → Matrix (Fin 3) (Fin 10) ℝ}
    {b : UpnpObs → Vec3} {s : Fin 10 → ℝ} (h : ∀ o ∈ l, A o *ᵥ s + b o = 0) :
    (l.map fun o => (A o).transpose * A o).sum *ᵥ s + (l.map fun o => b o ᵥ* A o).sum = 0 := by
  induction l with
  | nil => simp
  | cons o l ih =>
    have h1 := h o List.mem_cons_self
    have h2 := ih fun o ho => h o (List.mem_cons_of_mem _ ho)
    have h3 : ((A o).transpose * A o) *ᵥ s + b o ᵥ* A o = 0 := by
      rw [← mulVec_mulVec, ← mulVec_transpose, ← mulVec_add, h1, mulVec_zero]
    simp only [List.map_cons, List.sum_cons, add_mulVec]
    rw [add_add_add_comm, h3, h2, add_zero]

theorem stationary (obs : List UpnpObs) (hdet : (upnpHinv obs).det ≠ 0) {t : Vec3}
    (h : ∀ o ∈ obs, upnpTemp o.f *ᵥ (o.p + t - o.v) = 0) :
    upnpM obs *ᵥ constPart + upnpC obs = 0 :=
  stationary_aux (residual_zero obs hdet h)

theorem grad_exact (obs : List UpnpObs) (hdet : (upnpHinv obs).det ≠ 0) {t : Vec3}
    (h : ∀ o ∈ obs, upnpTemp o.f *ᵥ (o.p + t - o.v) = 0) :
    upnpGrad (upnpM obs) (upnpC obs) = 0 := by
  rw [← dot_self_eq_zero3, grad_dot, dot_symm _ (upnpM_symm obs), dotProduct_comm (upnpC obs),
    ← mul_add, ← dotProduct_add, stationary obs hdet h, dotProduct_zero, mul_zero]

theorem lin_sq_aux {l : List UpnpObs} {A : UpnpObs → Matrix (Fin 3) (Fin 10) ℝ}
    (s : Fin 10 → ℝ) : s ⬝ᵥ ((l.map fun o => (A o).transpose * A o).sum *ᵥ s) =
      (l.map fun o => (A o *ᵥ s) ⬝ᵥ (A o *ᵥ s)).sum := by
  induction l with
  | nil => simp
  | cons o l ih =>
    simp only [List.map_cons, List.sum_cons]
    rw [← ih, add_mulVec, dotProduct_add, ← mulVec_mulVec, dotProduct_mulVec, vecMul_transpose]

theorem jac_exact (obs : List UpnpObs) (hdet : (upnpHinv obs).det ≠ 0) {t : Vec3}
    (h : ∀ o ∈ obs, upnpTemp o.f *ᵥ (o.p + t - o.v) = 0) (d : Vec3) :
    d ⬝ᵥ (upnpJac (upnpM obs) (upnpC obs) *ᵥ d) =
      2 * (obs.map fun o => (upnpA obs o *ᵥ linPart d) ⬝ᵥ (upnpA obs o *ᵥ linPart d)).sum := by
  have hj := jac_dot (upnpM obs) (upnpM_symm obs) (upnpC obs) d
  have hs := stationary obs hdet h
  have h1 : constPart ⬝ᵥ (upnpM obs *ᵥ quadPart d) + upnpC obs ⬝ᵥ quadPart d = 0 := by
    rw [dot_symm _ (upnpM_symm obs), dotProduct_comm (upnpC obs), ← dotProduct_add, hs,
      dotProduct_zero]
  have h2 : upnpM obs 0 0 + upnpC obs 0 = 0 := by
    have := congrFun hs 0
    simpa [constPart, mulVec, dotProduct, Fin.sum_univ_succ] using this
  rw [h2, mul_zero] at hj
  have h3 : linPart d ⬝ᵥ (upnpM obs *ᵥ linPart d) = _ := lin_sq_aux (linPart d)
  rw [← h3]
  linarith

theorem fill_lin (p d : Vec3) : fill3x10 p *ᵥ linPart d = (2 : ℝ) • crossProduct d p := by
  rw [cross_apply]
  funext i
  fin_cases i <;>
    simp [fill3x10, linPart, mulVec, dotProduct, Fin.sum_univ_succ] <;> ring

theorem cross_of_temp {f x : Vec3} (h : upnpTemp f *ᵥ x = 0) : crossProduct f x = 0 := by
  rw [temp_eq_zero h, map_smul, cross_self, smul_zero]

/-- The matrix of the Newton step has an inverse if the pose is determined to first order. -/
theorem jac_det_ne (obs : List UpnpObs) (hdet : (upnpHinv obs).det ≠ 0) {t : Vec3}
    (h : ∀ o ∈ obs, upnpTemp o.f *ᵥ (o.p + t - o.v) = 0)
    (hr : ∀ w e : Vec3, (∀ o ∈ obs, crossProduct o.f (crossProduct w o.p + e) = 0) → w = 0) :
    (upnpJac (upnpM obs) (upnpC obs)).det ≠ 0 := by
  intro h0
  obtain ⟨d, hd, hd0⟩ := Matrix.exists_mulVec_eq_zero_iff.2 h0
  have hj := jac_exact obs hdet h d
  rw [hd0, dotProduct_zero] at hj
  have hz : ∀ o ∈ obs, (upnpA obs o *ᵥ linPart d) ⬝ᵥ (upnpA obs o *ᵥ linPart d) = 0 :=
    sum_eq_zero_of_nonneg
      (g := fun o : UpnpObs => (upnpA obs o *ᵥ linPart d) ⬝ᵥ (upnpA obs o *ᵥ linPart d))
      (fun o => dot_self_nonneg3 _) (by linarith)
  apply hd
  have h2 : (2 : ℝ) • d = 0 := hr _ (upnpI obs *ᵥ linPart d) (by
    intro o ho
    have h1 := dot_self_eq_zero3.1 (hz o ho)
    rw [upnpA, ← mulVec_mulVec, add_mulVec, fill_lin] at h1
    rw [map_smul, LinearMap.smul_apply]
    exact cross_of_temp h1)
  exact (smul_eq_zero.1 h2).resolve_left two_ne_zero

theorem cayley2rot_zero : cayley2rot 0 = 1 := by
  apply mat3_ext <;> simp [cayley2rot]

/-- For data without noise the last step does not move a correct rotation. -/
theorem polish_exact (obs : List UpnpObs) (hdet : (upnpHinv obs).det ≠ 0) {t : Vec3} {q : Quat}
    (h : ∀ o ∈ obs, upnpTemp o.f *ᵥ (quaternion2rot q *ᵥ o.p + t - o.v) = 0)
    (hr : ∀ w e : Vec3, (∀ o ∈ obs,
      crossProduct o.f (crossProduct w (quaternion2rot q *ᵥ o.p) + e) = 0) → w = 0) :
    upnpPolish obs q = (rot2quaternion (quaternion2rot q)).map fun q2 =>
      upnpPose (quaternion2rot q) (upnpTinv obs q2) := by
  have h' : ∀ o ∈ upnpRotate (quaternion2rot q) obs, upnpTemp o.f *ᵥ (o.p + t - o.v) = 0 := by
    intro o ho
    obtain ⟨o', ho', rfl⟩ := List.mem_map.1 ho
    exact h o' ho'
  have hdet' : (upnpHinv (upnpRotate (quaternion2rot q) obs)).det ≠ 0 := by rwa [hinv_rotate]
  have hj := jac_det_ne _ hdet' h' (by
    intro w e hw
    refine hr w e fun o ho => ?_
    exact hw _ (List.mem_map_of_mem ho))
  unfold upnpPolish
  simp only
  rw [if_neg hj, grad_exact _ hdet' h', mulVec_zero, neg_zero, cayley2rot_zero, one_mul]

/-! ### The list of candidates -/

theorem mem_step {M : Matrix (Fin 10) (Fin 10) ℝ} {C : Fin 10 → ℝ} {gamma th : ℝ}
    {l : List UpnpCand} {c : UpnpCand} (v : Quat) (h : c ∈ l) :
    c ∈ upnpStep M C gamma th l v := by
  classical
  unfold upnpStep
  split
  · exact (mem_upnpInsert _ _ _).2 (Or.inr h)
  · split_ifs
    · exact h
    · exact (mem_upnpInsert _ _ _).2 (Or.inr h)

theorem mem_foldl_step {M : Matrix (Fin 10) (Fin 10) ℝ} {C : Fin 10 → ℝ} {gamma th : ℝ}
    (vs : List Quat) {l : List UpnpCand} {c : UpnpCand} (h : c ∈ l) :
    c ∈ vs.foldl (upnpStep M C gamma th) l := by
  induction vs generalizing l with
  | nil => exact h
  | cons v vs ih => exact ih (mem_step v h)

/-- Every vector is represented in the list. -/
theorem foldl_step_near {M : Matrix (Fin 10) (Fin 10) ℝ} {C : Fin 10 → ℝ} {gamma th : ℝ}
    (hth : 0 < th) (vs : List Quat) (l : List UpnpCand) {v q : Quat} (hv : v ∈ vs)
    (hq : upnpNormalize v = some q) :
    ∃ e, some e ∈ vs.foldl (upnpStep M C gamma th) l ∧ quatNorm (q - e.2) < th := by
  classical
  induction vs generalizing l with
  | nil => simp at hv
  | cons w vs ih =>
    rw [List.foldl_cons]
    rcases List.mem_cons.1 hv with rfl | hv
    · by_cases hx : ∃ c ∈ l, ∃ e, c = some e ∧ quatNorm (q - e.2) < th
      · obtain ⟨c, hc, e, rfl, hlt⟩ := hx
        exact ⟨e, mem_foldl_step vs (mem_step v hc), hlt⟩
      · refine ⟨(upnpEnergy M C gamma q, q), mem_foldl_step vs ?_, by simp [quatNorm, hth]⟩
        simp only [upnpStep, hq]
        rw [if_neg hx]
        exact (mem_upnpInsert _ _ _).2 (Or.inl rfl)
    · exact ih _ hv

/-- Every entry of the list comes from a vector. -/
theorem foldl_step_from {M : Matrix (Fin 10) (Fin 10) ℝ} {C : Fin 10 → ℝ} {gamma th : ℝ}
    (vs : List Quat) (l : List UpnpCand) {e : ℝ × Quat}
    (h : some e ∈ vs.foldl (upnpStep M C gamma th) l) :
    some e ∈ l ∨ ∃ v ∈ vs, upnpNormalize v = some e.2 := by
  classical
  induction vs generalizing l with
  | nil => exact Or.inl h
  | cons v vs ih =>
    rw [List.foldl_cons] at h
    rcases ih _ h with h | ⟨w, hw, h⟩
    · unfold upnpStep at h
      split at h
      · rcases (mem_upnpInsert _ _ _).1 h with h | h
        · simp at h
        · exact Or.inl h
      · rename_i q hq
        split_ifs at h
        · exact Or.inl h
        · rcases (mem_upnpInsert _ _ _).1 h with h | h
          · obtain rfl := Option.some.inj h
            exact Or.inr ⟨v, List.mem_cons_self, hq⟩
          · exact Or.inl h
    · exact Or.inr ⟨w, List.mem_cons_of_mem _ hw, h⟩

theorem mem_foldl_sym {M : Matrix (Fin 10) (Fin 10) ℝ} {C : Fin 10 → ℝ} {gamma : ℝ}
    (vs : List Quat) (l : List UpnpCand) (c : UpnpCand) :
    c ∈ vs.foldl (fun l v =>
        upnpInsert ((upnpNormalizeSym v).map fun q => (upnpEnergy M C gamma q, q)) l) l ↔
      c ∈ l ∨ ∃ v ∈ vs, c = (upnpNormalizeSym v).map fun q => (upnpEnergy M C gamma q, q) := by
  induction vs generalizing l with
  | nil => simp
  | cons v vs ih =>
    rw [List.foldl_cons, ih, mem_upnpInsert]
    simp only [List.mem_cons, exists_eq_or_imp]
    tauto

end OpenGV
