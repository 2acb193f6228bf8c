import Verif.Model.Upnp
import Verif.Proof.Rotation
import Verif.Proof.Arun
import Mathlib.LinearAlgebra.Matrix.ToLinearEquiv

/-!
# Helper lemmas for UPnP
-/

namespace OpenGV

open Matrix

theorem fill3x10_mul (p : Vec3) (q : Quat) :
    fill3x10 p *ᵥ upnpFillS q = quaternion2rot q *ᵥ p := by
  apply ext3 <;> rw [mulVec3] <;>
    simp [mulVec, dotProduct, Fin.sum_univ_succ, fill3x10, upnpFillS, quaternion2rot] <;> ring

theorem list_sum_mulVec {α : Type*} {m n : ℕ} (l : List α) (A : α → Matrix (Fin m) (Fin n) ℝ)
    (s : Fin n → ℝ) : (l.map A).sum *ᵥ s = (l.map fun o => A o *ᵥ s).sum := by
  induction l with
  | nil => simp
  | cons a l ih => simp [add_mulVec, ih]

theorem list_mulVec_sum {α : Type*} {m n : ℕ} (l : List α) (A : Matrix (Fin m) (Fin n) ℝ)
    (v : α → Fin n → ℝ) : A *ᵥ (l.map v).sum = (l.map fun o => A *ᵥ v o).sum := by
  induction l with
  | nil => simp
  | cons a l ih => simp [mulVec_add, ih]

theorem list_sum_dot {α : Type*} {n : ℕ} (l : List α) (v : α → Fin n → ℝ) (w : Fin n → ℝ) :
    (l.map v).sum ⬝ᵥ w = (l.map fun o => v o ⬝ᵥ w).sum := by
  induction l with
  | nil => simp
  | cons a l ih => simp [add_dotProduct, ih]

theorem list_dot_sum {α : Type*} {n : ℕ} (l : List α) (v : α → Fin n → ℝ) (w : Fin n → ℝ) :
    w ⬝ᵥ (l.map v).sum = (l.map fun o => w ⬝ᵥ v o).sum := by
  induction l with
  | nil => simp
  | cons a l ih => simp [dotProduct_add, ih]

/-! ### The projector -/

theorem temp_mulVec (f x : Vec3) : upnpTemp f *ᵥ x = (f ⬝ᵥ x) • f - x := by
  unfold upnpTemp
  rw [sub_mulVec, one_mulVec]
  congr 1
  apply ext3 <;> rw [mulVec3, dot3] <;> simp [vecMulVec_apply] <;> ring

theorem temp_dot (f : Vec3) (hf : f ⬝ᵥ f = 1) (x y : Vec3) :
    (upnpTemp f *ᵥ x) ⬝ᵥ (upnpTemp f *ᵥ y) = -(x ⬝ᵥ (upnpTemp f *ᵥ y)) := by
  rw [temp_mulVec, temp_mulVec]
  simp only [sub_dotProduct, dotProduct_sub, smul_dotProduct, dotProduct_smul, smul_eq_mul, hf,
    dotProduct_comm x f]
  ring

theorem temp_sq (f : Vec3) (hf : f ⬝ᵥ f = 1) (x : Vec3) :
    (upnpTemp f *ᵥ x) ⬝ᵥ (upnpTemp f *ᵥ x) = x ⬝ᵥ x - (f ⬝ᵥ x) ^ 2 := by
  rw [temp_dot f hf, temp_mulVec]
  simp only [dotProduct_sub, dotProduct_smul, smul_eq_mul, dotProduct_comm x f]
  ring

/-- The squared distance to the line is at most the squared distance to any point of it. -/
theorem temp_sq_le (f : Vec3) (hf : f ⬝ᵥ f = 1) (x : Vec3) (l : ℝ) :
    (upnpTemp f *ᵥ x) ⬝ᵥ (upnpTemp f *ᵥ x) ≤ (x - l • f) ⬝ᵥ (x - l • f) := by
  rw [temp_sq f hf]
  simp only [sub_dotProduct, dotProduct_sub, smul_dotProduct, dotProduct_smul, smul_eq_mul, hf,
    dotProduct_comm x f]
  nlinarith [sq_nonneg (f ⬝ᵥ x - l)]

theorem temp_sq_eq (f : Vec3) (hf : f ⬝ᵥ f = 1) (x : Vec3) :
    (upnpTemp f *ᵥ x) ⬝ᵥ (upnpTemp f *ᵥ x) = (x - (f ⬝ᵥ x) • f) ⬝ᵥ (x - (f ⬝ᵥ x) • f) := by
  rw [temp_sq f hf]
  simp only [sub_dotProduct, dotProduct_sub, smul_dotProduct, dotProduct_smul, smul_eq_mul, hf,
    dotProduct_comm x f]
  ring

/-! ### The translation -/

theorem hinv_mulVec (obs : List UpnpObs) (x : Vec3) :
    upnpHinv obs *ᵥ x = -(obs.map fun o => upnpTemp o.f *ᵥ x).sum := by
  unfold upnpHinv
  rw [sub_mulVec, smul_mulVec, one_mulVec, list_sum_mulVec]
  induction obs with
  | nil => simp
  | cons o l ih =>
    simp only [List.length_cons, List.map_cons, List.sum_cons, Nat.cast_add, Nat.cast_one, add_smul,
      one_smul, neg_add]
    rw [← ih, upnpTemp, sub_mulVec, one_mulVec]
    abel

theorem tinv_eq (obs : List UpnpObs) (q : Quat) : upnpTinv obs q =
    upnpH obs *ᵥ (obs.map fun o => upnpTemp o.f *ᵥ (quaternion2rot q *ᵥ o.p - o.v)).sum := by
  unfold upnpTinv upnpI upnpJ
  rw [list_sum_mulVec, list_mulVec_sum]
  generalize upnpH obs = H
  induction obs with
  | nil => simp
  | cons o l ih =>
    simp only [List.map_cons, List.sum_cons] at ih ⊢
    rw [← ih, ← mulVec_mulVec, fill3x10_mul, ← mulVec_mulVec, ← mulVec_mulVec, mulVec_sub,
      mulVec_sub]
    abel

/-- The normal equations of the translation. -/
theorem tinv_normal (obs : List UpnpObs) (hdet : (upnpHinv obs).det ≠ 0) (q : Quat) :
    (obs.map fun o => upnpTemp o.f *ᵥ
      (quaternion2rot q *ᵥ o.p + upnpTinv obs q - o.v)).sum = 0 := by
  have h1 : upnpHinv obs *ᵥ upnpTinv obs q =
      (obs.map fun o => upnpTemp o.f *ᵥ (quaternion2rot q *ᵥ o.p - o.v)).sum := by
    rw [tinv_eq, mulVec_mulVec, upnpH, mul_nonsing_inv _ (isUnit_iff_ne_zero.2 hdet), one_mulVec]
  rw [hinv_mulVec] at h1
  have h2 : (obs.map fun o => upnpTemp o.f *ᵥ
      (quaternion2rot q *ᵥ o.p + upnpTinv obs q - o.v)).sum =
      (obs.map fun o => upnpTemp o.f *ᵥ (quaternion2rot q *ᵥ o.p - o.v)).sum +
      (obs.map fun o => upnpTemp o.f *ᵥ upnpTinv obs q).sum := by
    generalize upnpTinv obs q = t
    clear h1 hdet
    induction obs with
    | nil => simp
    | cons o l ih =>
      simp only [List.map_cons, List.sum_cons]
      rw [ih, add_sub_right_comm, mulVec_add]
      abel
  rw [h2, ← h1]
  simp

/-- The residual of one correspondence. -/
theorem residual_eq (obs : List UpnpObs) (o : UpnpObs) (q : Quat) :
    upnpA obs o *ᵥ upnpFillS q + upnpB obs o =
      upnpTemp o.f *ᵥ (quaternion2rot q *ᵥ o.p + upnpTinv obs q - o.v) := by
  unfold upnpA upnpB upnpTinv
  rw [← mulVec_mulVec, add_mulVec, fill3x10_mul, ← mulVec_neg, ← mulVec_add]
  congr 1
  abel

theorem energy_sum_aux {l : List UpnpObs} {A : UpnpObs → Matrix (Fin 3) (Fin 10) ℝ}
    {b : UpnpObs → Vec3} (s : Fin 10 → ℝ) :
    s ⬝ᵥ ((l.map fun o => (A o).transpose * A o).sum *ᵥ s) +
      2 * ((l.map fun o => b o ᵥ* A o).sum ⬝ᵥ s) + (l.map fun o => b o ⬝ᵥ b o).sum =
    (l.map fun o => (A o *ᵥ s + b o) ⬝ᵥ (A o *ᵥ s + b o)).sum := by
  induction l with
  | nil => simp
  | cons o l ih =>
    simp only [List.map_cons, List.sum_cons]
    rw [← ih, add_mulVec, dotProduct_add, add_dotProduct, ← mulVec_mulVec, dotProduct_mulVec,
      vecMul_transpose, ← dotProduct_mulVec]
    simp only [add_dotProduct, dotProduct_add, dotProduct_comm (A o *ᵥ s) (b o)]
    ring

/-- The energy is the sum of the squared residuals at the computed translation. -/
theorem energy_eq (obs : List UpnpObs) (q : Quat) :
    upnpEnergy (upnpM obs) (upnpC obs) (upnpGamma obs) q =
      (obs.map fun o =>
        (upnpTemp o.f *ᵥ (quaternion2rot q *ᵥ o.p + upnpTinv obs q - o.v)) ⬝ᵥ
        (upnpTemp o.f *ᵥ (quaternion2rot q *ᵥ o.p + upnpTinv obs q - o.v))).sum := by
  unfold upnpEnergy upnpM upnpC upnpGamma
  rw [energy_sum_aux]
  simp only [residual_eq]

theorem energy_nonneg (obs : List UpnpObs) (q : Quat) :
    0 ≤ upnpEnergy (upnpM obs) (upnpC obs) (upnpGamma obs) q := by
  rw [energy_eq]
  exact List.sum_nonneg (by
    intro x hx
    obtain ⟨o, -, rfl⟩ := List.mem_map.1 hx
    exact dot_self_nonneg3 _)

theorem sum_expand (obs : List UpnpObs) (hf : ∀ o ∈ obs, o.f ⬝ᵥ o.f = 1) (y : UpnpObs → Vec3)
    (t t' : Vec3) :
    (obs.map fun o => (upnpTemp o.f *ᵥ (y o + t')) ⬝ᵥ (upnpTemp o.f *ᵥ (y o + t'))).sum =
    (obs.map fun o => (upnpTemp o.f *ᵥ (y o + t)) ⬝ᵥ (upnpTemp o.f *ᵥ (y o + t))).sum -
    2 * ((t' - t) ⬝ᵥ (obs.map fun o => upnpTemp o.f *ᵥ (y o + t)).sum) +
    (obs.map fun o => (upnpTemp o.f *ᵥ (t' - t)) ⬝ᵥ (upnpTemp o.f *ᵥ (t' - t))).sum := by
  induction obs with
  | nil => simp
  | cons o l ih =>
    simp only [List.map_cons, List.sum_cons, dotProduct_add]
    rw [ih fun o ho => hf o (List.mem_cons_of_mem _ ho)]
    have h : y o + t' = (y o + t) + (t' - t) := by abel
    have e := temp_dot o.f (hf o List.mem_cons_self) (t' - t) (y o + t)
    rw [h, mulVec_add, add_dotProduct, dotProduct_add, dotProduct_add,
      dotProduct_comm (upnpTemp o.f *ᵥ (y o + t)) (upnpTemp o.f *ᵥ (t' - t)), e]
    ring

theorem sum_min (obs : List UpnpObs) (hf : ∀ o ∈ obs, o.f ⬝ᵥ o.f = 1)
    (hdet : (upnpHinv obs).det ≠ 0) (q : Quat) (t : Vec3) :
    upnpEnergy (upnpM obs) (upnpC obs) (upnpGamma obs) q ≤
      (obs.map fun o => (upnpTemp o.f *ᵥ (quaternion2rot q *ᵥ o.p + t - o.v)) ⬝ᵥ
        (upnpTemp o.f *ᵥ (quaternion2rot q *ᵥ o.p + t - o.v))).sum := by
  rw [energy_eq]
  have e : ∀ (o : UpnpObs) (t : Vec3), quaternion2rot q *ᵥ o.p + t - o.v =
      (quaternion2rot q *ᵥ o.p - o.v) + t := fun o t => by abel
  have hn := tinv_normal obs hdet q
  simp only [e] at hn ⊢
  rw [sum_expand obs hf (fun o => quaternion2rot q *ᵥ o.p - o.v) (upnpTinv obs q) t, hn,
    dotProduct_zero, mul_zero, sub_zero, le_add_iff_nonneg_right]
  exact List.sum_nonneg (by
    intro x hx
    obtain ⟨o, -, rfl⟩ := List.mem_map.1 hx
    exact dot_self_nonneg3 _)

/-- `H_inv` is singular exactly if all bearing vectors are parallel. -/
theorem hinv_dot (obs : List UpnpObs) (hf : ∀ o ∈ obs, o.f ⬝ᵥ o.f = 1) (x : Vec3) :
    x ⬝ᵥ (upnpHinv obs *ᵥ x) =
      (obs.map fun o => (upnpTemp o.f *ᵥ x) ⬝ᵥ (upnpTemp o.f *ᵥ x)).sum := by
  rw [hinv_mulVec, dotProduct_neg, list_dot_sum]
  induction obs with
  | nil => simp
  | cons o l ih =>
    simp only [List.map_cons, List.sum_cons, neg_add]
    rw [ih fun o ho => hf o (List.mem_cons_of_mem _ ho), temp_dot _ (hf o List.mem_cons_self)]

theorem temp_eq_zero {f x : Vec3} (h : upnpTemp f *ᵥ x = 0) : x = (f ⬝ᵥ x) • f := by
  rw [temp_mulVec, sub_eq_zero] at h
  exact h.symm

theorem sum_eq_zero_of_nonneg {α : Type*} {l : List α} {g : α → ℝ} (h : ∀ a, 0 ≤ g a)
    (h0 : (l.map g).sum = 0) : ∀ a ∈ l, g a = 0 := by
  induction l with
  | nil => simp
  | cons b l ih =>
    have hs : 0 ≤ (l.map g).sum := List.sum_nonneg (by
      intro x hx
      obtain ⟨o, -, rfl⟩ := List.mem_map.1 hx
      exact h o)
    rw [List.map_cons, List.sum_cons] at h0
    have hb := h b
    intro a ha
    rcases List.mem_cons.1 ha with rfl | ha
    · linarith
    · exact ih (by linarith) a ha

theorem cross_of_parallel {f g x : Vec3} {a b : ℝ} (hf : x = a • f) (hg : x = b • g) :
    0 = (a * b) • crossProduct f g := by
  rw [← cross_self x]
  conv_lhs => rw [hg]
  conv_lhs => enter [1]; rw [← hg, hf]
  simp only [map_smul, LinearMap.smul_apply, smul_smul]
  rw [mul_comm]

theorem hinv_det_ne (obs : List UpnpObs) (hf : ∀ o ∈ obs, o.f ⬝ᵥ o.f = 1) {o1 o2 : UpnpObs}
    (h1 : o1 ∈ obs) (h2 : o2 ∈ obs) (hne : crossProduct o1.f o2.f ≠ 0) :
    (upnpHinv obs).det ≠ 0 := by
  intro h0
  obtain ⟨x, hx, hx0⟩ := Matrix.exists_mulVec_eq_zero_iff.2 h0
  have h := hinv_dot obs hf x
  rw [hx0, dotProduct_zero] at h
  have hz : ∀ o ∈ obs, (upnpTemp o.f *ᵥ x) ⬝ᵥ (upnpTemp o.f *ᵥ x) = 0 :=
    sum_eq_zero_of_nonneg (g := fun o : UpnpObs => (upnpTemp o.f *ᵥ x) ⬝ᵥ (upnpTemp o.f *ᵥ x))
      (fun o => dot_self_nonneg3 _) h.symm
  have e1 : x = (o1.f ⬝ᵥ x) • o1.f := temp_eq_zero (dot_self_eq_zero3.1 (hz o1 h1))
  have e2 : x = (o2.f ⬝ᵥ x) • o2.f := temp_eq_zero (dot_self_eq_zero3.1 (hz o2 h2))
  have n1 : o1.f ⬝ᵥ x ≠ 0 := fun e => hx (by rw [e1, e, zero_smul])
  have n2 : o2.f ⬝ᵥ x ≠ 0 := fun e => hx (by rw [e2, e, zero_smul])
  have e3 := cross_of_parallel e1 e2
  exact hne ((smul_eq_zero.1 e3.symm).resolve_left (mul_ne_zero n1 n2))

theorem hinv_det_eq (obs : List UpnpObs) {f : Vec3} (hf0 : f ≠ 0) (hf : f ⬝ᵥ f = 1)
    (h : ∀ o ∈ obs, o.f = f ∨ o.f = -f) : (upnpHinv obs).det = 0 := by
  apply Matrix.exists_mulVec_eq_zero_iff.1
  refine ⟨f, hf0, ?_⟩
  rw [hinv_mulVec, neg_eq_zero]
  apply List.sum_eq_zero
  intro x hx
  obtain ⟨o, ho, rfl⟩ := List.mem_map.1 hx
  rw [temp_mulVec]
  rcases h o ho with e | e <;> rw [e] <;> simp [hf]

end OpenGV
