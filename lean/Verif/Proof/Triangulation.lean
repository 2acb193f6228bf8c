import Verif.Model.Triangulation
import Verif.Proof.Geometry
import Verif.Proof.MultiAdapter

namespace OpenGV

open Matrix

/-- Determinant of the 2x2 system. -/
theorem tri_det (f g : Vec3) :
    (f ⬝ᵥ f) * -(g ⬝ᵥ g) - -(f ⬝ᵥ g) * (f ⬝ᵥ g) =
      -(crossProduct f g ⬝ᵥ crossProduct f g) := by
  rw [← lagrange]; ring

theorem tri_det_zero_iff (f g : Vec3) :
    (f ⬝ᵥ f) * -(g ⬝ᵥ g) - -(f ⬝ᵥ g) * (f ⬝ᵥ g) = 0 ↔ crossProduct f g = 0 := by
  rw [tri_det, neg_eq_zero, dot_self_eq_zero3]

/-- Vanishing cross product is linear dependence. -/
theorem cross_eq_zero_iff (f g : Vec3) :
    crossProduct f g = 0 ↔ ∃ a b : ℝ, (a ≠ 0 ∨ b ≠ 0) ∧ a • f = b • g := by
  constructor
  · intro h
    by_cases hg : g = 0
    · exact ⟨0, 1, .inr one_ne_zero, by simp [hg]⟩
    · refine ⟨g ⬝ᵥ g, f ⬝ᵥ g, .inl (fun e => hg (dot_self_eq_zero3.1 e)), ?_⟩
      have h0 := congrFun h 0
      have h1 := congrFun h 1
      have h2 := congrFun h 2
      simp [cross_apply] at h0 h1 h2
      apply ext3 <;> simp only [dot3, Pi.smul_apply, smul_eq_mul]
      · linear_combination g 1 * h2 - g 2 * h1
      · linear_combination -g 0 * h2 + g 2 * h0
      · linear_combination g 0 * h1 - g 1 * h0
  · rintro ⟨a, b, hab, e⟩
    rcases hab with ha | hb
    · have : f = (a⁻¹ * b) • g := by rw [mul_smul, ← e, smul_smul, inv_mul_cancel₀ ha, one_smul]
      rw [this]; simp
    · have : g = (b⁻¹ * a) • f := by rw [mul_smul, e, smul_smul, inv_mul_cancel₀ hb, one_smul]
      rw [this]; simp

/-- The two parameters solve the normal equations. -/
theorem tri_normal (t f g : Vec3) (hd : (f ⬝ᵥ f) * -(g ⬝ᵥ g) - -(f ⬝ᵥ g) * (f ⬝ᵥ g) ≠ 0) :
    let d := (f ⬝ᵥ f) * -(g ⬝ᵥ g) - -(f ⬝ᵥ g) * (f ⬝ᵥ g)
    let l0 := (-(g ⬝ᵥ g) * (t ⬝ᵥ f) - -(f ⬝ᵥ g) * (t ⬝ᵥ g)) / d
    let l1 := (-(f ⬝ᵥ g) * (t ⬝ᵥ f) + (f ⬝ᵥ f) * (t ⬝ᵥ g)) / d
    (l0 • f - (t + l1 • g)) ⬝ᵥ f = 0 ∧ (l0 • f - (t + l1 • g)) ⬝ᵥ g = 0 := by
  intro d l0 l1
  simp only [sub_dotProduct, add_dotProduct, smul_dotProduct, smul_eq_mul]
  have h0 : l0 * d = -(g ⬝ᵥ g) * (t ⬝ᵥ f) - -(f ⬝ᵥ g) * (t ⬝ᵥ g) := div_mul_cancel₀ _ hd
  have h1 : l1 * d = -(f ⬝ᵥ g) * (t ⬝ᵥ f) + (f ⬝ᵥ f) * (t ⬝ᵥ g) := div_mul_cancel₀ _ hd
  have hdd : d = (f ⬝ᵥ f) * -(g ⬝ᵥ g) - -(f ⬝ᵥ g) * (f ⬝ᵥ g) := rfl
  have hd' : d ≠ 0 := hd
  clear_value d l0 l1
  rw [dotProduct_comm g f]
  constructor
  · apply mul_left_cancel₀ hd'
    linear_combination (f ⬝ᵥ f) * h0 - (f ⬝ᵥ g) * h1 - (t ⬝ᵥ f) * hdd
  · apply mul_left_cancel₀ hd'
    linear_combination (f ⬝ᵥ g) * h0 - (g ⬝ᵥ g) * h1 - (t ⬝ᵥ g) * hdd

/-- Kernel of the linear system: both projections are in the measured directions. -/
theorem triA_kernel (t : Vec3) (R : Mat3) (f1 f2 : Vec3) (x : Fin 4 → ℝ) :
    triangulateA t R f1 f2 *ᵥ x = 0 ↔
      let p : Vec3 := ![x 0, x 1, x 2]
      let q : Vec3 := R.transpose *ᵥ (p - x 3 • t)
      f1 0 * p 2 = f1 2 * p 0 ∧ f1 1 * p 2 = f1 2 * p 1 ∧
      f2 0 * q 2 = f2 2 * q 0 ∧ f2 1 * q 2 = f2 2 * q 1 := by
  have e : ∀ i, (triangulateA t R f1 f2 *ᵥ x) i =
      ![f1 0 * x 2 - f1 2 * x 0, f1 1 * x 2 - f1 2 * x 1,
        f2 0 * (R.transpose *ᵥ (![x 0, x 1, x 2] - x 3 • t)) 2 -
          f2 2 * (R.transpose *ᵥ (![x 0, x 1, x 2] - x 3 • t)) 0,
        f2 1 * (R.transpose *ᵥ (![x 0, x 1, x 2] - x 3 • t)) 2 -
          f2 2 * (R.transpose *ᵥ (![x 0, x 1, x 2] - x 3 • t)) 1] i := by
    intro i
    fin_cases i <;>
      simp [triangulateA, mulVec, dotProduct, Fin.sum_univ_three, Fin.sum_univ_four] <;> ring
  constructor
  · intro h
    have h0 := congrFun h 0
    have h1 := congrFun h 1
    have h2 := congrFun h 2
    have h3 := congrFun h 3
    rw [e] at h0 h1 h2 h3
    simp only [Pi.zero_apply] at h0 h1 h2 h3
    exact ⟨sub_eq_zero.1 h0, sub_eq_zero.1 h1, sub_eq_zero.1 h2, sub_eq_zero.1 h3⟩
  · rintro ⟨h0, h1, h2, h3⟩
    funext i
    rw [e]
    fin_cases i
    · exact sub_eq_zero.2 h0
    · exact sub_eq_zero.2 h1
    · exact sub_eq_zero.2 h2
    · exact sub_eq_zero.2 h3

/-- Two components proportional, third non-zero: the vectors are parallel. -/
theorem parallel_of_rows {f p : Vec3} (hf : f 2 ≠ 0) (h0 : f 0 * p 2 = f 2 * p 0)
    (h1 : f 1 * p 2 = f 2 * p 1) : p = (p 2 / f 2) • f := by
  apply ext3 <;> simp only [Pi.smul_apply, smul_eq_mul] <;> field_simp <;> linarith

/-! ### Multi-camera scores -/

open MultiAdapter

theorem mapM_congr {α β : Type} {f g : α → Option β} : ∀ {l : List α}, (∀ a ∈ l, f a = g a) →
    l.mapM f = l.mapM g := by
  intro l
  induction l with
  | nil => intro _; rfl
  | cons a l ih =>
    intro h
    rw [List.mapM_cons, List.mapM_cons, h a (by simp), ih (fun b hb => h b (by simp [hb]))]

theorem zipIdx_range (n : ℕ) : (List.range n).zipIdx = (List.range n).map (fun i => (i, i)) := by
  apply List.ext_getElem
  · simp
  · intro i h1 h2
    simp

/-- The score the code computes for entry `q.1` at position `q.2`. -/
noncomputable def multiScoreAt (data1 data2 : List (List Vec3)) (poses : ℕ → Vec3 × Mat3)
    (cam : ℕ) (q : ℕ × ℕ) : Option ℝ :=
  match getMulti data1 cam q.1, getMulti data2 cam q.1, getMulti data1 cam q.2,
    getMulti data2 cam q.2 with
  | some g1, some g2, some f1, some f2 =>
    (triangulate2 (poses cam).1 (poses cam).2 g1 g2).bind
      (fun x => reprojScore (poses cam).1 (poses cam).2 x f1 f2)
  | _, _, _, _ => none

theorem multiScoresInner_eq (data1 data2 : List (List Vec3)) (poses : ℕ → Vec3 × Mat3) (cam : ℕ) :
    ∀ (todo : List ℕ) (k : ℕ) (acc : List ℝ),
      (∀ i ∈ todo, ∃ l, data2[cam]? = some l ∧ i < l.length) →
      multiScoresInner (tables (data2.map List.length)) data1 data2 (poses cam).1 (poses cam).2 cam
        todo k acc = ((todo.zipIdx k).mapM (multiScoreAt data1 data2 poses cam)).map (acc ++ ·) := by
  intro todo
  induction todo with
  | nil => intro k acc _; simp [multiScoresInner]
  | cons i is ih =>
    intro k acc h
    obtain ⟨l, hl, hi⟩ := h i (by simp)
    obtain ⟨_, _, _, h4, h5⟩ := tables_spec (data2.map List.length)
    have hcam : cam < (data2.map List.length).length := by
      simpa using (List.getElem?_eq_some_iff.1 hl).1
    obtain ⟨h6, h7⟩ := h5 cam l.length i (by simp [hl]) hi
    have hser : ∀ d : List (List Vec3), getSerial (tables (data2.map List.length)) d
        (((data2.map List.length).take cam).sum + i) = getMulti d cam i := by
      intro d
      simp only [getSerial, multiFrameIndex, multiCorrespondenceIndex, h6, h7]
    have hconv : convertMultiIndex (tables (data2.map List.length)) cam i =
        some (((data2.map List.length).take cam).sum + i) := by
      simp only [convertMultiIndex, h4 cam hcam]
    rw [multiScoresInner]
    simp only [hconv, hser]
    rw [List.zipIdx_cons, List.mapM_cons]
    have ih' := fun acc => ih (k + 1) acc (fun j hj => h j (by simp [hj]))
    cases e1 : getMulti data1 cam i with
    | none => simp [multiScoreAt, e1]
    | some g1 =>
      cases e2 : getMulti data2 cam i with
      | none => simp [multiScoreAt, e1, e2]
      | some g2 =>
        cases e3 : getMulti data1 cam k with
        | none => simp [multiScoreAt, e1, e2, e3]
        | some f1 =>
          cases e4 : getMulti data2 cam k with
          | none => simp [multiScoreAt, e1, e2, e3, e4]
          | some f2 =>
            cases e5 : triangulate2 (poses cam).1 (poses cam).2 g1 g2 with
            | none => simp [multiScoreAt, e1, e2, e3, e4, e5]
            | some x =>
              cases e6 : reprojScore (poses cam).1 (poses cam).2 x f1 f2 with
              | none => simp [multiScoreAt, e1, e2, e3, e4, e5, e6]
              | some sc =>
                simp only [multiScoreAt, e1, e2, e3, e4, e5, e6, Option.bind_some]
                rw [ih']
                cases (List.zipIdx is (k + 1)).mapM (multiScoreAt data1 data2 poses cam) with
                | none => rfl
                | some b => simp

end OpenGV
