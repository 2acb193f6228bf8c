import Verif.Model.Experiment
import Verif.Proof.Arun
import Verif.Proof.SacProblems
import Mathlib.Analysis.SpecialFunctions.Trigonometric.Basic
import Mathlib.Tactic.Linarith
import Mathlib.Tactic.LinearCombination
import Mathlib.Tactic.Positivity

/-! Lemmas about the simulated experiments. -/

namespace OpenGV.Experiment

open Matrix

/-! ### The loops -/

theorem camLoop_spec {α : Type} (cams : List Cam) (mk : ℕ → ℕ → Cam → Vec3 → α) (ps : List Vec3) (i cam : ℕ)
    (hcam : cam < cams.length) :
    ∃ l, camLoop cams mk ps i cam = some (l, (cam + ps.length) % cams.length) ∧ l.length = ps.length ∧
      ∀ k p c, ps[k]? = some p → cams[(cam + k) % cams.length]? = some c →
        l[k]? = some (mk (i + k) ((cam + k) % cams.length) c p) := by
  induction ps generalizing i cam with
  | nil => exact ⟨[], by simp [camLoop, Nat.mod_eq_of_lt hcam], rfl, by simp⟩
  | cons p ps ih =>
    have hnext : (if cam + 1 > cams.length - 1 then 0 else cam + 1) = (cam + 1) % cams.length := by
      split_ifs with h
      · rw [show cam + 1 = cams.length by omega, Nat.mod_self]
      · rw [Nat.mod_eq_of_lt (by omega)]
    obtain ⟨l, h1, h2, h3⟩ := ih (i + 1) ((cam + 1) % cams.length) (Nat.mod_lt _ (by omega))
    refine ⟨mk i cam cams[cam] p :: l, ?_, by simp [h2], ?_⟩
    · simp only [camLoop, List.getElem?_eq_getElem hcam, hnext, h1, Option.map_some, List.length_cons]
      rw [Nat.mod_add_mod]
      congr 3
      omega
    · intro k q c hq hc
      cases k with
      | zero =>
        simp only [Nat.add_zero, Nat.mod_eq_of_lt hcam] at hc ⊢
        rw [List.getElem?_eq_getElem hcam] at hc
        cases hc
        cases hq
        rfl
      | succ k =>
        have := h3 k q c (by simpa using hq) (by rw [Nat.mod_add_mod]; convert hc using 3; omega)
        rw [List.getElem?_cons_succ, this, Nat.mod_add_mod, show cam + 1 + k = cam + (k + 1) by omega,
          show i + 1 + k = i + (k + 1) by omega]

theorem camLoop_none {α : Type} (mk : ℕ → ℕ → Cam → Vec3 → α) (p : Vec3) (ps : List Vec3) (i cam : ℕ) :
    camLoop [] mk (p :: ps) i cam = none := by
  simp [camLoop]

theorem outlierLoop_spec {α : Type} (upd : α → Vec3 → Option α) (I : ℕ → α → Prop)
    (hI : ∀ k s q, I k s → ∃ s', upd s q = some s' ∧ I k s') (qs : List Vec3) (i : ℕ) (l : List α)
    (hl : ∀ k s, l[k]? = some s → I k s) (hlen : i + qs.length ≤ l.length) :
    ∃ l', outlierLoop upd qs i l = some l' ∧ l'.length = l.length ∧
      (∀ k, k < i ∨ i + qs.length ≤ k → l'[k]? = l[k]?) ∧
      ∀ k q s, i ≤ k → qs[k - i]? = some q → l[k]? = some s → l'[k]? = upd s q := by
  induction qs generalizing i l with
  | nil =>
    exact ⟨l, rfl, rfl, fun _ _ => rfl, by simp⟩
  | cons q qs ih =>
    have hi : i < l.length := by simp only [List.length_cons] at hlen; omega
    obtain ⟨s', hs', hIs'⟩ := hI i l[i] q (hl i _ (List.getElem?_eq_getElem hi))
    obtain ⟨l', h1, h2, h3, h4⟩ := ih (i + 1) (l.set i s')
      (by
        intro k s hk
        by_cases h : k = i
        · subst h
          rw [List.getElem?_set_self hi] at hk
          cases hk
          exact hIs'
        · rw [List.getElem?_set_ne (Ne.symm h)] at hk
          exact hl k s hk)
      (by simp only [List.length_set, List.length_cons] at *; omega)
    refine ⟨l', ?_, by rw [h2, List.length_set], ?_, ?_⟩
    · simp only [outlierLoop, List.getElem?_eq_getElem hi, hs', Option.bind_some, h1]
    · intro k hk
      simp only [List.length_cons] at hk
      rw [h3 k (by omega), List.getElem?_set_ne (by omega)]
    · intro k q' s hk hq hs
      by_cases h : k = i
      · subst h
        rw [h3 k (by omega), List.getElem?_set_self hi]
        rw [List.getElem?_eq_getElem hi] at hs
        cases hs
        simp only [Nat.sub_self, List.getElem?_cons_zero] at hq
        cases hq
        rw [hs']
      · refine h4 k q' s (by omega) ?_ (by rw [List.getElem?_set_ne (Ne.symm h), hs])
        rw [← hq, show k - i = (k - (i + 1)) + 1 by omega, List.getElem?_cons_succ]

/-- Too many outliers: some entry does not exist. -/
theorem outlierLoop_none {α : Type} (upd : α → Vec3 → Option α) (qs : List Vec3) (i : ℕ) (l : List α)
    (hi : i ≤ l.length) (hlen : l.length < i + qs.length) : outlierLoop upd qs i l = none := by
  induction qs generalizing i l with
  | nil => simp only [List.length_nil] at hlen; omega
  | cons q qs ih =>
    unfold outlierLoop
    cases h : l[i]? with
    | none => rfl
    | some s =>
      cases h' : upd s q with
      | none => simp [h']
      | some s' =>
        have : i < l.length := (List.getElem?_eq_some_iff.1 h).1
        simp only [h', Option.bind_some]
        exact ih _ _ (by rw [List.length_set]; omega)
          (by rw [List.length_set]; simp only [List.length_cons] at hlen; omega)

theorem numberOutliers_eq {fr : ℝ} (h : 0 ≤ fr) (n : ℕ) : numberOutliers fr n = some ⌊fr * n⌋₊ := by
  have h0 : 0 ≤ fr * n := mul_nonneg h (Nat.cast_nonneg n)
  rw [numberOutliers, if_neg (not_lt.2 (Int.floor_nonneg.2 h0)), Int.floor_toNat]

theorem range_map_get (out : ℕ → Vec3) {k n : ℕ} (h : k < n) :
    ((List.range n).map out)[k]? = some (out k) := by
  simp [h]

theorem pointLoop33_get (P1 P2 : Pose) (noise : ℝ) (c1 c2 : ℕ → Vec3) (ps : List Vec3) (i : ℕ) :
    (pointLoop33 P1 P2 noise c1 c2 ps i).length = ps.length ∧
    ∀ k p, ps[k]? = some p → (pointLoop33 P1 P2 noise c1 c2 ps i)[k]? =
      some (open Classical in if noise > 0 then
        (P1.2.transpose *ᵥ (p - P1.1) + randomTranslation noise (c1 (i + k)),
          P2.2.transpose *ᵥ (p - P2.1) + randomTranslation noise (c2 (i + k)))
        else (P1.2.transpose *ᵥ (p - P1.1), P2.2.transpose *ᵥ (p - P2.1))) := by
  induction ps generalizing i with
  | nil => simp [pointLoop33]
  | cons p ps ih =>
    refine ⟨by simp [pointLoop33, (ih (i + 1)).1], ?_⟩
    intro k q hk
    cases k with
    | zero => cases hk; simp [pointLoop33]
    | succ k =>
      have := (ih (i + 1)).2 k q (by simpa using hk)
      rw [pointLoop33, List.getElem?_cons_succ, this, show i + 1 + k = i + (k + 1) by omega]

theorem nIndicesLoop_eq (k i : ℕ) (acc : List ℤ) :
    nIndicesLoop k i acc = acc ++ (List.range k).map fun j => ((i + j : ℕ) : ℤ) := by
  induction k generalizing i acc with
  | zero => simp [nIndicesLoop]
  | succ k ih =>
    rw [nIndicesLoop, ih, List.range_succ_eq_map]
    simp only [List.append_assoc, List.map_cons, List.map_map, List.singleton_append, Nat.add_zero]
    congr 2
    apply List.map_congr_left
    intro j _
    simp only [Function.comp_apply]
    congr 1
    omega

theorem nIndices_nodup (n : ℤ) : (nIndices n).Nodup := by
  rw [nIndices, nIndicesLoop_eq, List.nil_append]
  exact List.nodup_range.map (fun a b h => by simpa using h)

theorem countP_nIndices (n k : ℕ) :
    (nIndices n).countP (fun i => decide ((k : ℤ) ≤ i ∧ i < n)) = n - k := by
  have key : ∀ m ≤ n, (List.range m).countP (fun j => decide (k ≤ j ∧ j < n)) = m - k := by
    intro m hm
    induction m with
    | zero => simp
    | succ m ih =>
      rw [List.range_succ, List.countP_append, ih (by omega), List.countP_singleton]
      split_ifs with h <;> simp only [decide_eq_true_eq] at h <;> omega
  rw [nIndices, nIndicesLoop_eq, List.nil_append, List.countP_map, Int.toNat_natCast, ← key n le_rfl]
  apply List.countP_congr
  intro j _
  simp

/-! ### Rotations -/

theorem isRot_mul {A B : Mat3} (hA : IsRot A) (hB : IsRot B) : IsRot (A * B) := by
  refine ⟨?_, by rw [det_mul, hA.2, hB.2, one_mul]⟩
  rw [transpose_mul, Matrix.mul_assoc, ← Matrix.mul_assoc Aᵀ, hA.1, Matrix.one_mul, hB.1]

theorem isRot_transpose {A : Mat3} (hA : IsRot A) : IsRot Aᵀ :=
  ⟨by rw [transpose_transpose]; exact rot_mul_transpose hA.1, by rw [det_transpose, hA.2]⟩

theorem rollMatrix_isRot (a : ℝ) : IsRot (rollMatrix a) := by
  have h := Real.sin_sq_add_cos_sq a
  constructor
  · apply mat3_ext <;> simp [rollMatrix, Matrix.mul_apply, Fin.sum_univ_three] <;>
      first | linear_combination h | ring
  · simp [rollMatrix, det_fin_three]
    linear_combination h

theorem pitchMatrix_isRot (a : ℝ) : IsRot (pitchMatrix a) := by
  have h := Real.sin_sq_add_cos_sq a
  constructor
  · apply mat3_ext <;> simp [pitchMatrix, Matrix.mul_apply, Fin.sum_univ_three] <;>
      first | linear_combination h | ring
  · simp [pitchMatrix, det_fin_three]
    linear_combination h

theorem yawMatrix_isRot (a : ℝ) : IsRot (yawMatrix a) := by
  have h := Real.sin_sq_add_cos_sq a
  constructor
  · apply mat3_ext <;> simp [yawMatrix, Matrix.mul_apply, Fin.sum_univ_three] <;>
      first | linear_combination h | ring
  · simp [yawMatrix, det_fin_three]
    linear_combination h

theorem normalize3_unit {v : Vec3} (h : v ⬝ᵥ v = 1) : normalize3 v = some v :=
  normalize3_of_smul one_pos h (one_smul ℝ v).symm

theorem orthonormalise_rot {R : Mat3} (h : IsRot R) : orthonormalise R = some R := by
  have col : ∀ (j : Fin 3) (e : Vec3), (∀ k, e k = if k = j then 1 else 0) → (fun i => R i j) = R *ᵥ e := by
    intro j e he
    funext i
    rw [mulVec3, he, he, he]
    fin_cases j <;> simp
  have e0 := col 0 ![1, 0, 0] (by intro k; fin_cases k <;> simp)
  have e1 := col 1 ![0, 1, 0] (by intro k; fin_cases k <;> simp)
  have e2 := col 2 ![0, 0, 1] (by intro k; fin_cases k <;> simp)
  have u : ∀ e : Vec3, e ⬝ᵥ e = 1 → (R *ᵥ e) ⬝ᵥ (R *ᵥ e) = 1 := fun e he => by rw [rot_dot h.1, he]
  have x01 : crossProduct (R *ᵥ ![1, 0, 0]) (R *ᵥ ![0, 1, 0]) = R *ᵥ ![0, 0, 1] := by
    rw [rot_cross h]; congr 1; simp [cross_apply]
  have x20 : crossProduct (R *ᵥ ![0, 0, 1]) (R *ᵥ ![1, 0, 0]) = R *ᵥ ![0, 1, 0] := by
    rw [rot_cross h]; congr 1; simp [cross_apply]
  rw [orthonormalise, e0, e1, normalize3_unit (u _ (by simp)), Option.bind_some, x01,
    normalize3_unit (u _ (by simp)), Option.bind_some, x20, normalize3_unit (u _ (by simp)),
    Option.map_some, ← e0, ← e1, ← e2]
  congr 1
  ext i j
  fin_cases j <;> simp

/-! ### Points and noise -/

theorem norm3_mono {a b : Vec3} (h : ∀ i, |a i| ≤ |b i|) : norm3 a ≤ norm3 b := by
  apply Real.sqrt_le_sqrt
  rw [dot3, dot3]
  have := fun i => (sq_le_sq.2 (h i))
  nlinarith [this 0, this 1, this 2]

/-- The vector of `noiseNormal` is a unit vector orthogonal to the input. -/
theorem noiseNormal_some {c n : Vec3} (h : noiseNormal c = some n) : n ⬝ᵥ n = 1 ∧ c ⬝ᵥ n = 0 := by
  have key : ∀ v : Vec3, c ⬝ᵥ v = 0 → normalize3 v = some n → n ⬝ᵥ n = 1 ∧ c ⬝ᵥ n = 0 := by
    intro v hv hn
    obtain ⟨_, h2, h3⟩ := normalize3_eq_some hn
    refine ⟨h3, ?_⟩
    rw [h2, dotProduct_smul, hv, smul_zero]
  unfold noiseNormal at h
  split_ifs at h with h1 h2 h3
  · refine key _ ?_ h
    have : c 0 ≠ 0 := abs_pos.1 (lt_of_le_of_lt (abs_nonneg _) h1.1)
    rw [dot3]; simp; field_simp; ring
  · refine key _ ?_ h
    have : c 1 ≠ 0 := abs_pos.1 (lt_of_le_of_lt (abs_nonneg _) h2.1)
    rw [dot3]; simp; field_simp; ring
  · refine key _ ?_ h
    rw [dot3]; simp; field_simp; ring

theorem noiseNormal_none (c : Vec3) : noiseNormal c = none ↔ c 2 = 0 ∧ |c 0| = |c 1| := by
  have some_of : ∀ v : Vec3, v ≠ 0 → normalize3 v ≠ none := by
    intro v hv h
    obtain ⟨r, hr⟩ := normalize3_isSome hv
    rw [hr] at h
    cases h
  unfold noiseNormal
  split_ifs with h1 h2 h3
  · refine iff_of_false (some_of _ fun e => ?_) (fun h => h1.1.ne h.2.symm)
    simpa using congrFun e 1
  · refine iff_of_false (some_of _ fun e => ?_) (fun h => h2.1.ne h.2)
    simpa using congrFun e 2
  · simp only [true_iff]
    refine ⟨h3, ?_⟩
    have n2 : |c 2| = 0 := by rw [h3, abs_zero]
    rw [n2] at h1 h2
    rcases lt_trichotomy |c 0| |c 1| with h | h | h
    · exact absurd ⟨h, lt_of_le_of_lt (abs_nonneg _) h⟩ h2
    · exact h
    · exact absurd ⟨h, lt_of_le_of_lt (abs_nonneg _) h⟩ h1
  · refine iff_of_false (some_of _ fun e => ?_) (fun h => h3 h.1)
    simpa using congrFun e 0

/-! ### Projections -/

theorem project_eq (P : Pose) (cam : Cam) (p : Vec3) : project P cam p = absReprojection P cam.1 cam.2 p := by
  rw [project, absReprojection, mulVec_sub P.2ᵀ, sub_eq_add_neg (P.2ᵀ *ᵥ p)]

theorem rot_mulVec_eq {R : Mat3} (hR : IsRot R) (a b : Vec3) : Rᵀ *ᵥ a = b ↔ a = R *ᵥ b := by
  constructor
  · rintro rfl
    rw [mulVec_mulVec, rot_mul_transpose hR.1, one_mulVec]
  · rintro rfl
    rw [mulVec_mulVec, hR.1, one_mulVec]

theorem project_zero {P : Pose} (hP : IsRot P.2) {cam : Cam} (hc : IsRot cam.2) (p : Vec3) :
    project P cam p = 0 ↔ p = P.1 + P.2 *ᵥ cam.1 := by
  rw [project, rot_mulVec_eq hc, mulVec_zero, sub_eq_zero, rot_mulVec_eq hP, sub_eq_iff_eq_add, add_comm]

theorem normalize3_none {v : Vec3} : normalize3 v = none ↔ v = 0 := by
  rw [normalize3]
  split_ifs with h
  · simp [norm3_eq_zero.1 h]
  · simp only [false_iff]
    exact fun e => h (norm3_eq_zero.2 e)

end OpenGV.Experiment
