import Verif.Model.Epnp
import Mathlib.LinearAlgebra.Matrix.ToLinearEquiv

/-!
# Helper lemmas for `qr_solve`
-/

namespace OpenGV

open Matrix

/-- The reflection `1 - v vᵀ / a`. -/
noncomputable def house (v : Fin 6 → ℝ) (a : ℝ) (w : Fin 6 → ℝ) : Fin 6 → ℝ :=
  w - ((v ⬝ᵥ w) / a) • v

theorem house_add (v : Fin 6 → ℝ) (a : ℝ) (w w' : Fin 6 → ℝ) :
    house v a (w + w') = house v a w + house v a w' := by
  unfold house
  rw [dotProduct_add, add_div, add_smul]
  abel

theorem house_smul (v : Fin 6 → ℝ) (a s : ℝ) (w : Fin 6 → ℝ) :
    house v a (s • w) = s • house v a w := by
  unfold house
  rw [dotProduct_smul, smul_sub, smul_smul, smul_eq_mul, mul_div_assoc]

theorem house_dot (v : Fin 6 → ℝ) (a : ℝ) (ha : a ≠ 0) (hv : v ⬝ᵥ v = 2 * a) (w w' : Fin 6 → ℝ) :
    house v a w ⬝ᵥ house v a w' = w ⬝ᵥ w' := by
  unfold house
  simp only [sub_dotProduct, dotProduct_sub, smul_dotProduct, dotProduct_smul, smul_eq_mul, hv,
    dotProduct_comm w v]
  field_simp
  ring

theorem house_fix (v : Fin 6 → ℝ) (a : ℝ) (w : Fin 6 → ℝ) (h : ∀ i, v i = 0 ∨ w i = 0) :
    house v a w = w := by
  have : v ⬝ᵥ w = 0 := by
    apply Finset.sum_eq_zero
    intro i _
    rcases h i with h | h <;> rw [h] <;> simp
  unfold house
  rw [this, zero_div, zero_smul, sub_zero]

/-! ### The pivot -/

theorem foldl_max_spec (l : List (Fin 6)) (g : Fin 6 → ℝ) (e : ℝ) :
    e ≤ l.foldl (fun eta i => if eta < g i then g i else eta) e ∧
    (∀ i ∈ l, g i ≤ l.foldl (fun eta i => if eta < g i then g i else eta) e) ∧
    (l.foldl (fun eta i => if eta < g i then g i else eta) e = e ∨
      ∃ i ∈ l, l.foldl (fun eta i => if eta < g i then g i else eta) e = g i) := by
  induction l generalizing e with
  | nil => simp
  | cons a l ih =>
    rw [List.foldl_cons]
    obtain ⟨h1, h2, h3⟩ := ih (if e < g a then g a else e)
    by_cases h : e < g a
    · rw [if_pos h] at h1 h2 h3 ⊢
      refine ⟨by linarith, ?_, ?_⟩
      · intro i hi
        rcases List.mem_cons.1 hi with rfl | hi
        · exact h1
        · exact h2 i hi
      · rcases h3 with h3 | ⟨i, hi, h3⟩
        · exact Or.inr ⟨a, List.mem_cons_self, h3⟩
        · exact Or.inr ⟨i, List.mem_cons_of_mem _ hi, h3⟩
    · rw [if_neg h] at h1 h2 h3 ⊢
      refine ⟨h1, ?_, ?_⟩
      · intro i hi
        rcases List.mem_cons.1 hi with rfl | hi
        · linarith
        · exact h2 i hi
      · rcases h3 with h3 | ⟨i, hi, h3⟩
        · exact Or.inl h3
        · exact Or.inr ⟨i, List.mem_cons_of_mem _ hi, h3⟩

theorem qrEta_nonneg (A : Matrix (Fin 6) (Fin 4) ℝ) (k : Fin 4) : 0 ≤ qrEta A k :=
  (abs_nonneg _).trans (foldl_max_spec _ (fun i => |A i k|) _).1

/-- The pivot is zero exactly if the column vanishes from row `k` to the last but one. -/
theorem qrEta_eq_zero (A : Matrix (Fin 6) (Fin 4) ℝ) (k : Fin 4) :
    qrEta A k = 0 ↔ ∀ i : Fin 6, k.val ≤ i.val → i.val < 5 → A i k = 0 := by
  obtain ⟨h1, h2, h3⟩ := foldl_max_spec
    ((List.finRange 6).filter fun i : Fin 6 => k.val ≤ i.val ∧ i.val < 5) (fun i => |A i k|)
    |A (k.castLE (by omega)) k|
  constructor
  · intro h i hi hi5
    have := h2 i (by simp [hi, hi5])
    have h' : |A i k| ≤ 0 := this.trans h.le
    exact abs_nonpos_iff.1 h'
  · intro h
    rcases h3 with h3 | ⟨i, hi, h3⟩
    · exact h3.trans (abs_eq_zero.2 (h _ (by simp) (by simp; omega)))
    · simp only [List.mem_filter, List.mem_finRange, true_and, decide_eq_true_eq] at hi
      exact h3.trans (abs_eq_zero.2 (h i hi.1 hi.2))

/-! ### One step -/

variable {A : Matrix (Fin 6) (Fin 4) ℝ} {k : Fin 4} {eta : ℝ}

theorem qrSigma_sq (A : Matrix (Fin 6) (Fin 4) ℝ) (k : Fin 4) (eta : ℝ) :
    qrSigma A k eta ^ 2 = ∑ i : Fin 6, if k.val ≤ i.val then (A i k / eta) ^ 2 else 0 := by
  have h : 0 ≤ ∑ i : Fin 6, if k.val ≤ i.val then (A i k / eta) ^ 2 else 0 :=
    Finset.sum_nonneg fun i _ => by split_ifs <;> positivity
  unfold qrSigma
  simp only
  split_ifs
  · rw [neg_sq, Real.sq_sqrt h]
  · rw [Real.sq_sqrt h]

theorem qrSigma_mul (A : Matrix (Fin 6) (Fin 4) ℝ) (k : Fin 4) (eta : ℝ) :
    0 ≤ qrSigma A k eta * (A (k.castLE (by omega)) k / eta) := by
  have h := Real.sqrt_nonneg (∑ i : Fin 6, if k.val ≤ i.val then (A i k / eta) ^ 2 else 0)
  unfold qrSigma
  simp only
  split_ifs with hs
  · nlinarith
  · exact mul_nonneg h (not_lt.1 hs)

theorem qrSigma_ne (h0 : eta ≠ 0) (h : ∃ i : Fin 6, k.val ≤ i.val ∧ A i k ≠ 0) :
    qrSigma A k eta ≠ 0 := by
  obtain ⟨i, hi, hA⟩ := h
  have : 0 < qrSigma A k eta ^ 2 := by
    rw [qrSigma_sq]
    apply Finset.sum_pos' (fun i _ => by split_ifs <;> positivity)
    refine ⟨i, Finset.mem_univ _, ?_⟩
    rw [if_pos hi]
    have : A i k / eta ≠ 0 := div_ne_zero hA h0
    positivity
  intro e
  rw [e] at this
  simp at this

theorem qrVec_diag (A : Matrix (Fin 6) (Fin 4) ℝ) (k : Fin 4) (eta : ℝ) :
    qrVec A k eta (k.castLE (by omega)) = A (k.castLE (by omega)) k / eta + qrSigma A k eta := by
  simp [qrVec]

theorem qrA1_pos (h0 : eta ≠ 0) (h : ∃ i : Fin 6, k.val ≤ i.val ∧ A i k ≠ 0) :
    0 < qrA1 A k eta := by
  unfold qrA1
  rw [qrVec_diag, mul_add]
  have h1 := qrSigma_mul A k eta
  have h2 := qrSigma_ne h0 h
  have h3 : 0 < qrSigma A k eta * qrSigma A k eta := mul_self_pos.2 h2
  linarith

/-- Sums over the rows from `k` on, with the first one apart. -/
theorem sum_split (k : Fin 4) (g : Fin 6 → ℝ) :
    (∑ i : Fin 6, if k.val ≤ i.val then g i else 0) = g (k.castLE (by omega)) +
      ∑ i : Fin 6, if k.val < i.val then g i else 0 := by
  fin_cases k <;> simp [Fin.sum_univ_succ, Fin.castLE]

theorem qrVec_dot (A : Matrix (Fin 6) (Fin 4) ℝ) (k : Fin 4) (eta : ℝ) (w : Fin 6 → ℝ) :
    qrVec A k eta ⬝ᵥ w = (A (k.castLE (by omega)) k / eta + qrSigma A k eta) *
      w (k.castLE (by omega)) + ∑ i : Fin 6, if k.val < i.val then A i k / eta * w i else 0 := by
  have h : qrVec A k eta ⬝ᵥ w =
      ∑ i : Fin 6, if k.val ≤ i.val then qrVec A k eta i * w i else 0 := by
    apply Finset.sum_congr rfl
    intro i _
    by_cases hi : k.val ≤ i.val
    · rw [if_pos hi]
    · rw [if_neg hi, qrVec, if_pos (by omega), zero_mul]
  rw [h, sum_split, qrVec_diag]
  congr 1
  apply Finset.sum_congr rfl
  intro i _
  split_ifs with hi
  · rw [qrVec, if_neg (by omega), if_neg (by omega)]
  · rfl

theorem qrVec_sq (A : Matrix (Fin 6) (Fin 4) ℝ) (k : Fin 4) (eta : ℝ) :
    qrVec A k eta ⬝ᵥ qrVec A k eta = 2 * qrA1 A k eta := by
  have h1 := qrSigma_sq A k eta
  rw [sum_split] at h1
  rw [qrVec_dot, qrA1, qrVec_diag]
  have h2 : (∑ i : Fin 6, if k.val < i.val then A i k / eta * qrVec A k eta i else 0) =
      ∑ i : Fin 6, if k.val < i.val then (A i k / eta) ^ 2 else 0 := by
    apply Finset.sum_congr rfl
    intro i _
    split_ifs with hi
    · rw [qrVec, if_neg (by omega), if_neg (by omega), sq]
    · rfl
  rw [h2]
  linear_combination -h1

/-- The reflection of the column itself. -/
theorem house_col (h0 : eta ≠ 0) (h : ∃ i : Fin 6, k.val ≤ i.val ∧ A i k ≠ 0) (i : Fin 6) :
    house (qrVec A k eta) (qrA1 A k eta) (fun r => A r k) i =
      if i.val < k.val then A i k else if i.val = k.val then qrA2 A k eta else 0 := by
  have h1 := qrSigma_sq A k eta
  rw [sum_split] at h1
  have hd : qrVec A k eta ⬝ᵥ (fun r => A r k) = eta * qrA1 A k eta := by
    rw [qrVec_dot, qrA1, qrVec_diag]
    have h2 : (∑ i : Fin 6, if k.val < i.val then A i k / eta * A i k else 0) =
        eta * ∑ i : Fin 6, if k.val < i.val then (A i k / eta) ^ 2 else 0 := by
      rw [Finset.mul_sum]
      apply Finset.sum_congr rfl
      intro i _
      split_ifs with hi
      · field_simp
      · simp
    rw [h2]
    have h3 : A (k.castLE (by omega)) k = eta * (A (k.castLE (by omega)) k / eta) := by field_simp
    conv_lhs => enter [1, 2]; rw [h3]
    linear_combination -eta * h1
  unfold house
  rw [hd, mul_div_assoc, div_self (qrA1_pos h0 h).ne', mul_one]
  simp only [Pi.sub_apply, Pi.smul_apply, smul_eq_mul]
  unfold qrVec
  split_ifs with hi hi2
  · simp
  · unfold qrA2
    field_simp
    ring
  · field_simp
    ring

/-- What one step of the elimination does. -/
theorem qrStep_spec {B : Matrix (Fin 6) (Fin 4) ℝ} {a1 a2 : ℝ} (h : qrStep A k = some (B, a1, a2)) :
    ∃ v : Fin 6 → ℝ, a1 ≠ 0 ∧ a2 ≠ 0 ∧ v ⬝ᵥ v = 2 * a1 ∧ (∀ i : Fin 6, i.val < k.val → v i = 0) ∧
      (∀ i : Fin 6, k.val ≤ i.val → B i k = v i) ∧ (∀ i j, j.val < k.val → B i j = A i j) ∧
      (∀ i j, i.val < k.val → B i j = A i j) ∧
      (∀ j : Fin 4, k.val < j.val → (fun i => B i j) = house v a1 fun i => A i j) ∧
      (∀ i, house v a1 (fun r => A r k) i =
        if i.val < k.val then A i k else if i.val = k.val then a2 else 0) ∧
      (∀ i : Fin 6, k.val < i.val → A i k = 0 → v i = 0) := by
  unfold qrStep at h
  simp only at h
  split_ifs at h with h0
  have hex : ∃ i : Fin 6, k.val ≤ i.val ∧ A i k ≠ 0 := by
    by_contra hne
    push Not at hne
    exact h0 ((qrEta_eq_zero A k).2 fun i hi _ => hne i hi)
  obtain ⟨rfl, rfl, rfl⟩ : _ ∧ _ ∧ _ := by simpa using h
  refine ⟨qrVec A k (qrEta A k), (qrA1_pos h0 hex).ne', ?_, qrVec_sq A k _, ?_, ?_, ?_, ?_, ?_,
    house_col h0 hex, ?_⟩
  · exact mul_ne_zero (neg_ne_zero.2 h0) (qrSigma_ne h0 hex)
  · intro i hi
    simp [qrVec, hi]
  · intro i hi
    simp [not_lt.2 hi]
  · intro i j hj
    have hj' : j < k := hj
    simp [hj']
  · intro i j hi
    simp [hi]
  · intro j hj
    funext i
    have hjk : j ≠ k := fun e => by rw [e] at hj; omega
    by_cases hi : i.val < k.val
    · simp [hi, house, qrVec]
    · have hj' : ¬ j < k := not_lt.2 (le_of_lt hj)
      simp [hi, hj', hjk, house, dotProduct]
  · intro i hi hA
    simp [qrVec, not_lt.2 hi.le, hi.ne', hA]

theorem qrApply_eq {B : Matrix (Fin 6) (Fin 4) ℝ} {j : Fin 4} {v : Fin 6 → ℝ} (a : ℝ)
    (h0 : ∀ i : Fin 6, i.val < j.val → v i = 0) (h1 : ∀ i : Fin 6, j.val ≤ i.val → B i j = v i)
    (b : Fin 6 → ℝ) : qrApply B j a b = house v a b := by
  have hs : (∑ r : Fin 6, if r.val < j.val then 0 else B r j * b r) = v ⬝ᵥ b := by
    apply Finset.sum_congr rfl
    intro r _
    split_ifs with hr
    · rw [h0 r hr, zero_mul]
    · rw [h1 r (not_lt.1 hr)]
  funext i
  unfold qrApply house
  rw [hs]
  simp only [Pi.sub_apply, Pi.smul_apply, smul_eq_mul]
  split_ifs with hi
  · rw [h0 i hi, mul_zero, sub_zero]
  · rw [h1 i (not_lt.1 hi)]

/-- What a successful run computes: an isometry that takes `A` to a triangular matrix with nonzero
diagonal, and the solution of the triangular system. -/
theorem qrSolve_spec {b : Fin 6 → ℝ} {x : Fin 4 → ℝ} (h : qrSolve A b = some x) :
    ∃ (H : (Fin 6 → ℝ) → Fin 6 → ℝ) (Q : Matrix (Fin 6) (Fin 4) ℝ),
      (∀ w w', H (w + w') = H w + H w') ∧ (∀ (s : ℝ) w, H (s • w) = s • H w) ∧
      (∀ w w', H w ⬝ᵥ H w' = w ⬝ᵥ w') ∧ (∀ j, H (fun i => A i j) = fun i => Q i j) ∧
      (∀ i j, j.val < i.val → Q i j = 0) ∧ (∀ j : Fin 4, Q (j.castLE (by omega)) j ≠ 0) ∧
      ∀ i : Fin 6, i.val < 4 → (Q *ᵥ x) i = H b i := by
  unfold qrSolve at h
  simp only [Option.bind_eq_bind, Option.bind_eq_some_iff, Prod.exists] at h
  obtain ⟨B0, p0, r0, s0, B1, p1, r1, s1, B2, p2, r2, s2, B, p3, r3, s3, hx⟩ := h
  obtain ⟨v0, hp0, hr0, hv0, hz0, hk0, -, hi0, hc0, hd0, -⟩ := qrStep_spec s0
  obtain ⟨v1, hp1, hr1, hv1, hz1, hk1, hj1, hi1, hc1, hd1, -⟩ := qrStep_spec s1
  obtain ⟨v2, hp2, hr2, hv2, hz2, hk2, hj2, hi2, hc2, hd2, -⟩ := qrStep_spec s2
  obtain ⟨v3, hp3, hr3, hv3, hz3, hk3, hj3, hi3, hc3, hd3, -⟩ := qrStep_spec s3
  clear s0 s1 s2 s3
  -- the stored vectors survive the later steps
  have hb0 : ∀ i : Fin 6, (0 : Fin 4).val ≤ i.val → B i 0 = v0 i := fun i hi => by
    rw [hj3 i 0 (by decide), hj2 i 0 (by decide), hj1 i 0 (by decide), hk0 i hi]
  have hb1 : ∀ i : Fin 6, (1 : Fin 4).val ≤ i.val → B i 1 = v1 i := fun i hi => by
    rw [hj3 i 1 (by decide), hj2 i 1 (by decide), hk1 i hi]
  have hb2 : ∀ i : Fin 6, (2 : Fin 4).val ≤ i.val → B i 2 = v2 i := fun i hi => by
    rw [hj3 i 2 (by decide), hk2 i hi]
  rw [qrApply_eq p0 hz0 hb0, qrApply_eq p1 hz1 hb1, qrApply_eq p2 hz2 hb2,
    qrApply_eq p3 hz3 hk3] at hx
  -- the triangular matrix
  obtain ⟨Q, hQ⟩ : ∃ Q : Matrix (Fin 6) (Fin 4) ℝ, Q = of fun i j =>
      if i.val < j.val then B i j else if i.val = j.val then ![r0, r1, r2, r3] j else 0 := ⟨_, rfl⟩
  have hlow : ∀ i j, j.val < i.val → Q i j = 0 := fun i j hij => by
    rw [hQ, of_apply, if_neg (by omega), if_neg (by omega)]
  refine ⟨fun w => house v3 p3 (house v2 p2 (house v1 p1 (house v0 p0 w))), Q, ?_, ?_, ?_, ?_, hlow,
    ?_, ?_⟩
  · intro w w'
    simp only [house_add]
  · intro s w
    simp only [house_smul]
  · intro w w'
    rw [house_dot v3 p3 hp3 hv3, house_dot v2 p2 hp2 hv2, house_dot v1 p1 hp1 hv1,
      house_dot v0 p0 hp0 hv0]
  · have fix : ∀ (k j : Fin 4) (v : Fin 6 → ℝ) (p : ℝ), j.val < k.val →
        (∀ i : Fin 6, i.val < k.val → v i = 0) →
        house v p (fun i => Q i j) = fun i => Q i j := by
      intro k j v p hjk hz
      apply house_fix
      intro i
      by_cases hi : i.val < k.val
      · exact Or.inl (hz i hi)
      · exact Or.inr (hlow i j (by omega))
    have c0 : house v0 p0 (fun i => A i 0) = fun i => Q i 0 := by
      funext i
      rw [hd0, hQ]
      simp
    have c1 : house v1 p1 (fun i => B0 i 1) = fun i => Q i 1 := by
      funext i
      rw [hd1, hQ, of_apply]
      by_cases hi : i.val < (1 : Fin 4).val
      · rw [if_pos hi, if_pos hi, hi3 i 1 (hi.trans (by decide)), hi2 i 1 (hi.trans (by decide)),
          hi1 i 1 hi]
      · rw [if_neg hi, if_neg hi]
        rfl
    have c2 : house v2 p2 (fun i => B1 i 2) = fun i => Q i 2 := by
      funext i
      rw [hd2, hQ, of_apply]
      by_cases hi : i.val < (2 : Fin 4).val
      · rw [if_pos hi, if_pos hi, hi3 i 2 (hi.trans (by decide)), hi2 i 2 hi]
      · rw [if_neg hi, if_neg hi]
        rfl
    have c3 : house v3 p3 (fun i => B2 i 3) = fun i => Q i 3 := by
      funext i
      rw [hd3, hQ, of_apply]
      by_cases hi : i.val < (3 : Fin 4).val
      · rw [if_pos hi, if_pos hi, hi3 i 3 hi]
      · rw [if_neg hi, if_neg hi]
        rfl
    intro j
    fin_cases j
    · show house v3 p3 (house v2 p2 (house v1 p1 (house v0 p0 fun i => A i 0))) = fun i => Q i 0
      rw [c0, fix 1 0 v1 p1 (by decide) hz1, fix 2 0 v2 p2 (by decide) hz2,
        fix 3 0 v3 p3 (by decide) hz3]
    · show house v3 p3 (house v2 p2 (house v1 p1 (house v0 p0 fun i => A i 1))) = fun i => Q i 1
      rw [← hc0 1 (by decide), c1, fix 2 1 v2 p2 (by decide) hz2, fix 3 1 v3 p3 (by decide) hz3]
    · show house v3 p3 (house v2 p2 (house v1 p1 (house v0 p0 fun i => A i 2))) = fun i => Q i 2
      rw [← hc0 2 (by decide), ← hc1 2 (by decide), c2, fix 3 2 v3 p3 (by decide) hz3]
    · show house v3 p3 (house v2 p2 (house v1 p1 (house v0 p0 fun i => A i 3))) = fun i => Q i 3
      rw [← hc0 3 (by decide), ← hc1 3 (by decide), ← hc2 3 (by decide), c3]
  · intro j
    fin_cases j <;> simp [hQ, hr0, hr1, hr2, hr3]
  · obtain ⟨c, hc⟩ : ∃ c, c = house v3 p3 (house v2 p2 (house v1 p1 (house v0 p0 b))) := ⟨_, rfl⟩
    rw [← hc] at hx
    show ∀ i : Fin 6, i.val < 4 → (Q *ᵥ x) i =
      house v3 p3 (house v2 p2 (house v1 p1 (house v0 p0 b))) i
    rw [← hc]
    have hx' := Option.some.inj hx
    have e3 : x 3 = c 3 / r3 := by rw [← hx']; rfl
    have e2 : x 2 = (c 2 - B 2 3 * x 3) / r2 := by rw [← hx']; rfl
    have e1 : x 1 = (c 1 - (B 1 2 * x 2 + B 1 3 * x 3)) / r1 := by rw [← hx']; rfl
    have e0 : x 0 = (c 0 - (B 0 1 * x 1 + B 0 2 * x 2 + B 0 3 * x 3)) / r0 := by rw [← hx']; rfl
    rw [eq_div_iff hr3] at e3
    rw [eq_div_iff hr2] at e2
    rw [eq_div_iff hr1] at e1
    rw [eq_div_iff hr0] at e0
    intro i hi
    have hi' : i = 0 ∨ i = 1 ∨ i = 2 ∨ i = 3 := by
      rcases i with ⟨i, _⟩
      simp only [Fin.ext_iff] at hi ⊢
      simp
      omega
    rcases hi' with rfl | rfl | rfl | rfl <;>
      simp [hQ, mulVec, dotProduct, Fin.sum_univ_succ] <;> linarith

/-- A successful run solves the normal equations. -/
theorem qrSolve_normal {b : Fin 6 → ℝ} {x : Fin 4 → ℝ} (h : qrSolve A b = some x) (j : Fin 4) :
    (fun i => A i j) ⬝ᵥ (b - A *ᵥ x) = 0 := by
  obtain ⟨H, Q, hadd, hsmul, hdot, hcol, hlow, -, hsol⟩ := qrSolve_spec h
  have hlin : ∀ y : Fin 4 → ℝ, H (A *ᵥ y) = Q *ᵥ y := by
    intro y
    have e : ∀ M : Matrix (Fin 6) (Fin 4) ℝ, M *ᵥ y = y 0 • (fun i => M i 0) +
        y 1 • (fun i => M i 1) + y 2 • (fun i => M i 2) + y 3 • (fun i => M i 3) := by
      intro M
      funext i
      simp [mulVec, dotProduct, Fin.sum_univ_four]
      ring
    rw [e A, e Q, hadd, hadd, hadd, hsmul, hsmul, hsmul, hsmul, hcol, hcol, hcol, hcol]
  have hsub : H (b - A *ᵥ x) = H b - Q *ᵥ x := by
    have : b - A *ᵥ x = b + (-1 : ℝ) • (A *ᵥ x) := by rw [neg_one_smul]; abel
    rw [this, hadd, hsmul, hlin, neg_one_smul]
    abel
  rw [← hdot, hcol, hsub]
  apply Finset.sum_eq_zero
  intro i _
  by_cases hi : i.val < 4
  · rw [Pi.sub_apply, hsol i hi, sub_self, mul_zero]
  · show Q i j * _ = 0
    rw [hlow i j (by omega), zero_mul]

/-- If the run succeeds then the columns are independent. -/
theorem qrSolve_rank {b : Fin 6 → ℝ} {x : Fin 4 → ℝ} (h : qrSolve A b = some x) (y : Fin 4 → ℝ)
    (hy : A *ᵥ y = 0) : y = 0 := by
  obtain ⟨H, Q, hadd, hsmul, -, hcol, hlow, hdiag, -⟩ := qrSolve_spec h
  have e : ∀ M : Matrix (Fin 6) (Fin 4) ℝ, M *ᵥ y = y 0 • (fun i => M i 0) +
      y 1 • (fun i => M i 1) + y 2 • (fun i => M i 2) + y 3 • (fun i => M i 3) := by
    intro M
    funext i
    simp [mulVec, dotProduct, Fin.sum_univ_four]
    ring
  have h0 : H 0 = 0 := by
    have := hsmul 0 0
    rwa [zero_smul, zero_smul] at this
  have hQ : Q *ᵥ y = 0 := by
    rw [← h0, ← hy, e A, e Q, hadd, hadd, hadd, hsmul, hsmul, hsmul, hsmul, hcol, hcol, hcol, hcol]
  have hrow : ∀ i : Fin 6, Q i 0 * y 0 + Q i 1 * y 1 + Q i 2 * y 2 + Q i 3 * y 3 = 0 := by
    intro i
    have := congrFun hQ i
    simpa [mulVec, dotProduct, Fin.sum_univ_four] using this
  have y3 : y 3 = 0 := by
    have := hrow 3
    rw [hlow 3 0 (by decide), hlow 3 1 (by decide), hlow 3 2 (by decide)] at this
    have hd : Q 3 3 ≠ 0 := hdiag 3
    have : Q 3 3 * y 3 = 0 := by linarith
    exact (mul_eq_zero.1 this).resolve_left hd
  have y2 : y 2 = 0 := by
    have := hrow 2
    rw [hlow 2 0 (by decide), hlow 2 1 (by decide), y3] at this
    have hd : Q 2 2 ≠ 0 := hdiag 2
    have : Q 2 2 * y 2 = 0 := by linarith
    exact (mul_eq_zero.1 this).resolve_left hd
  have y1 : y 1 = 0 := by
    have := hrow 1
    rw [hlow 1 0 (by decide), y2, y3] at this
    have hd : Q 1 1 ≠ 0 := hdiag 1
    have : Q 1 1 * y 1 = 0 := by linarith
    exact (mul_eq_zero.1 this).resolve_left hd
  have y0 : y 0 = 0 := by
    have := hrow 0
    rw [y1, y2, y3] at this
    have hd : Q 0 0 ≠ 0 := hdiag 0
    have : Q 0 0 * y 0 = 0 := by linarith
    exact (mul_eq_zero.1 this).resolve_left hd
  funext i
  fin_cases i
  exacts [y0, y1, y2, y3]

/-- Least squares from the normal equations. -/
theorem qrSolve_optimal {b : Fin 6 → ℝ} {x : Fin 4 → ℝ} (h : qrSolve A b = some x) (y : Fin 4 → ℝ) :
    (b - A *ᵥ y) ⬝ᵥ (b - A *ᵥ y) =
      (b - A *ᵥ x) ⬝ᵥ (b - A *ᵥ x) + (A *ᵥ (y - x)) ⬝ᵥ (A *ᵥ (y - x)) := by
  have hn : (A *ᵥ (y - x)) ⬝ᵥ (b - A *ᵥ x) = 0 := by
    have : (A *ᵥ (y - x)) ⬝ᵥ (b - A *ᵥ x) =
        ∑ j, (y - x) j * ((fun i => A i j) ⬝ᵥ (b - A *ᵥ x)) := by
      simp only [dotProduct, mulVec, Finset.sum_mul, Finset.mul_sum]
      rw [Finset.sum_comm]
      refine Finset.sum_congr rfl fun j _ => Finset.sum_congr rfl fun i _ => ?_
      ring
    rw [this]
    exact Finset.sum_eq_zero fun j _ => by rw [qrSolve_normal h j, mul_zero]
  have e : b - A *ᵥ y = (b - A *ᵥ x) - A *ᵥ (y - x) := by
    rw [mulVec_sub]
    abel
  obtain ⟨d, hd⟩ : ∃ d, d = A *ᵥ (y - x) := ⟨_, rfl⟩
  obtain ⟨r, hr⟩ : ∃ r, r = b - A *ᵥ x := ⟨_, rfl⟩
  rw [← hd, ← hr] at hn e
  rw [e, ← hd, ← hr, sub_dotProduct, dotProduct_sub, dotProduct_sub, dotProduct_comm r d, hn]
  ring

/-- If no pivot vanishes the function succeeds; here for a column that is seen to vanish. -/
theorem qrSolve_none_of_col0 (b : Fin 6 → ℝ) (h : ∀ i : Fin 6, i.val < 5 → A i 0 = 0) :
    qrSolve A b = none := by
  have : qrStep A 0 = none := by
    unfold qrStep
    simp only
    rw [if_pos ((qrEta_eq_zero A 0).2 fun i _ hi => h i hi)]
  unfold qrSolve
  rw [this]
  rfl

/-! ### A condition for success -/

/-- The state after `k` steps on a matrix whose last row is zero. -/
structure QrInv (k : ℕ) (A B : Matrix (Fin 6) (Fin 4) ℝ) (H : (Fin 6 → ℝ) → Fin 6 → ℝ) : Prop where
  add : ∀ w w', H (w + w') = H w + H w'
  smul : ∀ (s : ℝ) w, H (s • w) = s • H w
  dot : ∀ w w', H w ⬝ᵥ H w' = w ⬝ᵥ w'
  next : ∀ j : Fin 4, k ≤ j.val → H (fun i => A i j) = fun i => B i j
  done : ∀ j : Fin 4, j.val < k → ∀ i : Fin 6, j.val < i.val → H (fun i => A i j) i = 0
  last : ∀ j : Fin 4, k ≤ j.val → B 5 j = 0

theorem eq_zero_of_dot6 {w : Fin 6 → ℝ} (h : w ⬝ᵥ w = 0) : w = 0 := by
  funext i
  have h1 := (Finset.sum_eq_zero_iff_of_nonneg (f := fun i => w i * w i)
    fun i _ => mul_self_nonneg (w i)).1 h i (Finset.mem_univ i)
  exact mul_self_eq_zero.1 h1

theorem QrInv.lin {k : ℕ} {B : Matrix (Fin 6) (Fin 4) ℝ} {H : (Fin 6 → ℝ) → Fin 6 → ℝ}
    (h : QrInv k A B H) (y : Fin 4 → ℝ) : H (A *ᵥ y) = fun i => ∑ j, y j * H (fun r => A r j) i := by
  have e : A *ᵥ y = y 0 • (fun i => A i 0) + y 1 • (fun i => A i 1) + y 2 • (fun i => A i 2) +
      y 3 • (fun i => A i 3) := by
    funext i
    simp [mulVec, dotProduct, Fin.sum_univ_four]
    ring
  rw [e, h.add, h.add, h.add, h.smul, h.smul, h.smul, h.smul]
  funext i
  rw [Fin.sum_univ_four]
  rfl

theorem QrInv.step {k : Fin 4} {B : Matrix (Fin 6) (Fin 4) ℝ} {H : (Fin 6 → ℝ) → Fin 6 → ℝ}
    (h : QrInv k.val A B H) (hA : ∀ y, A *ᵥ y = 0 → y = 0) :
    ∃ B' a1 a2 H', qrStep B k = some (B', a1, a2) ∧ QrInv (k.val + 1) A B' H' := by
  have hsome : ∃ r, qrStep B k = some r := by
    by_contra hne
    have hnone : qrStep B k = none := by
      cases hq : qrStep B k with
      | none => rfl
      | some r => exact absurd ⟨r, hq⟩ hne
    have heta : qrEta B k = 0 := by
      unfold qrStep at hnone
      simp only at hnone
      split_ifs at hnone with h0
      exact h0
    rw [qrEta_eq_zero] at heta
    have hcol : ∀ i : Fin 6, k.val ≤ i.val → H (fun r => A r k) i = 0 := by
      intro i hi
      rw [h.next k le_rfl]
      by_cases h5 : i.val < 5
      · exact heta i hi h5
      · have : i = 5 := Fin.ext (by have := i.isLt; show i.val = 5; omega)
        rw [this]
        exact h.last k le_rfl
    have hlow : ∀ (j : Fin 4) (i : Fin 6), j.val ≤ k.val → k.val ≤ i.val →
        H (fun r => A r j) i = 0 := by
      intro j i hj hi
      rcases hj.eq_or_lt with e | hlt
      · have : j = k := Fin.ext e
        rw [this]
        exact hcol i hi
      · exact h.done j hlt i (by omega)
    obtain ⟨C, hC⟩ : ∃ C : Matrix (Fin 4) (Fin 4) ℝ, C = of fun i j =>
        if j.val ≤ k.val then H (fun r => A r j) (i.castLE (by omega))
        else if i = j then 1 else 0 := ⟨_, rfl⟩
    have hdet : C.det = 0 := det_eq_zero_of_row_eq_zero k fun j => by
      rw [hC, of_apply]
      split_ifs with hj hkj
      · exact hlow j _ hj le_rfl
      · exact absurd (hkj ▸ le_rfl) hj
      · rfl
    obtain ⟨y, hy, hCy⟩ := Matrix.exists_mulVec_eq_zero_iff.2 hdet
    have hyz : ∀ j : Fin 4, k.val < j.val → y j = 0 := by
      intro j hj
      have h1 := congrFun hCy j
      have h2 : (C *ᵥ y) j = y j := by
        show ∑ m, C j m * y m = y j
        rw [Finset.sum_eq_single j]
        · rw [hC, of_apply, if_neg (by omega), if_pos rfl, one_mul]
        · intro m _ hm
          rw [hC, of_apply]
          split_ifs with hmk hjm
          · rw [hlow m _ hmk (by show k.val ≤ j.val; omega), zero_mul]
          · exact absurd hjm.symm hm
          · rw [zero_mul]
        · intro hn
          exact absurd (Finset.mem_univ j) hn
      rw [h2] at h1
      exact h1
    have hH : H (A *ᵥ y) = 0 := by
      rw [h.lin]
      funext i
      by_cases hi : i.val < 4
      · have h1 := congrFun hCy ⟨i.val, hi⟩
        change ∑ j, C ⟨i.val, hi⟩ j * y j = 0 at h1
        have h2 : ∀ j, C ⟨i.val, hi⟩ j * y j = y j * H (fun r => A r j) i := by
          intro j
          by_cases hj : j.val ≤ k.val
          · rw [hC, of_apply, if_pos hj, mul_comm]
            rfl
          · rw [hyz j (by omega), mul_zero, zero_mul]
        simp only [h2] at h1
        exact h1
      · apply Finset.sum_eq_zero
        intro j _
        by_cases hj : j.val ≤ k.val
        · rw [hlow j i hj (by omega), mul_zero]
        · rw [hyz j (by omega), zero_mul]
    have h0 : A *ᵥ y = 0 := by
      have := h.dot (A *ᵥ y) (A *ᵥ y)
      rw [hH, dotProduct_zero] at this
      exact eq_zero_of_dot6 this.symm
    exact hy (hA y h0)
  obtain ⟨⟨B', a1, a2⟩, hq⟩ := hsome
  obtain ⟨v, ha1, -, hv, hz, -, -, -, hc, hd, hl⟩ := qrStep_spec hq
  refine ⟨B', a1, a2, fun w => house v a1 (H w), hq, ?_, ?_, ?_, ?_, ?_, ?_⟩
  · intro w w'
    simp only [h.add, house_add]
  · intro s w
    simp only [h.smul, house_smul]
  · intro w w'
    rw [house_dot v a1 ha1 hv, h.dot]
  · intro j hj
    show house v a1 (H fun i => A i j) = _
    rw [h.next j (by omega), hc j (by omega)]
  · intro j hj i hi
    show house v a1 (H fun i => A i j) i = 0
    by_cases hjk : j = k
    · rw [hjk] at hi ⊢
      rw [h.next k le_rfl, hd, if_neg (by omega), if_neg (by omega)]
    · have hjk' : j.val < k.val := by
        have : j.val ≠ k.val := fun e => hjk (Fin.ext e)
        omega
      rw [house_fix]
      · exact h.done j hjk' i hi
      · intro r
        by_cases hr : r.val < k.val
        · exact Or.inl (hz r hr)
        · exact Or.inr (h.done j hjk' r (by omega))
  · intro j hj
    have h1 : B' 5 j = house v a1 (fun i => B i j) 5 := congrFun (hc j (by omega)) 5
    rw [h1]
    have hv5 : v 5 = 0 := hl 5 (by show k.val < 5; omega) (h.last k le_rfl)
    simp [house, hv5, h.last j (by omega)]

/-- If the last row is zero and the columns are independent, the run succeeds. -/
theorem qrSolve_succeeds (h5 : ∀ j, A 5 j = 0) (hA : ∀ y, A *ᵥ y = 0 → y = 0) (b : Fin 6 → ℝ) :
    ∃ x, qrSolve A b = some x := by
  have i0 : QrInv (0 : Fin 4).val A A id :=
    ⟨fun _ _ => rfl, fun _ _ => rfl, fun _ _ => rfl, fun _ _ => rfl,
      fun j hj => absurd hj (Nat.not_lt_zero _), fun j _ => h5 j⟩
  obtain ⟨B0, p0, r0, H0, q0, i1⟩ := i0.step hA
  obtain ⟨B1, p1, r1, H1, q1, i2⟩ := QrInv.step (k := 1) i1 hA
  obtain ⟨B2, p2, r2, H2, q2, i3⟩ := QrInv.step (k := 2) i2 hA
  obtain ⟨B3, p3, r3, H3, q3, -⟩ := QrInv.step (k := 3) i3 hA
  unfold qrSolve
  simp only [q0, q1, q2, q3, Option.bind_eq_bind, Option.bind_some]
  exact ⟨_, rfl⟩

end OpenGV
