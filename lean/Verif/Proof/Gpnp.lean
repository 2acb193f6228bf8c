import Verif.Proof.GpnpFactorsEx
import Verif.Proof.SvdExists
import Verif.Props.Arun

/-!
# Lemmas on GPnP
-/

namespace OpenGV

open Matrix Finset

/-! ### Weights -/

theorem gpnpWeights_ctrl {c0 : Vec3} {U : Mat3} (hU : U.transpose * U = 1) (p : Vec3) :
    gpnpWeights (gpnpCtrl c0 U) p =
      ![1 - (p ⬝ᵥ U.transpose 0 / 15 + p ⬝ᵥ U.transpose 1 / 15 + p ⬝ᵥ U.transpose 2 / 15),
        p ⬝ᵥ U.transpose 0 / 15, p ⬝ᵥ U.transpose 1 / 15, p ⬝ᵥ U.transpose 2 / 15] := by
  have hn : ∀ i, U.transpose i ⬝ᵥ U.transpose i = 1 := fun i => by
    have := congrFun (congrFun hU i) i
    rw [Matrix.one_apply_eq] at this
    rw [← this]
    rfl
  have hc : ∀ i : Fin 3, c0 + (15 : ℝ) • U.transpose i - c0 = (15 : ℝ) • U.transpose i :=
    fun i => add_sub_cancel_left _ _
  have hw : ∀ i : Fin 3, p ⬝ᵥ ((15 : ℝ) • U.transpose i) /
      (((15 : ℝ) • U.transpose i) ⬝ᵥ ((15 : ℝ) • U.transpose i)) = p ⬝ᵥ U.transpose i / 15 := by
    intro i
    rw [dotProduct_smul, dotProduct_smul, smul_dotProduct, hn]
    simp only [smul_eq_mul]
    ring
  show ![_, _, _, _] = _
  have e0 : gpnpCtrl c0 U 0 = c0 := rfl
  have e1 : gpnpCtrl c0 U 1 = c0 + (15 : ℝ) • U.transpose 0 := rfl
  have e2 : gpnpCtrl c0 U 2 = c0 + (15 : ℝ) • U.transpose 1 := rfl
  have e3 : gpnpCtrl c0 U 3 = c0 + (15 : ℝ) • U.transpose 2 := rfl
  rw [e0, e1, e2, e3, hc, hc, hc, hw, hw, hw]

theorem gpnpWeights_sum (c : Fin 4 → Vec3) (p : Vec3) : ∑ j, gpnpWeights c p j = 1 := by
  rw [Fin.sum_univ_four]
  show (1 - (gpnpWeights c p 1 + gpnpWeights c p 2 + gpnpWeights c p 3)) + gpnpWeights c p 1 +
    gpnpWeights c p 2 + gpnpWeights c p 3 = _
  ring

theorem gpnpWeights_repr {c0 : Vec3} {U : Mat3} (hU : U.transpose * U = 1) (P : Vec3) :
    ∑ j, gpnpWeights (gpnpCtrl c0 U) (P - c0) j • gpnpCtrl c0 U j = P := by
  have hUU : U * U.transpose = 1 := mul_eq_one_comm.1 hU
  have hp : U *ᵥ (U.transpose *ᵥ (P - c0)) = P - c0 := by
    rw [mulVec_mulVec, hUU, one_mulVec]
  have hd : ∀ i, (U.transpose *ᵥ (P - c0)) i = (P - c0) ⬝ᵥ U.transpose i :=
    fun i => dotProduct_comm _ _
  rw [gpnpWeights_ctrl hU, Fin.sum_univ_four]
  funext k
  have hk := congrFun hp k
  rw [mulVec, dotProduct, Fin.sum_univ_three, hd, hd, hd, Pi.sub_apply] at hk
  show (1 - (_ + _ + _)) * c0 k + _ / 15 * (c0 k + 15 * U k 0) + _ / 15 * (c0 k + 15 * U k 1) +
    _ / 15 * (c0 k + 15 * U k 2) = P k
  linarith

/-! ### The linear system -/

/-- The point of one observation for the vector `x`. -/
noncomputable def gpnpPoint (c : Fin 4 → Vec3) (P : Vec3) (x : Fin 12 → ℝ) : Vec3 :=
  ∑ j, gpnpWeights c (P - c 0) j • gpnpCcam x j

theorem gpnpRow_dot (w : Fin 4 → ℝ) (f : Vec3) (x : Fin 12 → ℝ) (X : Vec3)
    (hX : X = ∑ j, w j • gpnpCcam x j) :
    gpnpRow w f 0 ⬝ᵥ x = f 2 * X 0 - f 0 * X 2 ∧ gpnpRow w f 1 ⬝ᵥ x = f 2 * X 1 - f 1 * X 2 := by
  have h : ∀ k : Fin 3, X k = w 0 * x ⟨3 * 0 + k, by omega⟩ + w 1 * x ⟨3 * 1 + k, by omega⟩ +
      w 2 * x ⟨3 * 2 + k, by omega⟩ + w 3 * x ⟨3 * 3 + k, by omega⟩ := by
    intro k
    rw [hX, Fin.sum_univ_four]
    rfl
  have h0 : X 0 = w 0 * x 0 + w 1 * x 3 + w 2 * x 6 + w 3 * x 9 := h 0
  have h1 : X 1 = w 0 * x 1 + w 1 * x 4 + w 2 * x 7 + w 3 * x 10 := h 1
  have h2 : X 2 = w 0 * x 2 + w 1 * x 5 + w 2 * x 8 + w 3 * x 11 := h 2
  constructor
  · rw [h0, h2]
    simp only [gpnpRow, dotProduct, Fin.sum_univ_succ, Matrix.cons_val_zero, Matrix.cons_val_succ,
      Fin.sum_univ_zero]
    show _ * x 0 + (_ * x 1 + (_ * x 2 + (_ * x 3 + (_ * x 4 + (_ * x 5 + (_ * x 6 + (_ * x 7 +
      (_ * x 8 + (_ * x 9 + (_ * x 10 + (_ * x 11 + 0))))))))))) = _
    ring
  · rw [h1, h2]
    simp only [gpnpRow, dotProduct, Fin.sum_univ_succ, Matrix.cons_val_zero, Matrix.cons_val_succ,
      Matrix.cons_val_one, Fin.sum_univ_zero]
    show _ * x 0 + (_ * x 1 + (_ * x 2 + (_ * x 3 + (_ * x 4 + (_ * x 5 + (_ * x 6 + (_ * x 7 +
      (_ * x 8 + (_ * x 9 + (_ * x 10 + (_ * x 11 + 0))))))))))) = _
    ring

theorem gpnpA_iff (obs : List GpnpObs) (c : Fin 4 → Vec3) (x : Fin 12 → ℝ) :
    gpnpA obs c *ᵥ x = gpnpB obs ↔ ∀ o ∈ obs, ∀ X, X = gpnpPoint c o.P x →
      o.f 2 * (X 0 - o.off 0) = o.f 0 * (X 2 - o.off 2) ∧
      o.f 2 * (X 1 - o.off 1) = o.f 1 * (X 2 - o.off 2) := by
  have key : ∀ i : Fin obs.length, ∀ X, X = gpnpPoint c (obs.get i).P x →
      (((gpnpA obs c *ᵥ x) (i, 0) = gpnpB obs (i, 0) ↔
        (obs.get i).f 2 * (X 0 - (obs.get i).off 0) = (obs.get i).f 0 * (X 2 - (obs.get i).off 2)) ∧
      ((gpnpA obs c *ᵥ x) (i, 1) = gpnpB obs (i, 1) ↔
        (obs.get i).f 2 * (X 1 - (obs.get i).off 1) =
          (obs.get i).f 1 * (X 2 - (obs.get i).off 2))) := by
    intro i X hX
    have h := gpnpRow_dot (gpnpWeights c ((obs.get i).P - c 0)) (obs.get i).f x X hX
    constructor
    · show gpnpRow _ _ 0 ⬝ᵥ x = (obs.get i).f 2 * (obs.get i).off 0 -
        (obs.get i).f 0 * (obs.get i).off 2 ↔ _
      rw [h.1]
      constructor <;> intro e <;> linarith
    · show gpnpRow _ _ 1 ⬝ᵥ x = (obs.get i).f 2 * (obs.get i).off 1 -
        (obs.get i).f 1 * (obs.get i).off 2 ↔ _
      rw [h.2]
      constructor <;> intro e <;> linarith
  constructor
  · intro h o ho X hX
    obtain ⟨i, rfl⟩ := List.get_of_mem ho
    exact ⟨(key i X hX).1.1 (congrFun h _), (key i X hX).2.1 (congrFun h _)⟩
  · intro h
    funext ⟨i, j⟩
    have hi := h _ (List.get_mem obs i) _ rfl
    fin_cases j
    · exact (key i _ rfl).1.2 hi.1
    · exact (key i _ rfl).2.2 hi.2

/-- The two equations put the point on the ray if the third entry of the direction is not zero. -/
theorem ray_iff {f X o : Vec3} (hf : f 2 ≠ 0) :
    (f 2 * (X 0 - o 0) = f 0 * (X 2 - o 2) ∧ f 2 * (X 1 - o 1) = f 1 * (X 2 - o 2)) ↔
      ∃ s : ℝ, X = o + s • f := by
  constructor
  · rintro ⟨h0, h1⟩
    refine ⟨(X 2 - o 2) / f 2, ext3 ?_ ?_ ?_⟩ <;>
      simp only [Pi.add_apply, Pi.smul_apply, smul_eq_mul] <;> field_simp <;> linarith
  · rintro ⟨s, rfl⟩
    simp only [Pi.add_apply, Pi.smul_apply, smul_eq_mul]
    constructor <;> ring

theorem ray_sat {f X o : Vec3} {s : ℝ} (h : X = o + s • f) :
    f 2 * (X 0 - o 0) = f 0 * (X 2 - o 2) ∧ f 2 * (X 1 - o 1) = f 1 * (X 2 - o 2) := by
  subst h
  simp only [Pi.add_apply, Pi.smul_apply, smul_eq_mul]
  constructor <;> ring

/-- The vector of four points. -/
def gpnpVec (p : Fin 4 → Vec3) : Fin 12 → ℝ := fun i => p ⟨i / 3, by omega⟩ ⟨i % 3, by omega⟩

theorem gpnpCcam_vec (p : Fin 4 → Vec3) (i : Fin 4) : gpnpCcam (gpnpVec p) i = p i := by
  funext k
  have h1 : (⟨(3 * (i : ℕ) + k) / 3, by omega⟩ : Fin 4) = i := Fin.ext (by dsimp only; omega)
  have h2 : (⟨(3 * (i : ℕ) + k) % 3, by omega⟩ : Fin 3) = k := Fin.ext (by dsimp only; omega)
  show p ⟨(3 * (i : ℕ) + k) / 3, _⟩ ⟨(3 * (i : ℕ) + k) % 3, _⟩ = _
  rw [h1, h2]

theorem gpnpVec_ccam (x : Fin 12 → ℝ) : gpnpVec (gpnpCcam x) = x := by
  funext i
  have h : (⟨3 * ((i : ℕ) / 3) + i % 3, by omega⟩ : Fin 12) = i := Fin.ext (by dsimp only; omega)
  exact congrArg x h

/-- The point of a motion is the moved point. -/
theorem gpnpPoint_motion {c0 : Vec3} {U : Mat3} (hU : U.transpose * U = 1) (M : Mat3) (t P : Vec3) :
    gpnpPoint (gpnpCtrl c0 U) P (gpnpVec fun j => M *ᵥ (gpnpCtrl c0 U j - t)) = M *ᵥ (P - t) := by
  unfold gpnpPoint
  simp only [gpnpCcam_vec]
  have h1 := gpnpWeights_sum (gpnpCtrl c0 U) (P - c0)
  have h2 := gpnpWeights_repr (c0 := c0) hU P
  have hc : gpnpCtrl c0 U 0 = c0 := rfl
  rw [hc]
  generalize gpnpWeights (gpnpCtrl c0 U) (P - c0) = w at h1 h2
  rw [Fin.sum_univ_four] at h1 h2 ⊢
  have e : ∀ j, w j • M *ᵥ (gpnpCtrl c0 U j - t) = M *ᵥ (w j • gpnpCtrl c0 U j - w j • t) :=
    fun j => by rw [← smul_sub, mulVec_smul]
  rw [e, e, e, e, ← mulVec_add, ← mulVec_add, ← mulVec_add]
  congr 1
  have h3 : t = w 0 • t + w 1 • t + w 2 • t + w 3 • t := by
    rw [← add_smul, ← add_smul, ← add_smul, h1, one_smul]
  rw [← h2]
  conv_rhs => rw [h3]
  abel

/-! ### The intercept -/

theorem gpnpIntercept_split {m : Type} [Fintype m] {A U : Matrix m (Fin 12) ℝ} {σ : Fin 12 → ℝ}
    {V : Matrix (Fin 12) (Fin 12) ℝ} (h : Spec.IsThinSvd A U σ V) {x : Fin 12 → ℝ} {b : m → ℝ}
    (hx : A *ᵥ x = b) :
    x = gpnpIntercept U σ V b +
      ∑ i, (if σ i > 1 / 1000000 then 0 else V.transpose i ⬝ᵥ x) • V.transpose i := by
  have hVV : V * V.transpose = 1 := mul_eq_one_comm.1 h.orthV
  have h1 : U.transpose *ᵥ b = fun i => σ i * (V.transpose *ᵥ x) i := by
    rw [← hx, h.eq, mulVec_mulVec, Matrix.mul_assoc, ← Matrix.mul_assoc U.transpose, h.orthU,
      Matrix.one_mul, ← mulVec_mulVec]
    funext i
    rw [mulVec_diagonal]
  have h2 : gpnpIntercept U σ V b =
      V *ᵥ fun i => if σ i > 1 / 1000000 then (V.transpose *ᵥ x) i else 0 := by
    unfold gpnpIntercept
    rw [← mulVec_mulVec, ← mulVec_mulVec, h1]
    congr 1
    funext i
    rw [mulVec_diagonal]
    split_ifs with hi
    · have : σ i ≠ 0 := by linarith [show (0 : ℝ) < 1 / 1000000 by norm_num] |> fun (h : 0 < σ i) => h.ne'
      field_simp
    · rw [zero_mul]
  have h3 : ∑ i, (if σ i > 1 / 1000000 then 0 else V.transpose i ⬝ᵥ x) • V.transpose i =
      V *ᵥ fun i => if σ i > 1 / 1000000 then 0 else (V.transpose *ᵥ x) i := by
    funext k
    rw [Finset.sum_apply, mulVec, dotProduct]
    refine Finset.sum_congr rfl fun i _ => ?_
    show (if σ i > 1 / 1000000 then 0 else V.transpose i ⬝ᵥ x) * V k i =
      V k i * (if σ i > 1 / 1000000 then 0 else V.transpose i ⬝ᵥ x)
    ring
  rw [h2, h3, ← mulVec_add]
  have h4 : ((fun i => if σ i > 1 / 1000000 then (V.transpose *ᵥ x) i else 0) +
      fun i => if σ i > 1 / 1000000 then 0 else (V.transpose *ᵥ x) i) = V.transpose *ᵥ x := by
    funext i
    rw [Pi.add_apply]
    split_ifs <;> simp
  rw [h4, mulVec_mulVec, hVV, one_mulVec]

/-- If the last `k` singular values are the small ones, a combination of the last `k` columns is
added. -/
theorem gpnpIntercept_solution {m : Type} [Fintype m] {A U : Matrix m (Fin 12) ℝ} {σ : Fin 12 → ℝ}
    {V : Matrix (Fin 12) (Fin 12) ℝ} (h : Spec.IsThinSvd A U σ V) {x : Fin 12 → ℝ} {b : m → ℝ}
    (hx : A *ᵥ x = b) {k : ℕ} (hk : k ≤ 12) (hσ : ∀ i : Fin 12, (i : ℕ) < 12 - k → 1 / 1000000 < σ i)
    (hσ' : ∀ i : Fin 12, 12 - k ≤ (i : ℕ) → σ i ≤ 1 / 1000000) :
    x = gpnpSolution (gpnpIntercept U σ V b) V
      (List.ofFn fun i : Fin k => V.transpose (Fin.ofNat 12 (12 - k + i)) ⬝ᵥ x) := by
  conv_lhs => rw [gpnpIntercept_split h hx]
  unfold gpnpSolution
  congr 1
  set F : List ℝ := List.ofFn fun i : Fin k => V.transpose (Fin.ofNat 12 (12 - k + i)) ⬝ᵥ x with hF
  have hl : F.length = k := List.length_ofFn
  let e : Fin F.length → Fin 12 := fun i => ⟨12 - k + i, by have := i.2; omega⟩
  have he : Function.Injective e := fun i j h => by
    have : 12 - k + (i : ℕ) = 12 - k + j := congrArg Fin.val h
    ext
    omega
  symm
  rw [← Finset.sum_subset (Finset.subset_univ (Finset.univ.map ⟨e, he⟩)), Finset.sum_map]
  · refine Finset.sum_congr rfl fun i _ => ?_
    have hi : ¬ σ (e i) > 1 / 1000000 := not_lt.2 (hσ' _ (Nat.le_add_right _ _))
    have h1 : Fin.ofNat 12 (12 - F.length + i) = e i := by
      ext
      show (12 - F.length + (i : ℕ)) % 12 = 12 - k + i
      have := i.2
      rw [Nat.mod_eq_of_lt] <;> omega
    have h2 : F.get i = V.transpose (e i) ⬝ᵥ x := by
      simp only [hF, List.get_eq_getElem, List.getElem_ofFn]
      congr 2
      ext
      show (12 - k + (i : ℕ)) % 12 = 12 - k + i
      rw [Nat.mod_eq_of_lt]
      have := i.2
      omega
    rw [h1, h2]
    show _ = (if σ (e i) > 1 / 1000000 then 0 else V.transpose (e i) ⬝ᵥ x) • V.transpose (e i)
    rw [if_neg hi]
  · intro i _ hi
    rw [if_pos, zero_smul]
    apply hσ
    by_contra hlt
    apply hi
    rw [Finset.mem_map]
    refine ⟨⟨i - (12 - k), by have := i.2; omega⟩, Finset.mem_univ _, ?_⟩
    ext
    show 12 - k + ((i : ℕ) - (12 - k)) = i
    omega

/-! ### Errors and selection -/

theorem norm3_mul_le (a b : Vec3) : a ⬝ᵥ b ≤ norm3 b * norm3 a := by
  have h := cauchy3 a b
  rw [← norm3_sq, ← norm3_sq, ← mul_pow, mul_comm (norm3 a)] at h
  exact abs_le_of_sq_le_sq' h (mul_nonneg (norm3_nonneg _) (norm3_nonneg _)) |>.2

/-- A number that is not less than zero. -/
def FErr.Nonneg (e : FErr) : Prop := ∀ x, e = .fin x → 0 ≤ x

theorem FErr.Nonneg.add {a b : FErr} (ha : a.Nonneg) (hb : b.Nonneg) : (a.add b).Nonneg := by
  intro x hx
  cases a <;> cases b <;> simp only [FErr.add, reduceCtorEq] at hx
  injection hx with hx
  rw [← hx]
  exact add_nonneg (ha _ rfl) (hb _ rfl)

theorem gpnpErr1_nonneg (R : Mat3) (t c p : Vec3) : (gpnpErr1 R t c p).Nonneg := by
  intro x hx
  unfold gpnpErr1 at hx
  simp only at hx
  split_ifs at hx with h
  injection hx with hx
  rw [← hx, sub_nonneg]
  have := norm3_mul_le (R.transpose *ᵥ (c - t)) p
  have h0 : 0 < norm3 p * norm3 (R.transpose *ᵥ (c - t)) :=
    lt_of_le_of_ne (mul_nonneg (norm3_nonneg _) (norm3_nonneg _)) (Ne.symm h)
  rwa [div_le_one h0]

theorem gpnpEvaluate_nonneg (svd : Mat3 → Mat3 × Mat3) (x : Fin 12 → ℝ) (c : Fin 4 → Vec3) :
    (gpnpEvaluate svd x c).1.Nonneg := by
  unfold gpnpEvaluate
  split
  · intro x hx
    simp at hx
  · refine .add (.add (.add (.add ?_ ?_) ?_) ?_) ?_
    · intro x hx
      injection hx with hx
      rw [← hx]
    all_goals exact gpnpErr1_nonneg _ _ _ _

theorem gpnpCandidate_nonneg (D : GpnpDeps) (a : Fin 12 → ℝ) (V : Matrix (Fin 12) (Fin 12) ℝ)
    (c : Fin 4 → Vec3) (k : ℕ) : (gpnpCandidate D a V c k).1.Nonneg := by
  unfold gpnpCandidate
  split
  · intro x hx
    simp at hx
  · exact gpnpEvaluate_nonneg _ _ _

theorem FErr.lt_trans' {x y b : FErr} (hx : x.lt b) (hy : y.lt x) : y.lt b := by
  cases x <;> cases y <;> cases b <;> simp only [FErr.lt] at *
  exact hy.trans hx

theorem gpnpSelect_nan {best : FErr × Vec3 × Mat3} (h : best.1 = .nan)
    (rest : List (FErr × Vec3 × Mat3)) : gpnpSelect best rest = best := by
  unfold gpnpSelect
  induction rest with
  | nil => rfl
  | cons x l ih =>
    rw [List.foldl_cons, if_neg, ih]
    rw [h]
    cases x.1 <;> simp [FErr.lt]

open Classical in
theorem gpnpSelect_mem (best : FErr × Vec3 × Mat3) (rest : List (FErr × Vec3 × Mat3)) :
    gpnpSelect best rest ∈ best :: rest := by
  unfold gpnpSelect
  induction rest generalizing best with
  | nil => simp
  | cons x l ih =>
    rw [List.foldl_cons]
    have := ih (if x.1.lt best.1 then x else best)
    rw [List.mem_cons] at this
    split_ifs at this ⊢ with h <;> simp only [List.mem_cons] at this ⊢ <;> tauto

open Classical in
theorem gpnpSelect_least (best : FErr × Vec3 × Mat3) (rest : List (FErr × Vec3 × Mat3)) :
    (∀ y ∈ rest, ¬ y.1.lt (gpnpSelect best rest).1) ∧
      ∀ e : FErr, ¬ e.lt best.1 → ¬ e.lt (gpnpSelect best rest).1 := by
  unfold gpnpSelect
  induction rest generalizing best with
  | nil => exact ⟨by simp, fun e he => he⟩
  | cons x l ih =>
    rw [List.foldl_cons]
    obtain ⟨h1, h2⟩ := ih (if x.1.lt best.1 then x else best)
    refine ⟨fun y hy => ?_, fun e he => ?_⟩
    · rcases List.mem_cons.1 hy with rfl | hy
      · apply h2
        split_ifs with h
        · cases y.1 <;> simp [FErr.lt]
        · exact h
      · exact h1 y hy
    · apply h2
      split_ifs with h
      · exact fun h' => he (FErr.lt_trans' h h')
      · exact he

theorem gpnpSelect_stay {best : FErr × Vec3 × Mat3} {rest : List (FErr × Vec3 × Mat3)}
    (h : ∀ y ∈ rest, ¬ y.1.lt best.1) : gpnpSelect best rest = best := by
  unfold gpnpSelect
  induction rest with
  | nil => rfl
  | cons x l ih =>
    rw [List.foldl_cons, if_neg (h x List.mem_cons_self)]
    exact ih fun y hy => h y (List.mem_cons_of_mem _ hy)

/-! ### Exact data -/

theorem gpnpEvaluate_exact {svd : Mat3 → Mat3 × Mat3}
    (hsvd : ∀ H, ∃ σ, Spec.IsSvd H (svd H).1 (svd H).2 σ) {R : Mat3} (hR : IsRot R) (t : Vec3)
    {c0 : Vec3} {U : Mat3} (hU : U.transpose * U = 1) :
    (gpnpEvaluate svd (gpnpVec fun j => R.transpose *ᵥ (gpnpCtrl c0 U j - t)) (gpnpCtrl c0 U)).2 =
      (t, R) ∧
    ((gpnpEvaluate svd (gpnpVec fun j => R.transpose *ᵥ (gpnpCtrl c0 U j - t))
        (gpnpCtrl c0 U)).1 = .fin 0 ∨
      (gpnpEvaluate svd (gpnpVec fun j => R.transpose *ᵥ (gpnpCtrl c0 U j - t))
        (gpnpCtrl c0 U)).1 = .nan) := by
  set c := gpnpCtrl c0 U with hc
  set q : Fin 4 → Vec3 := fun j => R.transpose *ᵥ (c j - t) with hq
  have hRR : R * R.transpose = 1 := mul_eq_one_comm.1 hR.1
  have hback : ∀ j, R *ᵥ q j + t = c j := fun j => by
    rw [hq, mulVec_mulVec, hRR, one_mulVec, sub_add_cancel]
  have hline : crossProduct (q 1 - q 0) (q 2 - q 0) ≠ 0 := by
    intro h0
    have e1 : q 1 - q 0 = R.transpose *ᵥ ((15 : ℝ) • U.transpose 0) := by
      rw [hq, ← mulVec_sub]
      congr 1
      show c0 + (15 : ℝ) • U.transpose 0 - t - (c0 - t) = _
      abel
    have e2 : q 2 - q 0 = R.transpose *ᵥ ((15 : ℝ) • U.transpose 1) := by
      rw [hq, ← mulVec_sub]
      congr 1
      show c0 + (15 : ℝ) • U.transpose 1 - t - (c0 - t) = _
      abel
    have hRT : R.transpose.transpose * R.transpose = 1 := by rw [transpose_transpose, hRR]
    have hd : ∀ i j, U.transpose i ⬝ᵥ U.transpose j = if i = j then 1 else 0 := fun i j => by
      have := congrFun (congrFun hU i) j
      rw [Matrix.one_apply] at this
      rw [← this]
      rfl
    have hl := lagrange (q 1 - q 0) (q 2 - q 0)
    rw [h0, e1, e2, rot_dot hRT, rot_dot hRT, rot_dot hRT] at hl
    simp only [dotProduct_smul, smul_dotProduct, hd, smul_eq_mul, zero_dotProduct] at hl
    norm_num at hl
  have har := Props.C24_points_exact svd hsvd R hR t [q 0, q 1, q 2, q 3] (q 0) (q 1) (q 2)
    (by simp) (by simp) (by simp) hline
  simp only [List.map_cons, List.map_nil, hback] at har
  have hev : gpnpEvaluate svd (gpnpVec q) c =
      (((((FErr.fin 0).add (gpnpErr1 R t (c 0) (q 0))).add (gpnpErr1 R t (c 1) (q 1))).add
        (gpnpErr1 R t (c 2) (q 2))).add (gpnpErr1 R t (c 3) (q 3)), t, R) := by
    unfold gpnpEvaluate
    simp only [gpnpCcam_vec, har]
  have h1 : ∀ j, gpnpErr1 R t (c j) (q j) = .fin 0 ∨ gpnpErr1 R t (c j) (q j) = .nan := by
    intro j
    unfold gpnpErr1
    simp only
    split_ifs with h
    · exact Or.inr rfl
    · left
      show FErr.fin (1 - q j ⬝ᵥ q j / (norm3 (q j) * norm3 (q j))) = _
      have : q j ⬝ᵥ q j = norm3 (q j) * norm3 (q j) := by rw [← norm3_sq, sq]
      rw [this, div_self h, sub_self]
  rw [hev]
  refine ⟨rfl, ?_⟩
  rcases h1 0 with h0 | h0 <;> rcases h1 1 with h2 | h2 <;> rcases h1 2 with h3 | h3 <;>
    rcases h1 3 with h4 | h4 <;> simp [h0, h2, h3, h4, FErr.add]

/-! ### Central camera -/

theorem gpnpIntercept_zero {m : Type} [Fintype m] (U : Matrix m (Fin 12) ℝ) (D : Fin 12 → ℝ)
    (V : Matrix (Fin 12) (Fin 12) ℝ) : gpnpIntercept U D V 0 = 0 := mulVec_zero _

theorem gpnpB_central {obs : List GpnpObs} (h : ∀ o ∈ obs, o.off = 0) : gpnpB obs = 0 := by
  funext ⟨i, j⟩
  have := h _ (List.get_mem obs i)
  unfold gpnpB gpnpRhs
  rw [this]
  fin_cases j <;> simp

theorem gpnpEvaluate_zero (svd : Mat3 → Mat3 × Mat3) (c : Fin 4 → Vec3) :
    gpnpEvaluate svd 0 c =
      (.nan, (4 : ℝ)⁻¹ • (c 0 + c 1 + c 2 + c 3), arunR (svd 0).1 (svd 0).2) := by
  have hz : ∀ i, gpnpCcam 0 i = 0 := fun i => rfl
  have hce : centers [(c 0, (0 : Vec3)), (c 1, 0), (c 2, 0), (c 3, 0)] =
      some ((4 : ℝ)⁻¹ • (c 0 + c 1 + c 2 + c 3), 0) := by
    simp [centers, sumLoop]
  have hh : hcross ((4 : ℝ)⁻¹ • (c 0 + c 1 + c 2 + c 3)) 0
      [(c 0, (0 : Vec3)), (c 1, 0), (c 2, 0), (c 3, 0)] = 0 := by
    simp [hcross, hcrossLoop]
  have ha : arunComplete svd [(c 0, (0 : Vec3)), (c 1, 0), (c 2, 0), (c 3, 0)] =
      some ((4 : ℝ)⁻¹ • (c 0 + c 1 + c 2 + c 3), arunR (svd 0).1 (svd 0).2) := by
    unfold arunComplete
    rw [hce]
    simp only [hh, mulVec_zero, sub_zero]
  have he : ∀ R t p, gpnpErr1 R t p 0 = .nan := fun R t p => by
    unfold gpnpErr1
    simp only
    rw [if_pos]
    rw [norm3_eq_zero.2 rfl, zero_mul]
  unfold gpnpEvaluate
  simp only [hz, ha, he]
  simp [FErr.add]

end OpenGV
