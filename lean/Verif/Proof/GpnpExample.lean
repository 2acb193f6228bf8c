import Verif.Proof.Gpnp

/-!
# Eight observations that determine the pose
-/

namespace OpenGV

open Matrix Finset

/-- A quarter turn. -/
def gpnpExR : Mat3 := !![0, -1, 0; 1, 0, 0; 0, 0, 1]

def gpnpExT : Vec3 := ![1, 2, 3]

theorem isRot_quarter : IsRot gpnpExR := by
  constructor
  · unfold gpnpExR
    ext i j
    fin_cases i <;> fin_cases j <;> simp [Matrix.mul_apply, Fin.sum_univ_three]
  · unfold gpnpExR
    simp [det_fin_three]

/-- A point seen in the direction `f` from a distance of 2. -/
noncomputable def gpnpExOne (P f : Vec3) : GpnpObs :=
  ⟨P, gpnpExR.transpose *ᵥ (P - gpnpExT) - (2 : ℝ) • f, 1, f⟩

noncomputable def gpnpExPts : List Vec3 :=
  [![15, 15, 15], ![15, -15, -15], ![-15, 15, -15], ![-15, -15, 15]]

/-- Four points, each seen by two cameras. -/
noncomputable def gpnpExObs : List GpnpObs :=
  gpnpExPts.map (fun P => gpnpExOne P ![0, 0, 1]) ++
    gpnpExPts.map (fun P => gpnpExOne P ![3 / 5, 0, 4 / 5])

theorem gpnpExOne_f (P f : Vec3) : (gpnpExOne P f).f = f := one_mulVec f

theorem gpnpEx_f2 : ∀ o ∈ gpnpExObs, o.f 2 ≠ 0 := by
  intro o ho
  unfold gpnpExObs at ho
  rw [List.mem_append, List.mem_map, List.mem_map] at ho
  rcases ho with ⟨P, -, rfl⟩ | ⟨P, -, rfl⟩ <;> rw [gpnpExOne_f]
  · show (1 : ℝ) ≠ 0
    norm_num
  · show (4 / 5 : ℝ) ≠ 0
    norm_num

theorem gpnpExOne_seen (P f : Vec3) : gpnpExR.transpose *ᵥ ((gpnpExOne P f).P - gpnpExT) =
    (gpnpExOne P f).off + (2 : ℝ) • ((gpnpExOne P f).rot *ᵥ (gpnpExOne P f).b) := by
  show gpnpExR.transpose *ᵥ (P - gpnpExT) =
    gpnpExR.transpose *ᵥ (P - gpnpExT) - (2 : ℝ) • f + (2 : ℝ) • ((1 : Mat3) *ᵥ f)
  rw [one_mulVec, sub_add_cancel]

theorem gpnpEx_seen : ∀ o ∈ gpnpExObs, ∃ s : ℝ, gpnpExR.transpose *ᵥ (o.P - gpnpExT) =
    o.off + s • (o.rot *ᵥ o.b) := by
  intro o ho
  unfold gpnpExObs at ho
  rw [List.mem_append, List.mem_map, List.mem_map] at ho
  rcases ho with ⟨P, -, rfl⟩ | ⟨P, -, rfl⟩
  all_goals exact ⟨2, gpnpExOne_seen P _⟩

theorem gpnpEx_centroid : gpnpCentroid gpnpExObs = 0 := by
  unfold gpnpCentroid gpnpExObs gpnpExPts gpnpExOne
  funext k
  fin_cases k <;> simp

/-- The weights of the points. -/
theorem gpnpEx_weights (P : Vec3) : gpnpWeights (gpnpCtrl 0 1) P =
    ![1 - (P 0 / 15 + P 1 / 15 + P 2 / 15), P 0 / 15, P 1 / 15, P 2 / 15] := by
  rw [gpnpWeights_ctrl (by simp)]
  have h : ∀ i : Fin 3, P ⬝ᵥ (1 : Mat3).transpose i = P i := fun i => by
    rw [transpose_one]
    fin_cases i <;> simp [dotProduct, Matrix.one_apply]
  rw [h, h, h]

theorem thinSvd_entry {m : Type} [Fintype m] {n : ℕ} {A U : Matrix m (Fin n) ℝ} {σ : Fin n → ℝ}
    {V : Matrix (Fin n) (Fin n) ℝ} (h : Spec.IsThinSvd A U σ V) (i : Fin n) (r : m) :
    |(A *ᵥ V.transpose i) r| ≤ σ i := by
  have h1 : (A * V) = U * Matrix.diagonal σ := by
    rw [h.eq, Matrix.mul_assoc, h.orthV, Matrix.mul_one]
  have h2 : (A *ᵥ V.transpose i) r = U r i * σ i := by
    have := congrFun (congrFun h1 r) i
    rw [mul_diagonal] at this
    rw [← this]
    rfl
  have h3 : ∑ k, U k i * U k i = 1 := by
    have := congrFun (congrFun h.orthU i) i
    rw [Matrix.one_apply_eq] at this
    rw [← this]
    rfl
  have h4 : U r i * U r i ≤ 1 := by
    rw [← h3]
    exact Finset.single_le_sum (f := fun k => U k i * U k i) (fun k _ => mul_self_nonneg _)
      (Finset.mem_univ r)
  have h5 : |U r i| ≤ 1 := abs_le_one_iff_mul_self_le_one.2 h4
  rw [h2, abs_mul, abs_of_nonneg (h.nonneg i)]
  exact mul_le_of_le_one_left (h.nonneg i) h5

/-- The equations of one point bound its coordinates. -/
theorem gpnpEx_point {x : Fin 12 → ℝ} {e : ℝ} (he : ∀ r, |(gpnpA gpnpExObs (gpnpCtrl 0 1) *ᵥ x) r| ≤ e)
    {P : Vec3} (hP : P ∈ gpnpExPts) (X : Vec3) (hX : X = gpnpPoint (gpnpCtrl 0 1) P x) :
    |X 0| ≤ e ∧ |X 1| ≤ e ∧ |X 2| ≤ 3 * e := by
  have key : ∀ f : Vec3, gpnpExOne P f ∈ gpnpExObs →
      |f 2 * X 0 - f 0 * X 2| ≤ e ∧ |f 2 * X 1 - f 1 * X 2| ≤ e := by
    intro f hf
    obtain ⟨i, hi⟩ := List.get_of_mem hf
    have h := gpnpRow_dot (gpnpWeights (gpnpCtrl 0 1) (P - gpnpCtrl 0 1 0)) f x X hX
    rw [← h.1, ← h.2]
    have e0 := he (i, 0)
    have e1 := he (i, 1)
    have hA : ∀ j, (gpnpA gpnpExObs (gpnpCtrl 0 1) *ᵥ x) (i, j) =
        gpnpRow (gpnpWeights (gpnpCtrl 0 1) ((gpnpExObs.get i).P - gpnpCtrl 0 1 0))
          (gpnpExObs.get i).f j ⬝ᵥ x := fun j => rfl
    rw [hA, hi, gpnpExOne_f] at e0 e1
    exact ⟨e0, e1⟩
  obtain ⟨a0, a1⟩ := key ![0, 0, 1] (List.mem_append_left _ (List.mem_map_of_mem hP))
  obtain ⟨b0, -⟩ := key ![3 / 5, 0, 4 / 5] (List.mem_append_right _ (List.mem_map_of_mem hP))
  have q0 : (![0, 0, 1] : Vec3) 2 = 1 := rfl
  have q1 : (![3 / 5, 0, 4 / 5] : Vec3) 2 = 4 / 5 := rfl
  have q2 : (![3 / 5, 0, 4 / 5] : Vec3) 0 = 3 / 5 := rfl
  have q3 : (![0, 0, 1] : Vec3) 0 = 0 := rfl
  have q4 : (![0, 0, 1] : Vec3) 1 = 0 := rfl
  rw [q0, q3] at a0
  rw [q0, q4] at a1
  rw [q1, q2] at b0
  rw [one_mul, zero_mul, sub_zero] at a0 a1
  refine ⟨a0, a1, ?_⟩
  rw [abs_le] at *
  constructor <;> linarith [a0.1, a0.2, b0.1, b0.2]

theorem gpnpEx_sigma {U : Matrix (Fin gpnpExObs.length × Fin 2) (Fin 12) ℝ} {σ : Fin 12 → ℝ}
    {V : Matrix (Fin 12) (Fin 12) ℝ}
    (h : Spec.IsThinSvd (gpnpA gpnpExObs (gpnpCtrl 0 1)) U σ V) (i : Fin 12) : 1 / 1000000 < σ i := by
  by_contra hc
  push Not at hc
  set x := V.transpose i with hx
  have he : ∀ r, |(gpnpA gpnpExObs (gpnpCtrl 0 1) *ᵥ x) r| ≤ 1 / 1000000 :=
    fun r => (thinSvd_entry h i r).trans hc
  have hn : ∑ k, x k * x k = 1 := by
    have := congrFun (congrFun h.orthV i) i
    rw [Matrix.one_apply_eq] at this
    rw [← this]
    rfl
  have hc0 : gpnpCtrl 0 1 0 = 0 := rfl
  have hp : ∀ P ∈ gpnpExPts, ∀ k : Fin 3, |(1 - (P 0 / 15 + P 1 / 15 + P 2 / 15)) * gpnpCcam x 0 k +
      P 0 / 15 * gpnpCcam x 1 k + P 1 / 15 * gpnpCcam x 2 k + P 2 / 15 * gpnpCcam x 3 k| ≤
        3 / 1000000 := by
    intro P hP k
    have hX : gpnpPoint (gpnpCtrl 0 1) P x k = (1 - (P 0 / 15 + P 1 / 15 + P 2 / 15)) *
        gpnpCcam x 0 k + P 0 / 15 * gpnpCcam x 1 k + P 1 / 15 * gpnpCcam x 2 k +
        P 2 / 15 * gpnpCcam x 3 k := by
      unfold gpnpPoint
      rw [hc0, sub_zero, gpnpEx_weights, Fin.sum_univ_four]
      rfl
    rw [← hX]
    have := gpnpEx_point he hP _ rfl
    obtain ⟨h0, h1, h2⟩ := this
    fin_cases k
    · exact h0.trans (by norm_num)
    · exact h1.trans (by norm_num)
    · exact h2.trans (by norm_num)
  have hk : ∀ k : Fin 3, |gpnpCcam x 0 k| ≤ 3 / 1000000 ∧ |gpnpCcam x 1 k| ≤ 3 / 1000000 ∧
      |gpnpCcam x 2 k| ≤ 3 / 1000000 ∧ |gpnpCcam x 3 k| ≤ 3 / 1000000 := by
    intro k
    have p0 := hp ![15, 15, 15] (by simp [gpnpExPts]) k
    have p1 := hp ![15, -15, -15] (by simp [gpnpExPts]) k
    have p2 := hp ![-15, 15, -15] (by simp [gpnpExPts]) k
    have p3 := hp ![-15, -15, 15] (by simp [gpnpExPts]) k
    have g0 : ∀ a b c : ℝ, (![a, b, c] : Vec3) 0 = a := fun _ _ _ => rfl
    have g1 : ∀ a b c : ℝ, (![a, b, c] : Vec3) 1 = b := fun _ _ _ => rfl
    have g2 : ∀ a b c : ℝ, (![a, b, c] : Vec3) 2 = c := fun _ _ _ => rfl
    rw [g0, g1, g2] at p0 p1 p2 p3
    rw [abs_le] at p0 p1 p2 p3
    norm_num at p0 p1 p2 p3
    simp only [abs_le]
    refine ⟨⟨?_, ?_⟩, ⟨?_, ?_⟩, ⟨?_, ?_⟩, ⟨?_, ?_⟩⟩ <;> linarith
  have hsq : ∀ j, x j * x j ≤ 1 / 100 := by
    intro j
    have hj : x j = gpnpCcam x ⟨j / 3, by omega⟩ ⟨j % 3, by omega⟩ :=
      (congrFun (gpnpVec_ccam x) j).symm
    have hb : ∀ (a : Fin 4) (k : Fin 3), |gpnpCcam x a k| ≤ 3 / 1000000 := by
      intro a k
      obtain ⟨h0, h1, h2, h3⟩ := hk k
      fin_cases a
      exacts [h0, h1, h2, h3]
    have := hb ⟨j / 3, by omega⟩ ⟨j % 3, by omega⟩
    rw [← hj, abs_le] at this
    nlinarith [this.1, this.2]
  have : ∑ k, x k * x k ≤ ∑ _k : Fin 12, (1 / 100 : ℝ) := Finset.sum_le_sum fun j _ => hsq j
  rw [hn] at this
  simp at this
  norm_num at this

open Classical in
/-- Decompositions for the examples. -/
noncomputable def gpnpExDeps : GpnpDeps where
  svdU := fun _ => 1
  svdA := fun obs A =>
    if h : ∃ S : Matrix (Fin obs.length × Fin 2) (Fin 12) ℝ × (Fin 12 → ℝ) ×
        Matrix (Fin 12) (Fin 12) ℝ, Spec.IsThinSvd A S.1 S.2.1 S.2.2 then h.choose else (0, 0, 0)
  svd3 := fun H => ((exists_svd_fun 3).choose H)
  lm := fun _ _ _ fs => fs

end OpenGV
