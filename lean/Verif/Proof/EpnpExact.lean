import Verif.Proof.Epnp

/-!
# Exact data for EPnP
-/

namespace OpenGV

open Matrix Spec

/-! ### Gauss-Newton at a solution -/

theorem qrSolve_zero {A : Matrix (Fin 6) (Fin 4) ℝ} {x : Fin 4 → ℝ} (h : qrSolve A 0 = some x) :
    x = 0 := by
  apply qrSolve_rank h
  have := qrSolve_optimal h 0
  simp only [mulVec_zero, sub_zero, zero_sub, dotProduct_zero, neg_dotProduct_neg, mulVec_neg] at this
  have h0 : (A *ᵥ x) ⬝ᵥ (A *ᵥ x) = 0 := by linarith
  exact dotProduct_self_eq_zero.1 h0

theorem epnpGnLoop_fixed (L : Matrix (Fin 6) (Fin 10) ℝ) (rho : Fin 6 → ℝ) (b : Fin 4 → ℝ)
    (h0 : epnpGnB L rho b = 0) : ∀ (n : ℕ) (X : Option (Fin 4 → ℝ)), (X = none ∨ X = some 0) →
    epnpGnLoop L rho n (b, X) = none ∨ epnpGnLoop L rho n (b, X) = some b := by
  intro n
  induction n with
  | zero => intro X _; exact Or.inr rfl
  | succ n ih =>
    intro X hX
    have hstep : epnpGnStep L rho (b, X) = none ∨ epnpGnStep L rho (b, X) = some (b, some 0) := by
      unfold epnpGnStep
      simp only [h0]
      cases hq : qrSolve (epnpGnA L b) 0 with
      | none =>
        rcases hX with rfl | rfl
        · exact Or.inl rfl
        · right
          simp
      | some x =>
        right
        rw [qrSolve_zero hq]
        simp
    unfold epnpGnLoop
    rcases hstep with h | h
    · left
      rw [h]
      rfl
    · rw [h]
      exact ih (some 0) (Or.inr rfl)

/-! ### The last singular vector -/

theorem svd_last_ker {A U V : Matrix (Fin 12) (Fin 12) ℝ} {σ : Fin 12 → ℝ} (h : IsSvd A U V σ)
    (hs : A.transpose = A) {c : Fin 12 → ℝ} (hc : c ≠ 0) (hA : A *ᵥ c = 0) :
    A *ᵥ (fun i => U i 11) = 0 ∧ (fun i => U i 11) ≠ (0 : Fin 12 → ℝ) := by
  have hV : V.transpose.det ≠ 0 := fun e => by
    have := congrArg det h.orthV
    rw [det_mul, e, zero_mul, det_one] at this
    exact zero_ne_one this
  have hU : U.det ≠ 0 := fun e => by
    have := congrArg det h.orthU
    rw [det_mul, e, mul_zero, det_one] at this
    exact zero_ne_one this
  have hdet : A.det = 0 := Matrix.exists_mulVec_eq_zero_iff.1 ⟨c, hc, hA⟩
  rw [h.eq, det_mul, det_mul, det_diagonal] at hdet
  have hp : ∏ i, σ i = 0 := by
    rcases mul_eq_zero.1 hdet with h | h
    · exact (mul_eq_zero.1 h).resolve_left hU
    · exact absurd h hV
  obtain ⟨i, -, hi⟩ := Finset.prod_eq_zero_iff.1 hp
  have h11 : σ 11 = 0 := le_antisymm (hi ▸ h.anti i 11 (by
    rw [Fin.le_iff_val_le_val]
    have := i.isLt
    show i.val ≤ 11
    omega)) (h.nonneg 11)
  have hcol : (fun i => U i 11) = U *ᵥ Pi.single 11 1 := by
    funext i
    simp
  constructor
  · have h2 : A = V * diagonal σ * U.transpose := hs ▸ (isSvd_transpose h).eq
    rw [hcol]
    conv_lhs => rw [h2]
    rw [mulVec_mulVec, Matrix.mul_assoc, h.orthU, Matrix.mul_one, ← mulVec_mulVec, diagonal_mulVec_single,
      h11]
    simp
  · intro e
    have := congrFun (congrFun h.orthU 11) 11
    rw [Matrix.mul_apply] at this
    have h0 : ∀ i, U i 11 = 0 := fun i => congrFun e i
    simp [h0] at this

/-! ### Affine maps and control points -/

/-- Four points are the images of the control points under an affine map. -/
theorem affine_of_cws (cws : Fin 4 → Vec3) (h : (epnpCC cws).det ≠ 0) (x : Fin 4 → Vec3) :
    ∃ (A : Mat3) (b : Vec3), ∀ j, A *ᵥ cws j + b = x j := by
  obtain ⟨Y, hY⟩ : ∃ Y : Mat3, Y = of fun i j => x j.succ i - x 0 i := ⟨_, rfl⟩
  obtain ⟨A, hA⟩ : ∃ A : Mat3, A = Y * (epnpCC cws)⁻¹ := ⟨_, rfl⟩
  refine ⟨A, x 0 - A *ᵥ cws 0, ?_⟩
  have h1 : A * epnpCC cws = Y := by
    rw [hA, Matrix.mul_assoc, Matrix.nonsing_inv_mul _ (isUnit_iff_ne_zero.2 h), Matrix.mul_one]
  have h2 : ∀ j : Fin 3, A *ᵥ (cws j.succ - cws 0) = x j.succ - x 0 := by
    intro j
    funext i
    have := congrFun (congrFun h1 i) j
    rw [hY] at this
    exact this
  intro j
  refine Fin.cases ?_ (fun j => ?_) j
  · abel
  · have := h2 j
    rw [mulVec_sub, sub_eq_iff_eq_add] at this
    rw [this]
    abel

/-! ### The first candidate -/

/-- What one correspondence says about the pose `(t, R)`: the point has the given image and is on
the given side. -/
def Sees (R : Mat3) (t : Vec3) (c : EpnpCorr) : Prop :=
  (R *ᵥ c.pw + t) 0 = c.u * (R *ᵥ c.pw + t) 2 ∧ (R *ᵥ c.pw + t) 1 = c.v * (R *ᵥ c.pw + t) 2 ∧
    ((R *ᵥ c.pw + t) 2 > 0 ∧ c.sgn > 0 ∨ (R *ᵥ c.pw + t) 2 < 0 ∧ c.sgn < 0)

theorem Sees.depth {R : Mat3} {t : Vec3} {c : EpnpCorr} (h : Sees R t c) :
    (R *ᵥ c.pw + t) 2 ≠ 0 := by
  rcases h.2.2 with h | h
  · exact h.1.ne'
  · exact h.1.ne

theorem epnpMtM_true {cws : Fin 4 → Vec3} (h : (epnpCC cws).det ≠ 0) {cs : List EpnpCorr} {R : Mat3}
    {t : Vec3} (hs : ∀ c ∈ cs, (R *ᵥ c.pw + t) 0 = c.u * (R *ᵥ c.pw + t) 2 ∧
      (R *ᵥ c.pw + t) 1 = c.v * (R *ᵥ c.pw + t) 2) :
    epnpMtM cws cs *ᵥ stack12 (fun j => R *ᵥ cws j + t) = 0 := by
  rw [epnpMtM_ker]
  intro c hc
  have e : (fun (j : Fin 4) (k : Fin 3) => stack12 (fun j => R *ᵥ cws j + t) (idx12 j k)) =
      fun j => R *ᵥ cws j + t := by
    funext j k
    rw [stack12_idx]
  rw [epnpRowU_dot, epnpRowV_dot, e, epnpPc_rigid _ (epnpAlpha_sum cws c.pw), epnpAlpha_repr cws h,
    (hs c hc).1, (hs c hc).2, sub_self, sub_self]
  exact ⟨rfl, rfl⟩

/-- If the projections determine the affine map up to a factor, the kernel has dimension one. -/
theorem epnpMtM_unique {cws : Fin 4 → Vec3} (h : (epnpCC cws).det ≠ 0) {cs : List EpnpCorr} {R : Mat3}
    {t : Vec3}
    (hu : ∀ (A : Mat3) (b : Vec3), (∀ c ∈ cs, (A *ᵥ c.pw + b) 0 = c.u * (A *ᵥ c.pw + b) 2 ∧
      (A *ᵥ c.pw + b) 1 = c.v * (A *ᵥ c.pw + b) 2) → ∃ k : ℝ, A = k • R ∧ b = k • t)
    {x : Fin 12 → ℝ} (hx : epnpMtM cws cs *ᵥ x = 0) :
    ∃ k : ℝ, ∀ j k', x (idx12 j k') = k * (R *ᵥ cws j + t) k' := by
  rw [epnpMtM_ker] at hx
  obtain ⟨A, b, hAb⟩ := affine_of_cws cws h fun j k => x (idx12 j k)
  obtain ⟨k, rfl, rfl⟩ := hu A b fun c hc => by
    have h1 := (hx c hc).1
    have h2 := (hx c hc).2
    rw [epnpRowU_dot, ← funext hAb, epnpPc_rigid _ (epnpAlpha_sum cws c.pw),
      epnpAlpha_repr cws h] at h1
    rw [epnpRowV_dot, ← funext hAb, epnpPc_rigid _ (epnpAlpha_sum cws c.pw),
      epnpAlpha_repr cws h] at h2
    exact ⟨sub_eq_zero.1 h1, sub_eq_zero.1 h2⟩
  refine ⟨k, fun j k' => ?_⟩
  have := congrFun (hAb j) k'
  rw [← this, smul_mulVec, ← smul_add]
  rfl

theorem rot_cws_dist {R : Mat3} (hR : IsRot R) (t : Vec3) (cws : Fin 4 → Vec3) :
    epnpRho (fun j => R *ᵥ cws j + t) = epnpRho cws := by
  funext i
  unfold epnpRho
  simp only [add_sub_add_right_eq_sub, ← mulVec_sub]
  rw [rot_dot hR.1]

theorem epnpRho_smul (k : ℝ) (c : Fin 4 → Vec3) : epnpRho (fun j => k • c j) = k ^ 2 • epnpRho c := by
  funext i
  unfold epnpRho
  simp only [← smul_sub, smul_dotProduct, dotProduct_smul, smul_eq_mul, Pi.smul_apply]
  ring

theorem epnpErr_exact {R : Mat3} {t : Vec3} {cs : List EpnpCorr} (h : ∀ c ∈ cs, Sees R t c) :
    epnpErr R t cs = .fin 0 := by
  have h1 : ∀ c ∈ cs, epnpErr1 R t c = .fin 0 := by
    intro c hc
    have hs := h c hc
    have hz := hs.depth
    unfold epnpErr1
    simp only [hz, if_false]
    rw [hs.1, hs.2.1]
    have e : ∀ a : ℝ, a - (0 + 1 * (a * (R *ᵥ c.pw + t) 2) * (1 / (R *ᵥ c.pw + t) 2)) = 0 := by
      intro a
      field_simp
      ring
    rw [e, e]
    simp
  have h2 : cs.foldl (fun s c => FErr.add s (epnpErr1 R t c)) (.fin 0) = .fin 0 := by
    clear h
    induction cs with
    | nil => rfl
    | cons a l ih =>
      rw [List.foldl_cons, h1 a List.mem_cons_self]
      have : FErr.add (.fin 0) (.fin 0) = .fin 0 := by simp [FErr.add]
      rw [this]
      exact ih fun c hc => h1 c (List.mem_cons_of_mem _ hc)
  unfold epnpErr
  rw [h2]
  simp

theorem epnpErr_nonneg (R : Mat3) (t : Vec3) (cs : List EpnpCorr) : ¬ (epnpErr R t cs).lt (.fin 0) := by
  have h1 : ∀ c, ∀ x, epnpErr1 R t c = .fin x → 0 ≤ x := by
    intro c x hx
    unfold epnpErr1 at hx
    simp only at hx
    split_ifs at hx
    injection hx with hx
    rw [← hx]
    exact Real.sqrt_nonneg _
  have h2 : ∀ (l : List EpnpCorr) (s : FErr), (∀ x, s = .fin x → 0 ≤ x) →
      ∀ x, l.foldl (fun s c => FErr.add s (epnpErr1 R t c)) s = .fin x → 0 ≤ x := by
    intro l
    induction l with
    | nil => exact fun s hs => hs
    | cons a l ih =>
      intro s hs
      rw [List.foldl_cons]
      apply ih
      intro x hx
      cases s with
      | fin y =>
        cases he : epnpErr1 R t a with
        | fin z =>
          rw [he] at hx
          have : x = y + z := by
            simp only [FErr.add] at hx
            injection hx with hx
            exact hx.symm
          rw [this]
          exact add_nonneg (hs y rfl) (h1 a z he)
        | inf => rw [he] at hx; simp [FErr.add] at hx
        | nan => rw [he] at hx; simp [FErr.add] at hx
      | inf => cases he : epnpErr1 R t a <;> rw [he] at hx <;> simp [FErr.add] at hx
      | nan => cases he : epnpErr1 R t a <;> rw [he] at hx <;> simp [FErr.add] at hx
  unfold epnpErr
  cases he : cs.foldl (fun s c => FErr.add s (epnpErr1 R t c)) (.fin 0) with
  | fin x =>
    have := h2 cs (.fin 0) (fun x hx => by injection hx with hx; rw [← hx]) x he
    simp only [FErr.lt, not_lt]
    positivity
  | inf => simp [FErr.lt]
  | nan => simp [FErr.lt]

theorem mulVec_dot_cols {m n : ℕ} (M : Matrix (Fin m) (Fin n) ℝ) (y : Fin n → ℝ) (z : Fin m → ℝ) :
    (M *ᵥ y) ⬝ᵥ z = ∑ j, y j * ((fun i => M i j) ⬝ᵥ z) := by
  simp only [dotProduct, mulVec, Finset.sum_mul, Finset.mul_sum]
  rw [Finset.sum_comm]
  exact Finset.sum_congr rfl fun j _ => Finset.sum_congr rfl fun i _ => by ring

theorem epnpL4_mulVec (L : Matrix (Fin 6) (Fin 10) ℝ) (b : Fin 4 → ℝ) (i : Fin 6) :
    (epnpL4 L *ᵥ b) i = L i 0 * b 0 + L i 1 * b 1 + L i 3 * b 2 + L i 6 * b 3 := by
  unfold mulVec
  rw [dotProduct, Fin.sum_univ_four]
  rfl

/-- The coefficients found from exact data. -/
theorem epnpApprox1_exact {U : Matrix (Fin 12) (Fin 12) ℝ} {c : Fin 4 → Vec3} {k : ℝ} (hk : k ≠ 0)
    (hv : ∀ j k', epnpV U 0 (idx12 j k') = k * c j k')
    (hinj : ∀ d, epnpL4 (epnpL U) *ᵥ d = 0 → d = 0) {b4 : Fin 4 → ℝ}
    (hls : IsLeastSquares (epnpL4 (epnpL U)) (epnpRho c) b4) :
    epnpApprox1 b4 = some ![|k|⁻¹, 0, 0, 0] := by
  have h0 : ∀ i, epnpL U i 0 = k ^ 2 * epnpRho c i := by
    intro i
    have : epnpDv U 0 i = k • (c (epnpPair i).1 - c (epnpPair i).2) := by
      funext m
      simp only [epnpDv, hv, Pi.smul_apply, Pi.sub_apply, smul_eq_mul]
      ring
    show epnpDv U 0 i ⬝ᵥ epnpDv U 0 i = _
    rw [this, smul_dotProduct, dotProduct_smul, epnpRho, smul_eq_mul, smul_eq_mul]
    ring
  have hk2 : k ^ 2 ≠ 0 := pow_ne_zero _ hk
  have h1 : epnpL4 (epnpL U) *ᵥ ![(k ^ 2)⁻¹, 0, 0, 0] = epnpRho c := by
    funext i
    rw [epnpL4_mulVec, h0]
    simp
    field_simp
  have h2 : b4 = ![(k ^ 2)⁻¹, 0, 0, 0] := by
    rw [← sub_eq_zero]
    apply hinj
    have h3 : ∀ j, (fun i => epnpL4 (epnpL U) i j) ⬝ᵥ
        (epnpL4 (epnpL U) *ᵥ (b4 - ![(k ^ 2)⁻¹, 0, 0, 0])) = 0 := by
      intro j
      have := hls j
      rw [mulVec_sub, h1, ← neg_sub, dotProduct_neg, this, neg_zero]
    have h4 : (epnpL4 (epnpL U) *ᵥ (b4 - ![(k ^ 2)⁻¹, 0, 0, 0])) ⬝ᵥ
        (epnpL4 (epnpL U) *ᵥ (b4 - ![(k ^ 2)⁻¹, 0, 0, 0])) = 0 := by
      generalize hy : b4 - ![(k ^ 2)⁻¹, 0, 0, 0] = y at h3 ⊢
      generalize hM : epnpL4 (epnpL U) = M at h3 ⊢
      have : (M *ᵥ y) ⬝ᵥ (M *ᵥ y) = ∑ j, y j * ((fun i => M i j) ⬝ᵥ (M *ᵥ y)) := mulVec_dot_cols M y _
      rw [this]
      exact Finset.sum_eq_zero fun j _ => by rw [h3 j, mul_zero]
    exact dotProduct_self_eq_zero.1 h4
  have hb : b4 0 = (k ^ 2)⁻¹ := by rw [h2]; rfl
  have hpos : 0 < (k ^ 2)⁻¹ := by positivity
  have hs : √(b4 0) = |k|⁻¹ := by rw [hb, Real.sqrt_inv, Real.sqrt_sq_eq_abs]
  have hk' : |k|⁻¹ ≠ 0 := inv_ne_zero (abs_ne_zero.2 hk)
  unfold epnpApprox1
  simp only
  rw [if_neg (by rw [hb]; exact not_lt.2 hpos.le), hs, if_neg hk', h2]
  simp

open Classical in
/-- The pose computed from the exact coefficients. -/
theorem epnpRt_exact (S : EpnpSvds)
    (h3 : ∀ A, IsSvd A (S.svd3 A).1 (S.svd3 A).2.1 (S.svd3 A).2.2) {cws : Fin 4 → Vec3}
    (h : (epnpCC cws).det ≠ 0) {cs : List EpnpCorr} {R : Mat3} (hR : IsRot R) {t : Vec3}
    (hs : ∀ c ∈ cs, Sees R t c) (hpl : ¬ Coplanar (cs.map EpnpCorr.pw))
    {U : Matrix (Fin 12) (Fin 12) ℝ} {k : ℝ} (hk : k ≠ 0)
    (hv : ∀ j k', epnpV U 0 (idx12 j k') = k * (R *ᵥ cws j + t) k') :
    epnpRt S cws U cs ![|k|⁻¹, 0, 0, 0] = (.fin 0, t, R) := by
  obtain ⟨s, hsk⟩ : ∃ s, s = |k|⁻¹ * k := ⟨_, rfl⟩
  have hccs : epnpCcs U ![|k|⁻¹, 0, 0, 0] = fun j => s • (R *ᵥ cws j + t) := by
    funext j m
    simp [epnpCcs, hv, hsk]
    ring
  have hpc : ∀ c : EpnpCorr, epnpPc (epnpAlpha cws c.pw) (epnpCcs U ![|k|⁻¹, 0, 0, 0]) =
      s • (R *ᵥ c.pw + t) := by
    intro c
    rw [hccs, epnpPc_smul, epnpPc_rigid _ (epnpAlpha_sum cws c.pw), epnpAlpha_repr cws h]
  have hne : cs ≠ [] := by
    rintro rfl
    exact hpl ⟨![1, 0, 0], fun e => by simpa using congrFun e 0, 0, by simp⟩
  obtain ⟨c0, l, hcl⟩ := List.exists_cons_of_ne_nil hne
  have hs0 := hs c0 (by rw [hcl]; exact List.mem_cons_self)
  -- the points after the correction of the sign
  have hfin : ∀ ps : List Vec3, ps = cs.map (fun c => R *ᵥ c.pw + t) →
      epnpEstimate (fun A => ((S.svd3 A).1, (S.svd3 A).2.1)) (ps.zip (cs.map EpnpCorr.pw)) =
        (t, R) := by
    rintro ps rfl
    have : (cs.map fun c => R *ᵥ c.pw + t).zip (cs.map EpnpCorr.pw) =
        (cs.map EpnpCorr.pw).map fun q => (R *ᵥ q + t, q) := by
      rw [List.zip_map', List.map_map]
      rfl
    rw [this]
    exact epnpEstimate_exact _ (fun H => ⟨_, h3 H⟩) R hR t _ hpl
  have hflip : (∃ p z, (cs.map fun c : EpnpCorr => epnpPc (epnpAlpha cws c.pw)
      (epnpCcs U ![|k|⁻¹, 0, 0, 0])).head? = some p ∧ (cs.map EpnpCorr.sgn).head? = some z ∧
      epnpFlip (p 2) z) ↔ epnpFlip (s * (R *ᵥ c0.pw + t) 2) c0.sgn := by
    rw [hcl]
    simp only [List.map_cons, List.head?_cons, Option.some.injEq, hpc]
    constructor
    · rintro ⟨p, z, rfl, rfl, hf⟩
      exact hf
    · intro hf
      exact ⟨_, _, rfl, rfl, hf⟩
  have hres : epnpEstimate (fun A => ((S.svd3 A).1, (S.svd3 A).2.1))
      ((if (∃ p z, (cs.map fun c : EpnpCorr => epnpPc (epnpAlpha cws c.pw)
      (epnpCcs U ![|k|⁻¹, 0, 0, 0])).head? = some p ∧ (cs.map EpnpCorr.sgn).head? = some z ∧
      epnpFlip (p 2) z) then (cs.map fun c : EpnpCorr => epnpPc (epnpAlpha cws c.pw)
        (epnpCcs U ![|k|⁻¹, 0, 0, 0])).map fun p => -p
      else cs.map fun c : EpnpCorr => epnpPc (epnpAlpha cws c.pw) (epnpCcs U ![|k|⁻¹, 0, 0, 0])).zip
        (cs.map EpnpCorr.pw)) = (t, R) := by
    apply hfin
    rcases lt_or_gt_of_ne hk with hneg | hpos
    · have hs1 : s = -1 := by
        rw [hsk, abs_of_neg hneg]
        field_simp
      rw [if_pos]
      · rw [List.map_map]
        apply List.map_congr_left
        intro c _
        simp only [Function.comp_def, hpc, hs1, neg_one_smul, neg_neg]
      · rw [hflip, hs1]
        unfold epnpFlip
        rcases hs0.2.2 with hz | hz
        · left
          constructor <;> [linarith [hz.1]; exact hz.2]
        · right
          constructor <;> [linarith [hz.1]; exact hz.2]
    · have hs1 : s = 1 := by
        rw [hsk, abs_of_pos hpos]
        field_simp
      rw [if_neg]
      · apply List.map_congr_left
        intro c _
        rw [hpc, hs1, one_smul]
      · rw [hflip, hs1]
        unfold epnpFlip
        rcases hs0.2.2 with hz | hz
        · rintro (h | h)
          · linarith [hz.1, h.1]
          · have := hz.2
            have := h.2
            omega
        · rintro (h | h)
          · have := hz.2
            have := h.2
            omega
          · linarith [hz.1, h.1]
  unfold epnpRt
  simp only
  rw [hres, epnpErr_exact hs]

/-- Exact data give the exact pose, unless memory is read that was not written. -/
theorem epnpPose_exact (S : EpnpSvds)
    (h3 : ∀ A, IsSvd A (S.svd3 A).1 (S.svd3 A).2.1 (S.svd3 A).2.2)
    (h12 : ∀ A, ∃ V σ, IsSvd A (S.svd12 A) V σ) (h4 : ∀ A b, IsLeastSquares A b (S.solve4 A b))
    (cs : List EpnpCorr) (R : Mat3) (hR : IsRot R) (t : Vec3) (hs : ∀ c ∈ cs, Sees R t c)
    (hpl : ¬ Coplanar (cs.map EpnpCorr.pw))
    (hu : ∀ (A : Mat3) (b : Vec3), (∀ c ∈ cs, (A *ᵥ c.pw + b) 0 = c.u * (A *ᵥ c.pw + b) 2 ∧
      (A *ᵥ c.pw + b) 1 = c.v * (A *ᵥ c.pw + b) 2) → ∃ k : ℝ, A = k • R ∧ b = k • t)
    (hinj : ∀ d, epnpL4 (epnpL (S.svd12 (epnpMtM (epnpCws cs (S.svd3 (epnpCov cs)).1
      (S.svd3 (epnpCov cs)).2.2) cs))) *ᵥ d = 0 → d = 0) :
    epnpPose S cs = .pose t R ∨ epnpPose S cs = .uninit := by
  have hne : cs ≠ [] := by
    rintro rfl
    exact hpl ⟨![1, 0, 0], fun e => by simpa using congrFun e 0, 0, by simp⟩
  have hl : cs.length ≠ 0 := fun e => hne (List.length_eq_zero_iff.1 e)
  obtain ⟨cws, hcws⟩ : ∃ cws, cws = epnpCws cs (S.svd3 (epnpCov cs)).1 (S.svd3 (epnpCov cs)).2.2 :=
    ⟨_, rfl⟩
  rw [← hcws] at hinj
  have hdet : (epnpCC cws).det ≠ 0 := by
    rw [hcws, Ne, epnpCC_det hne (h3 _)]
    exact hpl
  obtain ⟨U, hU⟩ : ∃ U, U = S.svd12 (epnpMtM cws cs) := ⟨_, rfl⟩
  rw [← hU] at hinj
  have hker := epnpMtM_true hdet fun c hc => ⟨(hs c hc).1, (hs c hc).2.1⟩
  have hc0 : stack12 (fun j => R *ᵥ cws j + t) ≠ 0 := by
    intro e
    have hz : ∀ j, R *ᵥ cws j + t = 0 := fun j => by
      funext k
      rw [← stack12_idx (fun j => R *ᵥ cws j + t), e]
      rfl
    obtain ⟨c, hc⟩ := List.exists_mem_of_ne_nil cs hne
    have h1 := epnpPc_rigid (epnpAlpha cws c.pw) (epnpAlpha_sum cws c.pw) cws R t
    rw [epnpAlpha_repr cws hdet, funext hz] at h1
    have h2 := (hs c hc).depth
    rw [← h1] at h2
    apply h2
    simp [epnpPc]
  obtain ⟨V, σ, hsvd⟩ := h12 (epnpMtM cws cs)
  rw [← hU] at hsvd
  obtain ⟨hv0, hvne⟩ := svd_last_ker hsvd (epnpMtM_symm cws cs) hc0 hker
  obtain ⟨k, hv⟩ := epnpMtM_unique hdet hu hv0
  have hk : k ≠ 0 := by
    rintro rfl
    apply hvne
    have : ∀ j k', U (idx12 j k') 11 = 0 := fun j k' => by
      have := hv j k'
      simpa using this
    funext i
    have hi : i = idx12 ⟨i.val / 3, by omega⟩ ⟨i.val % 3, by omega⟩ := by
      apply Fin.ext
      simp only [idx12]
      omega
    rw [hi]
    exact this _ _
  have hv' : ∀ j k', epnpV U 0 (idx12 j k') = k * (R *ᵥ cws j + t) k' := hv
  have hrho := rot_cws_dist hR t cws
  have hb4 := epnpApprox1_exact hk hv' hinj (b4 := S.solve4 (epnpL4 (epnpL U)) (epnpRho cws)) (by
    rw [hrho]
    exact h4 _ _)
  have hgn : epnpGnB (epnpL U) (epnpRho cws) ![|k|⁻¹, 0, 0, 0] = 0 := by
    rw [epnpGnB_eq]
    have : epnpCcs U ![|k|⁻¹, 0, 0, 0] = fun j => (|k|⁻¹ * k) • (R *ᵥ cws j + t) := by
      funext j m
      simp [epnpCcs, hv']
      ring
    rw [this, epnpRho_smul, hrho, mul_pow, inv_pow, sq_abs, inv_mul_cancel₀ (pow_ne_zero 2 hk),
      one_smul, sub_self]
  have hcand : epnpCand S cws U cs (epnpApprox1 (S.solve4 (epnpL4 (epnpL U)) (epnpRho cws))) = none ∨
      epnpCand S cws U cs (epnpApprox1 (S.solve4 (epnpL4 (epnpL U)) (epnpRho cws))) =
        some (.fin 0, some (t, R)) := by
    rw [hb4]
    unfold epnpCand
    rcases epnpGnLoop_fixed _ _ _ hgn 5 none (Or.inl rfl) with h | h
    · left
      simp only [epnpGn, h]
    · right
      simp only [epnpGn, h]
      rw [epnpRt_exact S h3 hdet hR hs hpl hk hv']
  have hpos : ∀ b r, epnpCand S cws U cs b = some r → ¬ r.1.lt (.fin 0) := by
    intro b r hr
    unfold epnpCand at hr
    cases b with
    | none =>
      simp only [Option.some.injEq] at hr
      rw [← hr]
      simp [FErr.lt]
    | some b =>
      simp only at hr
      cases hg : epnpGn (epnpL U) (epnpRho cws) b with
      | none => rw [hg] at hr; simp at hr
      | some b' =>
        rw [hg] at hr
        simp only [Option.some.injEq] at hr
        rw [← hr]
        exact epnpErr_nonneg _ _ _
  unfold epnpPose
  rw [if_neg hl]
  simp only
  rw [← hcws, if_neg hdet, ← hU]
  rcases hcand with hc | hc
  · right
    rw [hc]
  · rw [hc]
    cases h2 : epnpCand S cws U cs (some (epnpApprox2 (S.solve3 (epnpL3 (epnpL U)) (epnpRho cws)))) with
    | none => right; rfl
    | some r2 =>
      cases h5 : epnpCand S cws U cs (epnpApprox3 (S.solve5 (epnpL5 (epnpL U)) (epnpRho cws))) with
      | none => right; rfl
      | some r3 =>
        left
        simp only
        rw [if_neg (hpos _ _ h2), if_neg (hpos _ _ h5)]

/-! ### From bearing vectors to correspondences -/

theorem proj_iff_cross {f X : Vec3} (hf : f 2 ≠ 0) :
    (X 0 = f 0 / f 2 * X 2 ∧ X 1 = f 1 / f 2 * X 2) ↔ crossProduct f X = 0 := by
  constructor
  · rintro ⟨h0, h1⟩
    rw [div_mul_eq_mul_div, eq_div_iff hf] at h0 h1
    funext i
    fin_cases i <;> simp [cross_apply]
    · linarith
    · linarith
    · have : f 2 * (f 0 * X 1 - f 1 * X 0) = 0 := by linear_combination f 0 * h1 - f 1 * h0
      exact (mul_eq_zero.1 this).resolve_left hf
  · intro h
    have h0 := congrFun h 0
    have h1 := congrFun h 1
    simp [cross_apply] at h0 h1
    rw [div_mul_eq_mul_div, eq_div_iff hf, div_mul_eq_mul_div, eq_div_iff hf]
    constructor <;> linarith

open Classical in
theorem epnpAdd_some {P f : Vec3} {c : EpnpCorr} (h : epnpAdd P f = some c) :
    f 2 ≠ 0 ∧ c = ⟨P, f 0 / f 2, f 1 / f 2, if f 2 > 0 then 1 else -1⟩ := by
  unfold epnpAdd at h
  split_ifs at h with h0
  · exact ⟨h0, by simp only [Option.some.injEq] at h; rw [← h]; simp [*]⟩
  · exact ⟨h0, by simp only [Option.some.injEq] at h; rw [← h]; simp [*]⟩

theorem epnp_mapM {obs : List (Vec3 × Vec3)} : ∀ {cs : List EpnpCorr},
    (obs.mapM fun o => epnpAdd o.1 o.2) = some cs →
    cs.map EpnpCorr.pw = obs.map Prod.fst ∧ (∀ o ∈ obs, ∃ c ∈ cs, epnpAdd o.1 o.2 = some c) ∧
      ∀ c ∈ cs, ∃ o ∈ obs, epnpAdd o.1 o.2 = some c := by
  induction obs with
  | nil =>
    intro cs h
    simp only [List.mapM_nil] at h
    obtain rfl : [] = cs := Option.some.inj h
    simp
  | cons a l ih =>
    intro cs h
    simp only [List.mapM_cons, Option.bind_eq_bind, Option.bind_eq_some_iff] at h
    obtain ⟨c, hc, cs', hcs', h⟩ := h
    obtain rfl : c :: cs' = cs := Option.some.inj h
    obtain ⟨h1, h2, h3⟩ := ih hcs'
    refine ⟨?_, ?_, ?_⟩
    · rw [List.map_cons, List.map_cons, h1, (epnpAdd_some hc).2]
    · intro o ho
      rcases List.mem_cons.1 ho with rfl | ho
      · exact ⟨c, List.mem_cons_self, hc⟩
      · obtain ⟨c', hc', he⟩ := h2 o ho
        exact ⟨c', List.mem_cons_of_mem _ hc', he⟩
    · intro c' hc'
      rcases List.mem_cons.1 hc' with rfl | hc'
      · exact ⟨a, List.mem_cons_self, hc⟩
      · obtain ⟨o, ho, he⟩ := h3 c' hc'
        exact ⟨o, List.mem_cons_of_mem _ ho, he⟩

theorem epnp_cross_of_proj {obs : List (Vec3 × Vec3)} {cs : List EpnpCorr}
    (hcs : (obs.mapM fun o => epnpAdd o.1 o.2) = some cs) {A : Mat3} {b : Vec3}
    (h : ∀ c ∈ cs, (A *ᵥ c.pw + b) 0 = c.u * (A *ᵥ c.pw + b) 2 ∧
      (A *ᵥ c.pw + b) 1 = c.v * (A *ᵥ c.pw + b) 2) :
    ∀ o ∈ obs, crossProduct o.2 (A *ᵥ o.1 + b) = 0 := by
  intro o ho
  obtain ⟨c, hc, he⟩ := (epnp_mapM hcs).2.1 o ho
  obtain ⟨hf, rfl⟩ := epnpAdd_some he
  exact (proj_iff_cross hf).1 (h _ hc)

/-- EPnP on exact bearing vectors. -/
theorem epnp_exact (S : EpnpSvds)
    (h3 : ∀ A, IsSvd A (S.svd3 A).1 (S.svd3 A).2.1 (S.svd3 A).2.2)
    (h12 : ∀ A, ∃ V σ, IsSvd A (S.svd12 A) V σ) (h4 : ∀ A b, IsLeastSquares A b (S.solve4 A b))
    (obs : List (Vec3 × Vec3)) (cs : List EpnpCorr)
    (hcs : (obs.mapM fun o => epnpAdd o.1 o.2) = some cs) (Q : Mat3) (hQ : IsRot Q) (T : Vec3)
    (hray : ∀ o ∈ obs, ∃ l : ℝ, 0 < l ∧ o.1 = Q *ᵥ (l • o.2) + T)
    (hpl : ¬ Coplanar (obs.map Prod.fst))
    (hu : ∀ (A : Mat3) (b : Vec3), (∀ o ∈ obs, crossProduct o.2 (A *ᵥ o.1 + b) = 0) →
      ∃ k : ℝ, A = k • Q.transpose ∧ b = k • -(Q.transpose *ᵥ T))
    (hinj : ∀ d, epnpL4 (epnpL (S.svd12 (epnpMtM (epnpCws cs (S.svd3 (epnpCov cs)).1
      (S.svd3 (epnpCov cs)).2.2) cs))) *ᵥ d = 0 → d = 0) :
    epnp S obs = .pose T Q ∨ epnp S obs = .uninit := by
  have hX : ∀ (l : ℝ) (f : Vec3), Q.transpose *ᵥ (Q *ᵥ (l • f) + T) + -(Q.transpose *ᵥ T) = (l • f : Vec3) := by
    intro l f
    rw [mulVec_add, mulVec_mulVec, hQ.1, one_mulVec]
    abel
  obtain ⟨m1, m2, m3⟩ := epnp_mapM hcs
  have hsee : ∀ c ∈ cs, Sees Q.transpose (-(Q.transpose *ᵥ T)) c := by
    intro c hc
    obtain ⟨o, ho, he⟩ := m3 c hc
    obtain ⟨l, hl, hray⟩ := hray o ho
    obtain ⟨hf, rfl⟩ := epnpAdd_some he
    have e : Q.transpose *ᵥ o.1 + -(Q.transpose *ᵥ T) = l • o.2 := by rw [hray, hX]
    unfold Sees
    simp only [e, Pi.smul_apply, smul_eq_mul]
    refine ⟨by field_simp, by field_simp, ?_⟩
    rcases lt_or_gt_of_ne hf with hn | hp
    · right
      rw [if_neg (not_lt.2 hn.le)]
      exact ⟨mul_neg_of_pos_of_neg hl hn, by norm_num⟩
    · left
      rw [if_pos hp]
      exact ⟨mul_pos hl hp, by norm_num⟩
  have hpose := epnpPose_exact S h3 h12 h4 cs Q.transpose hQ.transpose (-(Q.transpose *ᵥ T)) hsee
    (by rw [m1]; exact hpl) (fun A b h => hu A b (epnp_cross_of_proj hcs h)) hinj
  unfold epnp
  rw [hcs]
  rcases hpose with h | h
  · left
    simp only [h]
    rw [transpose_transpose, mulVec_neg, neg_neg, mulVec_mulVec, rot_mul_transpose hQ.1, one_mulVec]
  · right
    simp only [h]

/-- `gauss_newton` reads `X` before it is written exactly if the first system is reported
singular. -/
theorem epnpGn_none_iff (L : Matrix (Fin 6) (Fin 10) ℝ) (rho : Fin 6 → ℝ) (b : Fin 4 → ℝ) :
    epnpGn L rho b = none ↔ qrSolve (epnpGnA L b) (epnpGnB L rho b) = none := by
  have hsome : ∀ (n : ℕ) (b x : Fin 4 → ℝ), ∃ r, epnpGnLoop L rho n (b, some x) = some r := by
    intro n
    induction n with
    | zero => exact fun b x => ⟨b, rfl⟩
    | succ n ih =>
      intro b x
      unfold epnpGnLoop epnpGnStep
      cases qrSolve (epnpGnA L b) (epnpGnB L rho b) with
      | none => exact ih (b + x) x
      | some y => exact ih (b + y) y
  unfold epnpGn epnpGnLoop epnpGnStep
  cases h : qrSolve (epnpGnA L b) (epnpGnB L rho b) with
  | none => simp
  | some y =>
    obtain ⟨r, hr⟩ := hsome 4 (b + y) y
    simp [hr]

end OpenGV
