import Verif.Proof.Eigensolver

namespace OpenGV

open Matrix Spec Topology

/-! ### Derivatives along a coordinate -/

/-- The derivative of `cayley2rot_reduced` in the coordinate `k`. -/
theorem rJac_deriv (c : Vec3) (k i j : Fin 3) :
    HasDerivAt (fun x => cayley2rotReduced (Function.update c k x) i j) (rJac c k i j) (c k) := by
  have h : ∀ m : Fin 3, HasDerivAt (fun x => Function.update c k x m) (if m = k then 1 else 0) (c k) := by
    intro m
    rcases eq_or_ne m k with rfl | hmk
    · simpa using hasDerivAt_id' (c m)
    · simpa [hmk] using hasDerivAt_const (c k) (c m)
  have hu : Function.update c k (c k) = c := Function.update_eq_self k c
  have h0 := h 0
  have h1 := h 1
  have h2 := h 2
  have e0 : Function.update c k (c k) 0 = c 0 := by rw [hu]
  have e1 : Function.update c k (c k) 1 = c 1 := by rw [hu]
  have e2 : Function.update c k (c k) 2 = c 2 := by rw [hu]
  fin_cases i <;> fin_cases j <;> simp only [cayley2rotReduced, Matrix.of_apply, Matrix.cons_val',
      Matrix.cons_val, Fin.zero_eta, Fin.mk_one, Fin.reduceFinMk]
  · refine ((((h0.fun_pow 2).const_add 1).sub (h1.fun_pow 2)).sub (h2.fun_pow 2)).congr_deriv ?_
    rw [e0, e1, e2]; fin_cases k <;> simp [rJac]
  · refine (((h0.mul h1).sub h2).const_mul 2).congr_deriv ?_
    rw [e0, e1]; fin_cases k <;> simp [rJac]
  · refine (((h0.mul h2).add h1).const_mul 2).congr_deriv ?_
    rw [e0, e2]; fin_cases k <;> simp [rJac]
  · refine (((h0.mul h1).add h2).const_mul 2).congr_deriv ?_
    rw [e0, e1]; fin_cases k <;> simp [rJac]
  · refine ((((h0.fun_pow 2).const_sub 1).add (h1.fun_pow 2)).sub (h2.fun_pow 2)).congr_deriv ?_
    rw [e0, e1, e2]; fin_cases k <;> simp [rJac]
  · refine (((h1.mul h2).sub h0).const_mul 2).congr_deriv ?_
    rw [e1, e2]; fin_cases k <;> simp [rJac]
  · refine (((h0.mul h2).sub h1).const_mul 2).congr_deriv ?_
    rw [e0, e2]; fin_cases k <;> simp [rJac]
  · refine (((h1.mul h2).add h0).const_mul 2).congr_deriv ?_
    rw [e1, e2]; fin_cases k <;> simp [rJac]
  · refine ((((h0.fun_pow 2).const_sub 1).sub (h1.fun_pow 2)).add (h2.fun_pow 2)).congr_deriv ?_
    rw [e0, e1, e2]; fin_cases k <;> simp [rJac]

theorem rowForm_deriv {A : ℝ → Mat3} {J : Mat3} {x : ℝ}
    (h : ∀ i j, HasDerivAt (fun x => A x i j) (J i j) x) (i j : Fin 3) (F : Mat3) :
    HasDerivAt (fun x => rowForm (A x) i F (A x) j)
      (rowForm J i F (A x) j + rowForm (A x) i F J j) x := by
  have h2 : ∀ m, HasDerivAt (fun x => (F *ᵥ A x j) m) ((F *ᵥ J j) m) x := by
    intro m
    simp only [mulVec3]
    exact (((h j 0).const_mul _).add ((h j 1).const_mul _)).add ((h j 2).const_mul _)
  simp only [rowForm, dot3]
  refine ((((h i 0).mul (h2 0)).add ((h i 1).mul (h2 1))).add
    ((h i 2).mul (h2 2))).congr_deriv ?_
  ring

theorem rowForm_comm {F : Mat3} (hF : F.transpose = F) (A B : Mat3) (i j : Fin 3) :
    rowForm A i F B j = rowForm B j F A i := by
  rw [rowForm, rowForm, dotProduct_mulVec, ← mulVec_transpose, hF, dotProduct_comm]

/-- Every summation term is symmetric. -/
def FSums.Symm (s : FSums) : Prop :=
  s.xx.transpose = s.xx ∧ s.yy.transpose = s.yy ∧ s.zz.transpose = s.zz ∧
    s.xy.transpose = s.xy ∧ s.yz.transpose = s.yz ∧ s.zx.transpose = s.zx

theorem FSums.Symm.add {s : FSums} (h : s.Symm) (w : ℝ) (f1 f2 : Vec3) : (s.add w f1 f2).Symm := by
  obtain ⟨h1, h2, h3, h4, h5, h6⟩ := h
  simp only [FSums.Symm, FSums.add, transpose_add, transpose_smul, transpose_vecMulVec, h1, h2, h3,
    h4, h5, h6, and_self]

theorem eigenSums_symm (cs : List (ℝ × Vec3 × Vec3)) : (eigenSums cs).Symm := by
  have : ∀ s : FSums, s.Symm → (cs.foldl (fun s c => s.add c.1 c.2.1 c.2.2) s).Symm := by
    induction cs with
    | nil => exact fun s h => h
    | cons c cs ih => exact fun s h => ih _ (h.add _ _ _)
  exact this _ (by simp [FSums.Symm, FSums.zero])

theorem composeMJac_deriv {s : FSums} (hs : s.Symm) {A : ℝ → Mat3} {J : Mat3} {x : ℝ}
    (h : ∀ i j, HasDerivAt (fun x => A x i j) (J i j) x) (i j : Fin 3) :
    HasDerivAt (fun x => composeMR s (A x) i j) (composeMJac s (A x) J i j) x := by
  obtain ⟨h1, h2, h3, h4, h5, h6⟩ := hs
  have d := fun i j F => rowForm_deriv h i j F
  have D00 : HasDerivAt (fun x => rowForm (A x) 2 s.yy (A x) 2 - 2 * rowForm (A x) 2 s.yz (A x) 1 +
      rowForm (A x) 1 s.zz (A x) 1) (composeMJac s (A x) J 0 0) x := by
    refine (((d 2 2 s.yy).sub ((d 2 1 s.yz).const_mul 2)).add (d 1 1 s.zz)).congr_deriv ?_
    rw [rowForm_comm h2 (A x) J 2 2, rowForm_comm h3 (A x) J 1 1]
    simp only [composeMJac, Matrix.of_apply, Matrix.cons_val', Matrix.cons_val]
    ring
  have D01 : HasDerivAt (fun x => rowForm (A x) 2 s.yz (A x) 0 - rowForm (A x) 2 s.xy (A x) 2 -
      rowForm (A x) 1 s.zz (A x) 0 + rowForm (A x) 1 s.zx (A x) 2)
      (composeMJac s (A x) J 0 1) x := by
    refine ((((d 2 0 s.yz).sub (d 2 2 s.xy)).sub (d 1 0 s.zz)).add (d 1 2 s.zx)).congr_deriv ?_
    rw [rowForm_comm h4 (A x) J 2 2]
    simp only [composeMJac, Matrix.of_apply, Matrix.cons_val', Matrix.cons_val]
    ring
  have D02 : HasDerivAt (fun x => rowForm (A x) 2 s.xy (A x) 1 - rowForm (A x) 2 s.yy (A x) 0 -
      rowForm (A x) 1 s.zx (A x) 1 + rowForm (A x) 1 s.yz (A x) 0)
      (composeMJac s (A x) J 0 2) x := by
    refine ((((d 2 1 s.xy).sub (d 2 0 s.yy)).sub (d 1 1 s.zx)).add (d 1 0 s.yz)).congr_deriv ?_
    rw [rowForm_comm h6 (A x) J 1 1]
    simp only [composeMJac, Matrix.of_apply, Matrix.cons_val', Matrix.cons_val]
    ring
  have D11 : HasDerivAt (fun x => rowForm (A x) 0 s.zz (A x) 0 - 2 * rowForm (A x) 0 s.zx (A x) 2 +
      rowForm (A x) 2 s.xx (A x) 2) (composeMJac s (A x) J 1 1) x := by
    refine (((d 0 0 s.zz).sub ((d 0 2 s.zx).const_mul 2)).add (d 2 2 s.xx)).congr_deriv ?_
    rw [rowForm_comm h3 (A x) J 0 0, rowForm_comm h1 (A x) J 2 2]
    simp only [composeMJac, Matrix.of_apply, Matrix.cons_val', Matrix.cons_val]
    ring
  have D12 : HasDerivAt (fun x => rowForm (A x) 0 s.zx (A x) 1 - rowForm (A x) 0 s.yz (A x) 0 -
      rowForm (A x) 2 s.xx (A x) 1 + rowForm (A x) 2 s.xy (A x) 0)
      (composeMJac s (A x) J 1 2) x := by
    refine ((((d 0 1 s.zx).sub (d 0 0 s.yz)).sub (d 2 1 s.xx)).add (d 2 0 s.xy)).congr_deriv ?_
    rw [rowForm_comm h5 (A x) J 0 0]
    simp only [composeMJac, Matrix.of_apply, Matrix.cons_val', Matrix.cons_val]
    ring
  have D22 : HasDerivAt (fun x => rowForm (A x) 1 s.xx (A x) 1 - 2 * rowForm (A x) 0 s.xy (A x) 1 +
      rowForm (A x) 0 s.yy (A x) 0) (composeMJac s (A x) J 2 2) x := by
    refine (((d 1 1 s.xx).sub ((d 0 1 s.xy).const_mul 2)).add (d 0 0 s.yy)).congr_deriv ?_
    rw [rowForm_comm h1 (A x) J 1 1, rowForm_comm h2 (A x) J 0 0]
    simp only [composeMJac, Matrix.of_apply, Matrix.cons_val', Matrix.cons_val]
    ring
  fin_cases i <;> fin_cases j
  exacts [D00, D01, D02, D01, D11, D12, D02, D12, D22]

/-- The derivative of the formula for the smallest eigenvalue. -/
theorem evJac_deriv {M : ℝ → Mat3} {J : Mat3} {x : ℝ}
    (h : ∀ i j, HasDerivAt (fun x => M x i j) (J i j) x)
    (ht : 0 < evT (cubicB (M x)) (cubicC (M x)))
    (hst : evS (cubicB (M x)) (cubicC (M x)) (cubicD (M x)) ^ 2 < evT (cubicB (M x)) (cubicC (M x))) :
    HasDerivAt (fun x => evFormula (cubicB (M x)) (evS (cubicB (M x)) (cubicC (M x)) (cubicD (M x)))
      (evT (cubicB (M x)) (cubicC (M x)))) (evJac (M x) J) x := by
  set b := fun x => cubicB (M x) with hb
  set c := fun x => cubicC (M x) with hc
  set d := fun x => cubicD (M x) with hd
  set s := fun x => evS (b x) (c x) (d x) with hs
  set t := fun x => evT (b x) (c x) with htt
  have db : HasDerivAt b (-J 0 0 - J 1 1 - J 2 2) x :=
    ((h 0 0).fun_neg.sub (h 1 1)).sub (h 2 2)
  have dc : HasDerivAt c (-2 * M x 0 2 * J 0 2 - 2 * M x 1 2 * J 1 2 - 2 * M x 0 1 * J 0 1 +
      J 0 0 * M x 1 1 + M x 0 0 * J 1 1 + J 0 0 * M x 2 2 + M x 0 0 * J 2 2 + J 1 1 * M x 2 2 +
      M x 1 1 * J 2 2) x := by
    refine (((((((h 0 2).fun_pow 2).fun_neg.sub ((h 1 2).fun_pow 2)).sub ((h 0 1).fun_pow 2)).add
      ((h 0 0).mul (h 1 1))).add ((h 0 0).mul (h 2 2))).add
      ((h 1 1).mul (h 2 2))).congr_deriv ?_
    push_cast
    ring
  have dd : HasDerivAt d (J 1 1 * M x 0 2 ^ 2 + M x 1 1 * 2 * M x 0 2 * J 0 2 +
      J 0 0 * M x 1 2 ^ 2 + M x 0 0 * 2 * M x 1 2 * J 1 2 + J 2 2 * M x 0 1 ^ 2 +
      M x 2 2 * 2 * M x 0 1 * J 0 1 - J 0 0 * M x 1 1 * M x 2 2 - M x 0 0 * J 1 1 * M x 2 2 -
      M x 0 0 * M x 1 1 * J 2 2 - 2 * (J 0 1 * M x 1 2 * M x 0 2 + M x 0 1 * J 1 2 * M x 0 2 +
      M x 0 1 * M x 1 2 * J 0 2)) x := by
    refine ((((((h 1 1).mul ((h 0 2).fun_pow 2)).add ((h 0 0).mul ((h 1 2).fun_pow 2))).add
      ((h 2 2).mul ((h 0 1).fun_pow 2))).sub (((h 0 0).mul (h 1 1)).mul (h 2 2))).sub
      ((((h 0 1).const_mul 2).mul (h 1 2)).mul (h 0 2))).congr_deriv ?_
    push_cast
    simp only [Pi.mul_apply]
    ring
  set b' := -J 0 0 - J 1 1 - J 2 2 with hb'
  set c' := -2 * M x 0 2 * J 0 2 - 2 * M x 1 2 * J 1 2 - 2 * M x 0 1 * J 0 1 +
      J 0 0 * M x 1 1 + M x 0 0 * J 1 1 + J 0 0 * M x 2 2 + M x 0 0 * J 2 2 + J 1 1 * M x 2 2 +
      M x 1 1 * J 2 2 with hc'
  set d' := J 1 1 * M x 0 2 ^ 2 + M x 1 1 * 2 * M x 0 2 * J 0 2 +
      J 0 0 * M x 1 2 ^ 2 + M x 0 0 * 2 * M x 1 2 * J 1 2 + J 2 2 * M x 0 1 ^ 2 +
      M x 2 2 * 2 * M x 0 1 * J 0 1 - J 0 0 * M x 1 1 * M x 2 2 - M x 0 0 * J 1 1 * M x 2 2 -
      M x 0 0 * M x 1 1 * J 2 2 - 2 * (J 0 1 * M x 1 2 * M x 0 2 + M x 0 1 * J 1 2 * M x 0 2 +
      M x 0 1 * M x 1 2 * J 0 2) with hd'
  have ds : HasDerivAt s (2 * 3 * b x ^ 2 * b' - 9 * b' * c x - 9 * b x * c' + 27 * d') x := by
    refine ((((db.fun_pow 3).const_mul 2).sub ((db.const_mul 9).mul dc)).add
      (dd.const_mul 27)).congr_deriv ?_
    push_cast
    ring
  have dt : HasDerivAt t (4 * 3 * (b x ^ 2 - 3 * c x) ^ 2 * (2 * b x * b' - 3 * c')) x := by
    refine ((((db.fun_pow 2).fun_sub (dc.const_mul 3)).fun_pow 3).const_mul 4).congr_deriv ?_
    push_cast
    ring
  set s' := 2 * 3 * b x ^ 2 * b' - 9 * b' * c x - 9 * b x * c' + 27 * d' with hs'
  set t' := 4 * 3 * (b x ^ 2 - 3 * c x) ^ 2 * (2 * b x * b' - 3 * c') with ht'
  have ht0 : 0 < t x := ht
  have hst0 : s x ^ 2 < t x := hst
  have hq : 0 < √(t x) := Real.sqrt_pos.2 ht0
  have hqq : √(t x) ^ 2 = t x := Real.sq_sqrt ht0.le
  have hpow : (t x) ^ (-0.5 : ℝ) = (√(t x))⁻¹ := by
    rw [Real.sqrt_eq_rpow, ← Real.rpow_neg ht0.le]; norm_num
  have dsq : HasDerivAt (fun x => √(t x)) (t' / (2 * √(t x))) x := dt.sqrt ht0.ne'
  have dratio : HasDerivAt (fun x => s x / √(t x))
      ((s' * √(t x) - s x * (t' / (2 * √(t x)))) / √(t x) ^ 2) x := ds.fun_div dsq hq.ne'
  have hlt : |s x / √(t x)| < 1 := by
    rw [abs_div, abs_of_pos hq, div_lt_one hq]
    exact Real.lt_sqrt_of_sq_lt (by rwa [sq_abs])
  obtain ⟨hlo, hhi⟩ := abs_lt.1 hlt
  have dalpha : HasDerivAt (fun x => Real.arccos (s x / √(t x)))
      (-1 / √(1 - s x ^ 2 / t x) * (s' * √(t x) - s x * 0.5 * t x ^ (-0.5 : ℝ) * t') / t x) x := by
    refine ((Real.hasDerivAt_arccos hlo.ne' hhi.ne).comp x dratio).congr_deriv ?_
    rw [hpow, div_pow, hqq]
    field_simp
    try ring
  set alpha' := -1 / √(1 - s x ^ 2 / t x) * (s' * √(t x) - s x * 0.5 * t x ^ (-0.5 : ℝ) * t') / t x
    with halpha'
  have dy : HasDerivAt (fun x => Real.cos (Real.arccos (s x / √(t x)) / 3))
      (-Real.sin (Real.arccos (s x / √(t x)) / 3) * (alpha' / 3)) x := (dalpha.div_const 3).cos
  have hr : 0 < 0.5 * √(t x) := by positivity
  have dr : HasDerivAt (fun x => 0.5 * √(t x)) (0.25 * t x ^ (-0.5 : ℝ) * t') x := by
    refine (dsq.const_mul 0.5).congr_deriv ?_
    rw [hpow, div_eq_mul_inv, mul_inv]
    ring
  have dw : HasDerivAt (fun x => (0.5 * √(t x)) ^ ((1 : ℝ) / 3))
      (1 / 3 * (0.5 * √(t x)) ^ (-2 / 3 : ℝ) * (0.25 * t x ^ (-0.5 : ℝ) * t')) x := by
    refine (dr.rpow_const (Or.inl hr.ne')).congr_deriv ?_
    rw [show (1 : ℝ) / 3 - 1 = -2 / 3 by norm_num]
    ring
  refine ((db.fun_neg.sub ((dw.mul dy).const_mul 2)).div_const 3).congr_deriv ?_
  rfl

end OpenGV
