import Verif.Proof.Gp3pLine
import Verif.Proof.EigenSystem
import Verif.Proof.Rotation
import Mathlib.Algebra.Polynomial.Roots
import Mathlib.Algebra.Polynomial.BigOperators

/-!
# The poses of `gp3p`
-/

namespace OpenGV.Gp3p

open Matrix OpenGV.Spec

/-! ### The solution of a pose -/

/-- Three points seen from a pose solve the equations. -/
theorem pose_sol {f v p : Mat3} {c t n : Fin 3 → ℝ}
    (h : ∀ i, p.col i = (cayley2rot c)ᵀ *ᵥ (n i • f.col i + v.col i) + t) :
    Sol (RingHom.id ℝ) f v p c n := by
  have hs := (cayley_scale_pos c).ne'
  intro i j k
  have e : (fun m => p m i - p m j) =
      (cayley2rot c)ᵀ *ᵥ (n i • f.col i + v.col i - (n j • f.col j + v.col j)) := by
    funext m
    have h1 := congrFun (h i) m
    have h2 := congrFun (h j) m
    simp only [Matrix.col_apply, Pi.add_apply] at h1 h2
    rw [mulVec_sub, h1, h2]
    simp
  have hC : (!![1 + c 0 ^ 2 - c 1 ^ 2 - c 2 ^ 2, 2 * (c 0 * c 1 - c 2), 2 * (c 0 * c 2 + c 1);
       2 * (c 0 * c 1 + c 2), 1 - c 0 ^ 2 + c 1 ^ 2 - c 2 ^ 2, 2 * (c 1 * c 2 - c 0);
       2 * (c 0 * c 2 - c 1), 2 * (c 1 * c 2 + c 0), 1 - c 0 ^ 2 - c 1 ^ 2 + c 2 ^ 2] : Mat3) =
      (1 + c 0 ^ 2 + c 1 ^ 2 + c 2 ^ 2) • cayley2rot c := by
    rw [cayley2rot]
    rw [smul_smul, mul_one_div, div_self hs, one_smul]
  simp only [RingHom.id_apply]
  rw [e, hC, smul_mulVec, mulVec_mulVec, rot_mul_transpose (cayley2rot_isRot c).1, one_mulVec]
  simp

/-- The pose is computed from its own parameters. -/
theorem pose_true {f v p : Mat3} {c t n : Vec3}
    (h : ∀ i, p.col i = (cayley2rot c)ᵀ *ᵥ (n i • f.col i + v.col i) + t) :
    gp3pPose f v p c n = ((cayley2rot c)ᵀ, t) := by
  unfold gp3pPose
  simp only [Prod.mk.injEq, true_and]
  rw [Fin.sum_univ_three, Fin.sum_univ_three, h 0, h 1, h 2]
  funext k
  simp only [Pi.sub_apply, Pi.smul_apply, Pi.add_apply, smul_eq_mul]
  ring

/-- The first Cayley parameter of the transpose. -/
theorem cayley_first (c : Vec3) :
    c 0 = ((cayley2rot c)ᵀ 1 2 - (cayley2rot c)ᵀ 2 1) / (1 + ((cayley2rot c)ᵀ).trace) := by
  have hs := (cayley_scale_pos c).ne'
  have e : 1 + ((cayley2rot c)ᵀ).trace = 4 / (1 + c 0 ^ 2 + c 1 ^ 2 + c 2 ^ 2) := by
    rw [trace_transpose, trace_fin_three, cayley2rot]
    simp
    field_simp
    ring
  rw [e, transpose_apply, transpose_apply, cayley2rot]
  simp
  field_simp
  ring

theorem cayley_trace (c : Vec3) : -1 < ((cayley2rot c)ᵀ).trace := by
  have hs := cayley_scale_pos c
  have e : 1 + ((cayley2rot c)ᵀ).trace = 4 / (1 + c 0 ^ 2 + c 1 ^ 2 + c 2 ^ 2) := by
    have := hs.ne'
    rw [trace_transpose, trace_fin_three, cayley2rot]
    simp
    field_simp
    ring
  have : 0 < 4 / (1 + c 0 ^ 2 + c 1 ^ 2 + c 2 ^ 2) := by positivity
  linarith

/-- The parameters are read from a multiple of the monomials. -/
theorem read_monos {k : ℂ} (hk : k ≠ 0) (c n : Vec3) :
    gp3pRead (k • fun i => ((monos (c 0) (c 1) (c 2) (n 0) (n 1) (n 2) i : ℝ) : ℂ)) = (c, n) := by
  unfold gp3pRead monos
  simp only [Prod.mk.injEq]
  constructor
  · funext i
    fin_cases i <;> simp [hk]
  · funext i
    fin_cases i <;> simp [hk]

/-! ### The eigenvalues come in conjugate pairs -/

open Polynomial in
theorem eigenvalues_conj {m : ℕ} {M : Matrix (Fin m) (Fin m) ℝ} {D : Fin m → ℂ}
    (h : IsEigenvalues M D) :
    Finset.univ.val.map D = Finset.univ.val.map fun i => (starRingEnd ℂ) (D i) := by
  have e : ∀ z : ℂ, ∏ i, (z - D i) = ∏ i, (z - (starRingEnd ℂ) (D i)) := by
    intro z
    have h1 := h ((starRingEnd ℂ) z)
    have h2 := congrArg (starRingEnd ℂ) h1
    rw [map_prod, RingHom.map_det] at h2
    have h3 : (starRingEnd ℂ).mapMatrix ((starRingEnd ℂ) z • (1 : Matrix (Fin m) (Fin m) ℂ) -
        M.map fun x => (x : ℂ)) = z • (1 : Matrix (Fin m) (Fin m) ℂ) - M.map fun x => (x : ℂ) := by
      ext i j
      rcases eq_or_ne i j with rfl | hij
      · simp
      · simp [hij]
    rw [h3, h z] at h2
    rw [h2]
    exact Finset.prod_congr rfl fun i _ => by rw [map_sub, Complex.conj_conj]
  have hp : ∏ i, ((X : ℂ[X]) - C (D i)) = ∏ i, (X - C ((starRingEnd ℂ) (D i))) := by
    apply Polynomial.funext
    intro z
    rw [eval_prod, eval_prod]
    simpa using e z
  have h1 := roots_multiset_prod_X_sub_C (Finset.univ.val.map D)
  have h2 := roots_multiset_prod_X_sub_C (Finset.univ.val.map fun i => (starRingEnd ℂ) (D i))
  rw [← h1, ← h2, Multiset.map_map, Multiset.map_map]
  exact congrArg roots hp

/-- At most half of the eigenvalues are above the real axis. -/
theorem eigenvalues_half {m : ℕ} {M : Matrix (Fin m) (Fin m) ℝ} {D : Fin m → ℂ}
    (h : IsEigenvalues M D) : m ≤ 2 * (Finset.univ.filter fun i => (D i).im ≤ 0).card := by
  have hc := eigenvalues_conj h
  have h1 := congrArg (Multiset.countP fun z : ℂ => z.im < 0) hc
  rw [Multiset.countP_map, Multiset.countP_map] at h1
  have h2 : (Finset.univ.filter fun i => (D i).im < 0).card = (Finset.univ.filter fun i => 0 < (D i).im).card := by
    have e : (Finset.univ.filter fun i => 0 < (D i).im) =
        Finset.univ.filter fun i => ((starRingEnd ℂ) (D i)).im < 0 := by
      ext i
      simp
    rw [e]
    exact h1
  have h3 : (Finset.univ.filter fun i => (D i).im < 0).card ≤
      (Finset.univ.filter fun i => (D i).im ≤ 0).card :=
    Finset.card_le_card fun i hi => by
      simp only [Finset.mem_filter, Finset.mem_univ, true_and] at hi ⊢
      exact hi.le
  have h4 := Finset.card_filter_add_card_filter_not (s := (Finset.univ : Finset (Fin m))) (fun i => (D i).im ≤ 0)
  simp only [not_le, Finset.card_univ, Fintype.card_fin] at h4
  omega

theorem count_finRange {m : ℕ} (q : Fin m → Bool) :
    (List.finRange m).countP q = (Finset.univ.filter fun i => q i = true).card := by
  rw [List.countP_eq_length_filter, ← List.toFinset_card_of_nodup ((List.nodup_finRange m).filter _)]
  congr 1
  ext i
  simp

end OpenGV.Gp3p
