import Verif.Proof.SixptAction
import Mathlib.Algebra.MvPolynomial.Funext

/-!
# Equations of the six point solver that vanish everywhere
-/

namespace OpenGV

open Matrix MvPolynomial

/-- The exponents of a monomial. -/
noncomputable def sixExp (j : Fin 84) : Fin 3 →₀ ℕ :=
  Finsupp.equivFunOnFinite.symm ![codeAt sixEqs j % 16, codeAt sixEqs j / 16 % 16, codeAt sixEqs j / 256 % 16]

theorem sixEqs_lt : ∀ j : Fin 84, codeAt sixEqs j < 4096 := by decide +kernel

theorem sixExp_inj : Function.Injective sixExp := by
  intro i j h
  have h' := Finsupp.equivFunOnFinite.symm.injective h
  have h0 : codeAt sixEqs i % 16 = codeAt sixEqs j % 16 := congrFun h' 0
  have h1 : codeAt sixEqs i / 16 % 16 = codeAt sixEqs j / 16 % 16 := congrFun h' 1
  have h2 : codeAt sixEqs i / 256 % 16 = codeAt sixEqs j / 256 % 16 := congrFun h' 2
  have := sixEqs_lt i
  have := sixEqs_lt j
  exact Fin.ext (sixEqs_injOn i.2 j.2 (by omega))

theorem sixCoeff_zero (a : Fin 84 → ℝ) (h : ∀ c : Vec3, a ⬝ᵥ sixV c = 0) : a = 0 := by
  have hp : (∑ j, monomial (sixExp j) (a j)) = (0 : MvPolynomial (Fin 3) ℝ) := by
    apply MvPolynomial.funext
    intro c
    rw [map_zero, map_sum, ← h c]
    apply Finset.sum_congr rfl
    intro j _
    rw [eval_monomial, Finsupp.prod_fintype _ _ (fun i => pow_zero _), Fin.prod_univ_three]
    simp [sixExp, sixV, mono4, sixX]
  funext j
  have := congrArg (coeff (sixExp j)) hp
  rw [coeff_sum, coeff_zero] at this
  simp only [coeff_monomial, sixExp_inj.eq_iff] at this
  simpa using this

theorem sixM1p_eq_zero {M : Matrix (Fin 60) (Fin 84) ℝ} (h : ∀ c, M *ᵥ sixV c = 0) : M = 0 := by
  funext r
  exact sixCoeff_zero _ fun c => congrFun (h c) r

end OpenGV
