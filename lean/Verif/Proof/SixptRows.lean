import Verif.Model.Sixpt
import Mathlib.Tactic.Ring
import Mathlib.Tactic.LinearCombination
import Mathlib.LinearAlgebra.Matrix.Determinant.Basic

/-!
# The coefficients of `fillRow1`
-/

namespace OpenGV

open Matrix Adapters

/-- The monomials of the coefficients in `c0`, `c1` and `c2`. -/
def sixMono (c : Fin 3 → ℝ) : Fin 10 → ℝ :=
  ![c 0 ^ 2, c 0 * c 1, c 1 ^ 2, c 0 * c 2, c 1 * c 2, c 2 ^ 2, c 0, c 1, c 2, 1]

/-- Direction and moment of a line. -/
def sixDir (l : Fin 6 → ℝ) : Vec3 := ![l 0, l 1, l 2]

@[inherit_doc sixDir]
def sixMom (l : Fin 6 → ℝ) : Vec3 := ![l 3, l 4, l 5]

theorem vec3_eta (v : Vec3) : v = ![v 0, v 1, v 2] := by
  funext i; fin_cases i <;> rfl

theorem dot_ten (a b : Fin 10 → ℝ) : a ⬝ᵥ b = a 0 * b 0 + a 1 * b 1 + a 2 * b 2 + a 3 * b 3 + a 4 * b 4 +
    a 5 * b 5 + a 6 * b 6 + a 7 * b 7 + a 8 * b 8 + a 9 * b 9 := by
  simp only [dotProduct, Fin.sum_univ_castSucc, Fin.sum_univ_zero, zero_add]
  rfl

theorem sixC0_eval (l01 l02 l11 l12 : Fin 6 → ℝ) (c : Fin 3 → ℝ) :
    sixC0 l01 l02 l11 l12 ⬝ᵥ sixMono c =
      crossProduct (sixDir l11) ((cayley2rotReduced c)ᵀ *ᵥ sixDir l12) ⬝ᵥ sixDir l01 := by
  rw [dot_ten, vec3_eta ((cayley2rotReduced c)ᵀ *ᵥ sixDir l12)]
  simp only [sixC0, sixMono, sixDir, cross_apply, mulVec,
    dotProduct, Fin.sum_univ_three, transpose_apply, cayley2rotReduced, of_apply, cons_val]
  ring

theorem sixC1_eval (l01 l02 l11 l12 : Fin 6 → ℝ) (c : Fin 3 → ℝ) :
    (1 + c 0 ^ 2 + c 1 ^ 2 + c 2 ^ 2) * (sixC1 l01 l02 l11 l12 ⬝ᵥ sixMono c) =
      -(crossProduct (sixDir l11) ((cayley2rotReduced c)ᵀ *ᵥ sixDir l12) ⬝ᵥ
        ((cayley2rotReduced c)ᵀ *ᵥ sixDir l02)) := by
  rw [dot_ten, vec3_eta ((cayley2rotReduced c)ᵀ *ᵥ sixDir l12), vec3_eta ((cayley2rotReduced c)ᵀ *ᵥ sixDir l02)]
  simp only [sixC1, sixMono, sixDir, cross_apply, mulVec,
    dotProduct, Fin.sum_univ_three, transpose_apply, cayley2rotReduced, of_apply, cons_val]
  ring

theorem sixC2_eval (l01 l02 l11 l12 : Fin 6 → ℝ) (c : Fin 3 → ℝ) :
    (1 + c 0 ^ 2 + c 1 ^ 2 + c 2 ^ 2) * (sixC2 l01 l02 l11 l12 ⬝ᵥ sixMono c) =
      crossProduct (sixDir l11) ((cayley2rotReduced c)ᵀ *ᵥ sixDir l12) ⬝ᵥ
        ((cayley2rotReduced c)ᵀ *ᵥ crossProduct (sixDir l02) (sixMom l02)) -
      (1 + c 0 ^ 2 + c 1 ^ 2 + c 2 ^ 2) *
        (crossProduct (sixDir l11) ((cayley2rotReduced c)ᵀ *ᵥ sixDir l12) ⬝ᵥ
          crossProduct (sixDir l01) (sixMom l01)) +
      (1 + c 0 ^ 2 + c 1 ^ 2 + c 2 ^ 2) *
        (sixDir l11 ⬝ᵥ ((cayley2rotReduced c)ᵀ *ᵥ sixMom l12) +
          sixMom l11 ⬝ᵥ ((cayley2rotReduced c)ᵀ *ᵥ sixDir l12)) := by
  rw [dot_ten, vec3_eta ((cayley2rotReduced c)ᵀ *ᵥ sixDir l12), vec3_eta ((cayley2rotReduced c)ᵀ *ᵥ sixMom l12),
    vec3_eta ((cayley2rotReduced c)ᵀ *ᵥ crossProduct (sixDir l02) (sixMom l02))]
  simp only [sixC2, sixMono, sixDir, sixMom, cross_apply, mulVec,
    dotProduct, Fin.sum_univ_three, transpose_apply, cayley2rotReduced, of_apply, cons_val]
  ring

end OpenGV
