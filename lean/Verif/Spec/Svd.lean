import Mathlib.Data.Matrix.Mul
import Mathlib.Data.Matrix.Diagonal
import Mathlib.Data.Real.Basic

/-!
# Contract of Eigen's singular value decompositions

Eigen's `JacobiSVD` is not modelled; it is represented by its documented contract. Theorems
quantify over every decomposition meeting the contract.
-/

namespace OpenGV.Spec

/-- `V` (from `matrixV()`) and `σ` (from `singularValues()`) are right singular vectors and singular
values of `A`: `V` is orthogonal, the images of its columns under `A` are orthogonal with lengths
`σ`, and `σ` is non-negative and in decreasing order. -/
structure IsRightSvd {m : Type} [Fintype m] {n : ℕ} (A : Matrix m (Fin n) ℝ)
    (V : Matrix (Fin n) (Fin n) ℝ) (σ : Fin n → ℝ) : Prop where
  orth : V.transpose * V = 1
  gram : V.transpose * (A.transpose * A) * V = Matrix.diagonal (fun i => σ i ^ 2)
  nonneg : ∀ i, 0 ≤ σ i
  anti : ∀ i j, i ≤ j → σ j ≤ σ i

/-- A full decomposition of a square matrix, `A = U diag(σ) Vᵀ`. -/
structure IsSvd {n : ℕ} (A U V : Matrix (Fin n) (Fin n) ℝ) (σ : Fin n → ℝ) : Prop where
  orthU : U.transpose * U = 1
  orthV : V.transpose * V = 1
  eq : A = U * Matrix.diagonal σ * V.transpose
  nonneg : ∀ i, 0 ≤ σ i
  anti : ∀ i j, i ≤ j → σ j ≤ σ i

/-- A thin decomposition, `A = U diag(σ) Vᵀ` with as many columns in `U` as in `A`. -/
structure IsThinSvd {m : Type} [Fintype m] {n : ℕ} (A U : Matrix m (Fin n) ℝ)
    (σ : Fin n → ℝ) (V : Matrix (Fin n) (Fin n) ℝ) : Prop where
  orthU : U.transpose * U = 1
  orthV : V.transpose * V = 1
  eq : A = U * Matrix.diagonal σ * V.transpose
  nonneg : ∀ i, 0 ≤ σ i
  anti : ∀ i j, i ≤ j → σ j ≤ σ i

end OpenGV.Spec
