import Mathlib.LinearAlgebra.Matrix.Determinant.Basic
import Mathlib.Analysis.Complex.Basic

/-!
# Contract of Eigen's `EigenSolver`

The eigenvalue iteration is not modelled; it is represented by its documented contract.
-/

namespace OpenGV.Spec

/-- `D` (from `eigenvalues()`) lists the complex eigenvalues of the real matrix `M` with their
multiplicities, in any order: the characteristic polynomial is the product of `z - D i`. -/
def IsEigenvalues {n : ℕ} (M : Matrix (Fin n) (Fin n) ℝ) (D : Fin n → ℂ) : Prop :=
  ∀ z : ℂ, (z • (1 : Matrix (Fin n) (Fin n) ℂ) - M.map (fun x => (x : ℂ))).det = ∏ i, (z - D i)

/-- The columns of `V` (from `eigenvectors()`) are eigenvectors of the real matrix `M`, in the order
of its eigenvalues. -/
def IsEigenvectors {n : ℕ} (M : Matrix (Fin n) (Fin n) ℝ) (V : Matrix (Fin n) (Fin n) ℂ) : Prop :=
  ∃ D : Fin n → ℂ, IsEigenvalues M D ∧ ∀ c, (fun i => V i c) ≠ 0 ∧
    (M.map fun x => (x : ℂ)).mulVec (fun i => V i c) = D c • fun i => V i c

/-- `D` and `V` are the results of one decomposition: `D` lists the eigenvalues, the columns of `V`
are eigenvectors of unit length in the same order, and a real eigenvalue has a real eigenvector. -/
structure IsEigenSystem {n : ℕ} (M : Matrix (Fin n) (Fin n) ℝ) (D : Fin n → ℂ)
    (V : Matrix (Fin n) (Fin n) ℂ) : Prop where
  values : IsEigenvalues M D
  vectors : ∀ c, (M.map fun x => (x : ℂ)).mulVec (fun i => V i c) = D c • fun i => V i c
  unit : ∀ c, ∑ i, Complex.normSq (V i c) = 1
  real : ∀ c, (D c).im = 0 → ∀ i, (V i c).im = 0

end OpenGV.Spec
