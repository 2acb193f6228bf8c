import Mathlib.Algebra.BigOperators.Intervals
import Mathlib.Analysis.Calculus.Deriv.Basic

/-!
# Polynomials given by their coefficients, highest power first
-/

namespace OpenGV.Spec

/-- Value at `x` of the polynomial with the `n` coefficients `p 0, ..., p (n-1)`. -/
noncomputable def evalPoly (n : ℕ) (p : ℕ → ℝ) (x : ℝ) : ℝ :=
  ∑ j ∈ Finset.range n, p j * x ^ (n - 1 - j)

/-- All real roots are simple. -/
def SimpleRoots (n : ℕ) (p : ℕ → ℝ) : Prop :=
  ∀ x, evalPoly n p x = 0 → deriv (evalPoly n p) x ≠ 0

/-- The root `r` is counted for the interval from `a` to `b`: it is inside, or at the lower end
where the polynomial increases, or at the upper end where it decreases. -/
def CountedIn (n : ℕ) (p : ℕ → ℝ) (a b r : ℝ) : Prop :=
  evalPoly n p r = 0 ∧ ((a < r ∧ r < b) ∨ (r = a ∧ 0 < deriv (evalPoly n p) r) ∨
    (r = b ∧ deriv (evalPoly n p) r < 0))

end OpenGV.Spec
