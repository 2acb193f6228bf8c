import Mathlib.Algebra.Ring.Basic
import Mathlib.Algebra.BigOperators.Group.List.Basic

/-!
# Cubic terms

The coefficients of the five-point solvers are sums of products of a number and three of the 36
entries of the null space basis. They are represented as lists of such terms.
-/

namespace OpenGV

/-- A term `c * e_a * e_b * e_d`. -/
abbrev Term := ℤ × ℕ × ℕ × ℕ

variable {K : Type*} [CommRing K]

/-- The value of a term, when the variable number `n` has the value `v n`. -/
def termVal (v : ℕ → K) (t : Term) : K := t.1 * (v t.2.1 * v t.2.2.1 * v t.2.2.2)

/-- The value of a sum of terms. -/
def termsVal (v : ℕ → K) (l : List Term) : K := (l.map (termVal v)).sum

end OpenGV
