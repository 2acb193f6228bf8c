import Mathlib.LinearAlgebra.Matrix.Determinant.Basic
import Mathlib.LinearAlgebra.Matrix.Trace
import Mathlib.LinearAlgebra.Matrix.Notation
import Mathlib.Analysis.Complex.Basic

/-!
# The constraints of an essential matrix
-/

namespace OpenGV.Spec

/-- The determinant constraint and the trace constraint. -/
def EssentialConstraints {K : Type*} [CommRing K] (E : Matrix (Fin 3) (Fin 3) K) : Prop :=
  E.det = 0 ∧ (2 : K) • (E * E.transpose * E) - (E * E.transpose).trace • E = 0

/-- The matrix whose rows are the three parts of a vector. -/
def ofRows {K : Type*} (e : Fin 9 → K) : Matrix (Fin 3) (Fin 3) K :=
  !![e 0, e 1, e 2; e 3, e 4, e 5; e 6, e 7, e 8]

/-- The combination `x E0 + y E1 + z E2 + E3` of four basis matrices given by their rows. -/
def combo {K : Type*} [CommRing K] (EE : Matrix (Fin 9) (Fin 4) K) (x y z : K) :
    Matrix (Fin 3) (Fin 3) K :=
  ofRows fun i => x * EE i 0 + y * EE i 1 + z * EE i 2 + EE i 3

/-- The monomials of the columns of Stewenius' matrix. The code never lists them. -/
def steweniusMonomials (x y z : ℂ) : Fin 20 → ℂ :=
  ![x ^ 3, x ^ 2 * y, x * y ^ 2, y ^ 3, x ^ 2 * z, x * y * z, y ^ 2 * z, x * z ^ 2, y * z ^ 2,
    z ^ 3, x ^ 2, x * y, y ^ 2, x * z, y * z, z ^ 2, x, y, z, 1]

end OpenGV.Spec
