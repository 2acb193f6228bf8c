import Verif.Model.Groebner

/-!
# The elimination program of `gpnp1`

Transcribed by `tools/gen_groebner.py` from src/absolute_pose/modules/gpnp1/ (spolynomials.cpp,
reductors.cpp and code.cpp). Line numbers are given for each definition.
-/

namespace OpenGV.Gpnp1

/-! ### src/absolute_pose/modules/gpnp1/spolynomials.cpp -/

/-- l.38-39 -/
def sPolynomial3 : GStmt := .spoly 3 0 0 1 0 [
  1001001, 2002002]
/-- l.45-46 -/
def sPolynomial4 : GStmt := .spoly 4 1 0 2 0 [
  1001001, 2002002]

/-! ### src/absolute_pose/modules/gpnp1/reductors.cpp -/

/-- l.38-40 -/
def groebnerRow3_0 (targetRow : ℕ) : GStmt := .elim targetRow 1 3 1 [
  2002]

/-! ### src/absolute_pose/modules/gpnp1/code.cpp -/

/-- l.39-39 -/
def code0 : List GStmt := [
  sPolynomial3]
/-- l.41-42 -/
def code1 : List GStmt := [
  sPolynomial4, groebnerRow3_0 4]

/-- `compute`: the statements in order (src/absolute_pose/modules/gpnp1/code.cpp l.39-42). -/
def compute : List GStmt :=
  [code0, code1].flatten

end OpenGV.Gpnp1
