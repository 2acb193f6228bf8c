import Verif.Model.Groebner

/-!
# The elimination program of `gpnp2`

Transcribed by `tools/gen_groebner.py` from src/absolute_pose/modules/gpnp2/ (spolynomials.cpp,
reductors.cpp and code.cpp). Line numbers are given for each definition.
-/

namespace OpenGV.Gpnp2

/-! ### src/absolute_pose/modules/gpnp2/spolynomials.cpp -/

/-- l.38-42 -/
def sPolynomial5 : GStmt := .spoly 5 0 0 1 0 [
  1001001, 2002002, 3003003, 4004004, 5005005]
/-- l.48-52 -/
def sPolynomial6 : GStmt := .spoly 6 1 0 2 0 [
  1001001, 2002002, 3003003, 4004004, 5005005]
/-- l.58-62 -/
def sPolynomial7 : GStmt := .spoly 7 2 0 3 0 [
  1001001, 2002002, 3003003, 4004004, 5005005]
/-- l.68-72 -/
def sPolynomial8 : GStmt := .spoly 8 3 0 4 0 [
  1001001, 2002002, 3003003, 4004004, 5005005]
/-- l.78-80 -/
def sPolynomial9 : GStmt := .spoly 9 6 2 8 4 [
  3003999, 4004005, 5005999]

/-! ### src/absolute_pose/modules/gpnp2/reductors.cpp -/

/-- l.38-43 -/
def groebnerRow5_00 (targetRow : ℕ) : GStmt := .elim targetRow 1 5 1 [
  2002, 3003, 4004, 5005]
/-- l.49-53 -/
def groebnerRow6_00 (targetRow : ℕ) : GStmt := .elim targetRow 2 6 2 [
  3003, 4004, 5005]
/-- l.59-62 -/
def groebnerRow7_10 (targetRow : ℕ) : GStmt := .elim targetRow 1 7 3 [
  2004, 4005]
/-- l.68-71 -/
def groebnerRow7_00 (targetRow : ℕ) : GStmt := .elim targetRow 3 7 3 [
  4004, 5005]
/-- l.77-79 -/
def groebnerRow8_00 (targetRow : ℕ) : GStmt := .elim targetRow 4 8 4 [
  5005]

/-! ### src/absolute_pose/modules/gpnp2/code.cpp -/

/-- l.39-39 -/
def code0 : List GStmt := [
  sPolynomial5]
/-- l.41-42 -/
def code1 : List GStmt := [
  sPolynomial6, groebnerRow5_00 6]
/-- l.44-46 -/
def code2 : List GStmt := [
  sPolynomial7, groebnerRow5_00 7, groebnerRow6_00 7]
/-- l.48-51 -/
def code3 : List GStmt := [
  sPolynomial8, groebnerRow7_10 8, groebnerRow6_00 8, groebnerRow7_00 8]
/-- l.53-55 -/
def code4 : List GStmt := [
  sPolynomial9, groebnerRow7_00 9, groebnerRow8_00 9]

/-- `compute`: the statements in order (src/absolute_pose/modules/gpnp2/code.cpp l.39-55). -/
def compute : List GStmt :=
  [code0, code1, code2, code3, code4].flatten

end OpenGV.Gpnp2
