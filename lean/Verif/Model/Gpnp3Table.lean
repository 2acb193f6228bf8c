import Verif.Model.Groebner

/-!
# The elimination program of `gpnp3`

Transcribed by `tools/gen_groebner.py` from src/absolute_pose/modules/gpnp3/ (spolynomials.cpp,
reductors.cpp and code.cpp). Line numbers are given for each definition.
-/

namespace OpenGV.Gpnp3

/-! ### src/absolute_pose/modules/gpnp3/spolynomials.cpp -/

/-- l.38-46 -/
def sPolynomial4 : GStmt := .spoly 4 0 8 1 8 [
  9009009, 10010010, 11011011, 12012012, 13013013, 14014014, 15015015, 16016016, 17017017]
/-- l.52-60 -/
def sPolynomial5 : GStmt := .spoly 5 1 8 2 8 [
  9009009, 10010010, 11011011, 12012012, 13013013, 14014014, 15015015, 16016016, 17017017]
/-- l.66-74 -/
def sPolynomial6 : GStmt := .spoly 6 2 8 3 8 [
  9009009, 10010010, 11011011, 12012012, 13013013, 14014014, 15015015, 16016016, 17017017]
/-- l.80-90 -/
def sPolynomial7 : GStmt := .spoly 7 4 9 6 11 [
  4010012, 5011999, 6012013, 7013999, 9999014, 10999015, 11014999, 12015016, 13016999, 15999017,
  16017999]
/-- l.96-107 -/
def sPolynomial8 : GStmt := .spoly 8 3 8 6 11 [
  3009012, 4010999, 5011013, 6012999, 7013999, 8999014, 9999015, 11014016, 12015999, 13016999,
  14999017, 16017999]
/-- l.113-125 -/
def sPolynomial9 : GStmt := .spoly 9 4 9 5 10 [
  1010999, 2999011, 3011012, 4012999, 5999013, 6013999, 8999014, 9014015, 10015999, 11999016,
  12016999, 14999017, 15017999]
/-- l.131-144 -/
def sPolynomial10 : GStmt := .spoly 10 3 8 4 9 [
  9010, 1010999, 2999011, 3011012, 4012999, 5999013, 6013999, 8999014, 9014015, 10015999, 11999016,
  12016999, 14999017, 15017999]
/-- l.150-156 -/
def sPolynomial11 : GStmt := .spoly 11 8 7 10 13 [
  11999014, 12012015, 13013016, 14014999, 15015999, 16016017, 17017999]
/-- l.162-169 -/
def sPolynomial12 : GStmt := .spoly 12 7 6 9 12 [
  7007013, 11999014, 12012015, 13013016, 14014999, 15015999, 16016017, 17017999]
/-- l.175-182 -/
def sPolynomial13 : GStmt := .spoly 13 9 12 10 13 [
  7013999, 9999014, 10999015, 11014999, 12015016, 13016999, 15999017, 16017999]
/-- l.188-191 -/
def sPolynomial14 : GStmt := .spoly 14 10 13 13 16 [
  14014999, 15015999, 16016017, 17017999]

/-! ### src/absolute_pose/modules/gpnp3/reductors.cpp -/

/-- l.38-47 -/
def groebnerRow4_000 (targetRow : ℕ) : GStmt := .elim targetRow 9 4 9 [
  10010, 11011, 12012, 13013, 14014, 15015, 16016, 17017]
/-- l.53-61 -/
def groebnerRow5_000 (targetRow : ℕ) : GStmt := .elim targetRow 10 5 10 [
  11011, 12012, 13013, 14014, 15015, 16016, 17017]
/-- l.67-75 -/
def groebnerRow5_100 (targetRow : ℕ) : GStmt := .elim targetRow 4 5 10 [
  5011, 6012, 7013, 11014, 12015, 13016, 16017]
/-- l.81-88 -/
def groebnerRow6_100 (targetRow : ℕ) : GStmt := .elim targetRow 5 6 11 [
  6012, 7013, 11014, 12015, 13016, 16017]
/-- l.94-101 -/
def groebnerRow6_000 (targetRow : ℕ) : GStmt := .elim targetRow 11 6 11 [
  12012, 13013, 14014, 15015, 16016, 17017]
/-- l.107-116 -/
def groebnerRow4_100 (targetRow : ℕ) : GStmt := .elim targetRow 3 4 9 [
  4010, 5011, 6012, 7013, 11014, 12015, 13016, 16017]
/-- l.122-130 -/
def groebnerRow7_000 (targetRow : ℕ) : GStmt := .elim targetRow 6 7 6 [
  7007, 12012, 13013, 14014, 15015, 16016, 17017]
/-- l.136-146 -/
def groebnerRow3_000 (targetRow : ℕ) : GStmt := .elim targetRow 8 3 8 [
  9009, 10010, 11011, 12012, 13013, 14014, 15015, 16016, 17017]
/-- l.152-160 -/
def groebnerRow5_010 (targetRow : ℕ) : GStmt := .elim targetRow 1 5 10 [
  3011, 4012, 6013, 9014, 10015, 12016, 15017]
/-- l.166-176 -/
def groebnerRow3_100 (targetRow : ℕ) : GStmt := .elim targetRow 2 3 8 [
  3009, 4010, 5011, 6012, 7013, 11014, 12015, 13016, 16017]
/-- l.182-189 -/
def groebnerRow8_000 (targetRow : ℕ) : GStmt := .elim targetRow 7 8 7 [
  12012, 13013, 14014, 15015, 16016, 17017]
/-- l.195-204 -/
def groebnerRow4_010 (targetRow : ℕ) : GStmt := .elim targetRow 0 4 9 [
  1010, 3011, 4012, 6013, 9014, 10015, 12016, 15017]
/-- l.210-216 -/
def groebnerRow9_100 (targetRow : ℕ) : GStmt := .elim targetRow 6 9 12 [
  7013, 11014, 12015, 13016, 16017]
/-- l.222-228 -/
def groebnerRow9_000 (targetRow : ℕ) : GStmt := .elim targetRow 12 9 12 [
  13013, 14014, 15015, 16016, 17017]
/-- l.234-239 -/
def groebnerRow10_000 (targetRow : ℕ) : GStmt := .elim targetRow 13 10 13 [
  14014, 15015, 16016, 17017]
/-- l.245-250 -/
def groebnerRow10_100 (targetRow : ℕ) : GStmt := .elim targetRow 7 10 13 [
  11014, 12015, 13016, 16017]
/-- l.256-260 -/
def groebnerRow11_100 (targetRow : ℕ) : GStmt := .elim targetRow 11 11 14 [
  12015, 13016, 16017]
/-- l.266-270 -/
def groebnerRow11_000 (targetRow : ℕ) : GStmt := .elim targetRow 14 11 14 [
  15015, 16016, 17017]
/-- l.276-280 -/
def groebnerRow11_010 (targetRow : ℕ) : GStmt := .elim targetRow 9 11 14 [
  10015, 12016, 15017]
/-- l.286-289 -/
def groebnerRow12_010 (targetRow : ℕ) : GStmt := .elim targetRow 10 12 15 [
  12016, 15017]
/-- l.295-298 -/
def groebnerRow12_100 (targetRow : ℕ) : GStmt := .elim targetRow 12 12 15 [
  13016, 16017]
/-- l.304-307 -/
def groebnerRow12_000 (targetRow : ℕ) : GStmt := .elim targetRow 15 12 15 [
  16016, 17017]
/-- l.313-315 -/
def groebnerRow13_000 (targetRow : ℕ) : GStmt := .elim targetRow 16 13 16 [
  17017]

/-! ### src/absolute_pose/modules/gpnp3/code.cpp -/

/-- l.39-39 -/
def code0 : List GStmt := [
  sPolynomial4]
/-- l.41-42 -/
def code1 : List GStmt := [
  sPolynomial5, groebnerRow4_000 5]
/-- l.44-46 -/
def code2 : List GStmt := [
  sPolynomial6, groebnerRow4_000 6, groebnerRow5_000 6]
/-- l.48-53 -/
def code3 : List GStmt := [
  sPolynomial7, groebnerRow5_100 7, groebnerRow6_100 7, groebnerRow4_000 7, groebnerRow5_000 7,
  groebnerRow6_000 7]
/-- l.55-63 -/
def code4 : List GStmt := [
  sPolynomial8, groebnerRow4_100 8, groebnerRow5_100 8, groebnerRow6_100 8, groebnerRow7_000 8,
  groebnerRow3_000 8, groebnerRow4_000 8, groebnerRow5_000 8, groebnerRow6_000 8]
/-- l.65-76 -/
def code5 : List GStmt := [
  sPolynomial9, groebnerRow5_010 9, groebnerRow3_100 9, groebnerRow4_100 9, groebnerRow5_100 9,
  groebnerRow6_100 9, groebnerRow7_000 9, groebnerRow8_000 9, groebnerRow3_000 9,
  groebnerRow4_000 9, groebnerRow5_000 9, groebnerRow6_000 9]
/-- l.78-91 -/
def code6 : List GStmt := [
  sPolynomial10, groebnerRow4_010 10, groebnerRow5_010 10, groebnerRow3_100 10,
  groebnerRow4_100 10, groebnerRow5_100 10, groebnerRow6_100 10, groebnerRow9_100 10,
  groebnerRow8_000 10, groebnerRow3_000 10, groebnerRow4_000 10, groebnerRow5_000 10,
  groebnerRow6_000 10, groebnerRow9_000 10]
/-- l.93-96 -/
def code7 : List GStmt := [
  sPolynomial11, groebnerRow6_000 11, groebnerRow9_000 11, groebnerRow10_000 11]
/-- l.98-103 -/
def code8 : List GStmt := [
  sPolynomial12, groebnerRow10_100 12, groebnerRow11_100 12, groebnerRow9_000 12,
  groebnerRow10_000 12, groebnerRow11_000 12]
/-- l.105-113 -/
def code9 : List GStmt := [
  sPolynomial13, groebnerRow10_100 13, groebnerRow11_010 13, groebnerRow12_010 13,
  groebnerRow11_100 13, groebnerRow12_100 13, groebnerRow10_000 13, groebnerRow11_000 13,
  groebnerRow12_000 13]
/-- l.115-118 -/
def code10 : List GStmt := [
  sPolynomial14, groebnerRow11_000 14, groebnerRow12_000 14, groebnerRow13_000 14]

/-- `compute`: the statements in order (src/absolute_pose/modules/gpnp3/code.cpp l.39-118). -/
def compute : List GStmt :=
  [code0, code1, code2, code3, code4, code5, code6, code7, code8, code9, code10].flatten

end OpenGV.Gpnp3
