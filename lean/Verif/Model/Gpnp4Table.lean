import Verif.Model.Groebner

/-!
# The elimination program of `gpnp4`

Transcribed by `tools/gen_groebner.py` from src/absolute_pose/modules/gpnp4/ (spolynomials.cpp,
reductors.cpp and code.cpp). Line numbers are given for each definition.
-/

namespace OpenGV.Gpnp4

/-! ### src/absolute_pose/modules/gpnp4/spolynomials.cpp -/

/-- l.38-51 -/
def sPolynomial5 : GStmt := .spoly 5 0 22 1 22 [
  23023023, 24024024, 25025025, 26026026, 27027027, 28028028, 29029029, 30030030, 31031031,
  32032032, 33033033, 34034034, 35035035, 36036036]
/-- l.57-70 -/
def sPolynomial6 : GStmt := .spoly 6 1 22 2 22 [
  23023023, 24024024, 25025025, 26026026, 27027027, 28028028, 29029029, 30030030, 31031031,
  32032032, 33033033, 34034034, 35035035, 36036036]
/-- l.76-89 -/
def sPolynomial7 : GStmt := .spoly 7 2 22 3 22 [
  23023023, 24024024, 25025025, 26026026, 27027027, 28028028, 29029029, 30030030, 31031031,
  32032032, 33033033, 34034034, 35035035, 36036036]
/-- l.95-108 -/
def sPolynomial8 : GStmt := .spoly 8 3 22 4 22 [
  23023023, 24024024, 25025025, 26026026, 27027027, 28028028, 29029029, 30030030, 31031031,
  32032032, 33033033, 34034034, 35035035, 36036036]
/-- l.114-132 -/
def sPolynomial9 : GStmt := .spoly 9 6 24 8 26 [
  9025999, 10026027, 11027999, 13999028, 14999029, 15028999, 16029030, 17030999, 19999031,
  20031999, 23999032, 24999033, 25032999, 26033034, 27034999, 29999035, 30035999, 33999036,
  34036999]
/-- l.138-157 -/
def sPolynomial10 : GStmt := .spoly 10 5 23 7 25 [
  8024026, 9025999, 10026027, 11027999, 13999028, 14999029, 15028999, 16029030, 17030999, 19999031,
  20031999, 23999032, 24999033, 25032999, 26033034, 27034999, 29999035, 30035999, 33999036,
  34036999]
/-- l.163-182 -/
def sPolynomial11 : GStmt := .spoly 11 5 23 8 26 [
  8024999, 9025027, 10026999, 11027999, 12999028, 13999029, 15028030, 16029999, 17030999, 18999031,
  20031999, 22999032, 23999033, 25032034, 26033999, 27034999, 28999035, 30035999, 32999036,
  34036999]
/-- l.188-208 -/
def sPolynomial12 : GStmt := .spoly 12 4 22 7 25 [
  7023026, 8024999, 9025027, 10026999, 11027999, 12999028, 13999029, 15028030, 16029999, 17030999,
  18999031, 20031999, 22999032, 23999033, 25032034, 26033999, 27034999, 28999035, 30035999,
  32999036, 34036999]
/-- l.214-235 -/
def sPolynomial13 : GStmt := .spoly 13 5 23 6 24 [
  5024999, 6999025, 7025026, 8026999, 9999027, 10027999, 12999028, 13028029, 14029999, 15999030,
  16030999, 18999031, 19031999, 22999032, 23032033, 24033999, 25999034, 26034999, 28999035,
  29035999, 32999036, 33036999]
/-- l.241-263 -/
def sPolynomial14 : GStmt := .spoly 14 4 22 5 23 [
  4023024, 5024999, 6999025, 7025026, 8026999, 9999027, 10027999, 12999028, 13028029, 14029999,
  15999030, 16030999, 18999031, 19031999, 22999032, 23032033, 24033999, 25999034, 26034999,
  28999035, 29035999, 32999036, 33036999]
/-- l.269-286 -/
def sPolynomial15 : GStmt := .spoly 15 13 20 14 21 [
  3021999, 11999027, 15999028, 16999029, 17027030, 18028999, 19029999, 20030031, 21031999,
  25999032, 26999033, 27999034, 28032999, 29033999, 30034035, 31035999, 34999036, 35036999]
/-- l.292-311 -/
def sPolynomial16 : GStmt := .spoly 16 12 19 14 21 [
  2020999, 3021999, 10999027, 13999028, 14999029, 16999030, 17027999, 18028999, 19029031, 20030999,
  21031999, 23999032, 24999033, 26999034, 28032999, 29033035, 30034999, 31035999, 33999036,
  35036999]
/-- l.317-337 -/
def sPolynomial17 : GStmt := .spoly 17 11 18 14 21 [
  1019999, 2020999, 3021999, 9999027, 12999028, 13999029, 15999030, 17027999, 18028031, 19029999,
  20030999, 21031999, 22999032, 23999033, 25999034, 28032035, 29033999, 30034999, 31035999,
  32999036, 35036999]
/-- l.343-363 -/
def sPolynomial18 : GStmt := .spoly 18 10 17 13 20 [
  18999, 1019999, 2020021, 3021999, 11999027, 15999028, 16999029, 17027030, 18028999, 19029999,
  20030031, 21031999, 25999032, 26999033, 27999034, 28032999, 29033999, 30034035, 31035999,
  34999036, 35036999]
/-- l.369-379 -/
def sPolynomial19 : GStmt := .spoly 19 13 20 18 30 [
  21021031, 27027999, 28028032, 29029033, 30030034, 31031035, 32032999, 33033999, 34034999,
  35035036, 36036999]
/-- l.385-396 -/
def sPolynomial20 : GStmt := .spoly 20 12 19 17 29 [
  20020030, 21021031, 27027999, 28028032, 29029033, 30030034, 31031035, 32032999, 33033999,
  34034999, 35035036, 36036999]
/-- l.402-414 -/
def sPolynomial21 : GStmt := .spoly 21 11 18 16 28 [
  19019029, 20020030, 21021031, 27027999, 28028032, 29029033, 30030034, 31031035, 32032999,
  33033999, 34034999, 35035036, 36036999]
/-- l.420-433 -/
def sPolynomial22 : GStmt := .spoly 22 10 17 15 27 [
  18018028, 19019029, 20020030, 21021031, 27027999, 28028032, 29029033, 30030034, 31031035,
  32032999, 33033999, 34034999, 35035036, 36036999]
/-- l.439-457 -/
def sPolynomial23 : GStmt := .spoly 23 9 11 15 27 [
  15999028, 16999029, 17017030, 18018999, 19019999, 20020031, 21021999, 25999032, 26999033,
  27027034, 28028999, 29029999, 30030035, 31031999, 32032999, 33033999, 34034036, 35035999,
  36036999]
/-- l.463-467 -/
def sPolynomial24 : GStmt := .spoly 24 19 31 23 35 [
  32032999, 33033999, 34034999, 35035036, 36036999]

/-! ### src/absolute_pose/modules/gpnp4/reductors.cpp -/

/-- l.38-52 -/
def groebnerRow5_0000 (targetRow : ℕ) : GStmt := .elim targetRow 23 5 23 [
  24024, 25025, 26026, 27027, 28028, 29029, 30030, 31031, 32032, 33033, 34034, 35035, 36036]
/-- l.58-71 -/
def groebnerRow6_0000 (targetRow : ℕ) : GStmt := .elim targetRow 24 6 24 [
  25025, 26026, 27027, 28028, 29029, 30030, 31031, 32032, 33033, 34034, 35035, 36036]
/-- l.77-89 -/
def groebnerRow7_0000 (targetRow : ℕ) : GStmt := .elim targetRow 25 7 25 [
  26026, 27027, 28028, 29029, 30030, 31031, 32032, 33033, 34034, 35035, 36036]
/-- l.95-107 -/
def groebnerRow7_0100 (targetRow : ℕ) : GStmt := .elim targetRow 9 7 25 [
  10026, 11027, 15028, 16029, 17030, 20031, 25032, 26033, 27034, 30035, 34036]
/-- l.113-124 -/
def groebnerRow8_0100 (targetRow : ℕ) : GStmt := .elim targetRow 10 8 26 [
  11027, 15028, 16029, 17030, 20031, 25032, 26033, 27034, 30035, 34036]
/-- l.130-144 -/
def groebnerRow5_1000 (targetRow : ℕ) : GStmt := .elim targetRow 13 5 23 [
  14024, 15025, 16026, 17027, 18028, 19029, 20030, 21031, 28032, 29033, 30034, 31035, 35036]
/-- l.150-163 -/
def groebnerRow6_1000 (targetRow : ℕ) : GStmt := .elim targetRow 14 6 24 [
  15025, 16026, 17027, 18028, 19029, 20030, 21031, 28032, 29033, 30034, 31035, 35036]
/-- l.169-181 -/
def groebnerRow7_1000 (targetRow : ℕ) : GStmt := .elim targetRow 15 7 25 [
  16026, 17027, 18028, 19029, 20030, 21031, 28032, 29033, 30034, 31035, 35036]
/-- l.187-198 -/
def groebnerRow8_1000 (targetRow : ℕ) : GStmt := .elim targetRow 16 8 26 [
  17027, 18028, 19029, 20030, 21031, 28032, 29033, 30034, 31035, 35036]
/-- l.204-215 -/
def groebnerRow8_0000 (targetRow : ℕ) : GStmt := .elim targetRow 26 8 26 [
  27027, 28028, 29029, 30030, 31031, 32032, 33033, 34034, 35035, 36036]
/-- l.221-234 -/
def groebnerRow6_0100 (targetRow : ℕ) : GStmt := .elim targetRow 8 6 24 [
  9025, 10026, 11027, 15028, 16029, 17030, 20031, 25032, 26033, 27034, 30035, 34036]
/-- l.240-256 -/
def groebnerRow9_0000 (targetRow : ℕ) : GStmt := .elim targetRow 11 9 11 [
  17017, 18018, 19019, 20020, 21021, 27027, 28028, 29029, 30030, 31031, 32032, 33033, 34034, 35035,
  36036]
/-- l.262-277 -/
def groebnerRow4_1000 (targetRow : ℕ) : GStmt := .elim targetRow 12 4 22 [
  13023, 14024, 15025, 16026, 17027, 18028, 19029, 20030, 21031, 28032, 29033, 30034, 31035, 35036]
/-- l.283-298 -/
def groebnerRow10_0000 (targetRow : ℕ) : GStmt := .elim targetRow 17 10 17 [
  18018, 19019, 20020, 21021, 27027, 28028, 29029, 30030, 31031, 32032, 33033, 34034, 35035, 36036]
/-- l.304-319 -/
def groebnerRow4_0000 (targetRow : ℕ) : GStmt := .elim targetRow 22 4 22 [
  23023, 24024, 25025, 26026, 27027, 28028, 29029, 30030, 31031, 32032, 33033, 34034, 35035, 36036]
/-- l.325-339 -/
def groebnerRow5_0100 (targetRow : ℕ) : GStmt := .elim targetRow 7 5 23 [
  8024, 9025, 10026, 11027, 15028, 16029, 17030, 20031, 25032, 26033, 27034, 30035, 34036]
/-- l.345-359 -/
def groebnerRow11_0000 (targetRow : ℕ) : GStmt := .elim targetRow 18 11 18 [
  19019, 20020, 21021, 27027, 28028, 29029, 30030, 31031, 32032, 33033, 34034, 35035, 36036]
/-- l.365-378 -/
def groebnerRow6_0010 (targetRow : ℕ) : GStmt := .elim targetRow 5 6 24 [
  7025, 8026, 10027, 13028, 14029, 16030, 19031, 23032, 24033, 26034, 29035, 33036]
/-- l.384-399 -/
def groebnerRow4_0100 (targetRow : ℕ) : GStmt := .elim targetRow 6 4 22 [
  7023, 8024, 9025, 10026, 11027, 15028, 16029, 17030, 20031, 25032, 26033, 27034, 30035, 34036]
/-- l.405-418 -/
def groebnerRow12_0000 (targetRow : ℕ) : GStmt := .elim targetRow 19 12 19 [
  20020, 21021, 27027, 28028, 29029, 30030, 31031, 32032, 33033, 34034, 35035, 36036]
/-- l.424-438 -/
def groebnerRow5_0010 (targetRow : ℕ) : GStmt := .elim targetRow 4 5 23 [
  5024, 7025, 8026, 10027, 13028, 14029, 16030, 19031, 23032, 24033, 26034, 29035, 33036]
/-- l.444-456 -/
def groebnerRow13_0000 (targetRow : ℕ) : GStmt := .elim targetRow 20 13 20 [
  21021, 27027, 28028, 29029, 30030, 31031, 32032, 33033, 34034, 35035, 36036]
/-- l.462-473 -/
def groebnerRow14_1000 (targetRow : ℕ) : GStmt := .elim targetRow 3 14 21 [
  17027, 18028, 19029, 20030, 21031, 28032, 29033, 30034, 31035, 35036]
/-- l.479-490 -/
def groebnerRow14_0000 (targetRow : ℕ) : GStmt := .elim targetRow 21 14 21 [
  27027, 28028, 29029, 30030, 31031, 32032, 33033, 34034, 35035, 36036]
/-- l.496-508 -/
def groebnerRow13_1000 (targetRow : ℕ) : GStmt := .elim targetRow 2 13 20 [
  3021, 17027, 18028, 19029, 20030, 21031, 28032, 29033, 30034, 31035, 35036]
/-- l.514-524 -/
def groebnerRow15_0100 (targetRow : ℕ) : GStmt := .elim targetRow 11 15 27 [
  15028, 16029, 17030, 20031, 25032, 26033, 27034, 30035, 34036]
/-- l.530-540 -/
def groebnerRow15_1000 (targetRow : ℕ) : GStmt := .elim targetRow 17 15 27 [
  18028, 19029, 20030, 21031, 28032, 29033, 30034, 31035, 35036]
/-- l.546-556 -/
def groebnerRow15_0000 (targetRow : ℕ) : GStmt := .elim targetRow 27 15 27 [
  28028, 29029, 30030, 31031, 32032, 33033, 34034, 35035, 36036]
/-- l.562-575 -/
def groebnerRow12_1000 (targetRow : ℕ) : GStmt := .elim targetRow 1 12 19 [
  2020, 3021, 17027, 18028, 19029, 20030, 21031, 28032, 29033, 30034, 31035, 35036]
/-- l.581-590 -/
def groebnerRow16_1000 (targetRow : ℕ) : GStmt := .elim targetRow 18 16 28 [
  19029, 20030, 21031, 28032, 29033, 30034, 31035, 35036]
/-- l.596-605 -/
def groebnerRow16_0000 (targetRow : ℕ) : GStmt := .elim targetRow 28 16 28 [
  29029, 30030, 31031, 32032, 33033, 34034, 35035, 36036]
/-- l.611-622 -/
def groebnerRow14_0001 (targetRow : ℕ) : GStmt := .elim targetRow 0 14 21 [
  9027, 12028, 13029, 15030, 18031, 22032, 23033, 25034, 28035, 32036]
/-- l.628-639 -/
def groebnerRow14_0010 (targetRow : ℕ) : GStmt := .elim targetRow 1 14 21 [
  10027, 13028, 14029, 16030, 19031, 23032, 24033, 26034, 29035, 33036]
/-- l.645-653 -/
def groebnerRow17_1000 (targetRow : ℕ) : GStmt := .elim targetRow 19 17 29 [
  20030, 21031, 28032, 29033, 30034, 31035, 35036]
/-- l.659-667 -/
def groebnerRow17_0000 (targetRow : ℕ) : GStmt := .elim targetRow 29 17 29 [
  30030, 31031, 32032, 33033, 34034, 35035, 36036]
/-- l.673-680 -/
def groebnerRow18_0000 (targetRow : ℕ) : GStmt := .elim targetRow 30 18 30 [
  31031, 32032, 33033, 34034, 35035, 36036]
/-- l.686-693 -/
def groebnerRow18_1000 (targetRow : ℕ) : GStmt := .elim targetRow 20 18 30 [
  21031, 28032, 29033, 30034, 31035, 35036]
/-- l.699-705 -/
def groebnerRow19_1000 (targetRow : ℕ) : GStmt := .elim targetRow 21 19 31 [
  28032, 29033, 30034, 31035, 35036]
/-- l.711-717 -/
def groebnerRow19_0000 (targetRow : ℕ) : GStmt := .elim targetRow 31 19 31 [
  32032, 33033, 34034, 35035, 36036]
/-- l.723-728 -/
def groebnerRow20_1000 (targetRow : ℕ) : GStmt := .elim targetRow 28 20 32 [
  29033, 30034, 31035, 35036]
/-- l.734-739 -/
def groebnerRow20_0000 (targetRow : ℕ) : GStmt := .elim targetRow 32 20 32 [
  33033, 34034, 35035, 36036]
/-- l.745-751 -/
def groebnerRow19_0001 (targetRow : ℕ) : GStmt := .elim targetRow 18 19 31 [
  22032, 23033, 25034, 28035, 32036]
/-- l.757-763 -/
def groebnerRow19_0010 (targetRow : ℕ) : GStmt := .elim targetRow 19 19 31 [
  23032, 24033, 26034, 29035, 33036]
/-- l.769-774 -/
def groebnerRow20_0001 (targetRow : ℕ) : GStmt := .elim targetRow 22 20 32 [
  23033, 25034, 28035, 32036]
/-- l.780-785 -/
def groebnerRow20_0010 (targetRow : ℕ) : GStmt := .elim targetRow 23 20 32 [
  24033, 26034, 29035, 33036]
/-- l.791-795 -/
def groebnerRow21_0010 (targetRow : ℕ) : GStmt := .elim targetRow 24 21 33 [
  26034, 29035, 33036]
/-- l.801-806 -/
def groebnerRow20_0100 (targetRow : ℕ) : GStmt := .elim targetRow 25 20 32 [
  26033, 27034, 30035, 34036]
/-- l.812-816 -/
def groebnerRow21_0100 (targetRow : ℕ) : GStmt := .elim targetRow 26 21 33 [
  27034, 30035, 34036]
/-- l.822-826 -/
def groebnerRow21_1000 (targetRow : ℕ) : GStmt := .elim targetRow 29 21 33 [
  30034, 31035, 35036]
/-- l.832-836 -/
def groebnerRow21_0000 (targetRow : ℕ) : GStmt := .elim targetRow 33 21 33 [
  34034, 35035, 36036]
/-- l.842-847 -/
def groebnerRow20_1100 (targetRow : ℕ) : GStmt := .elim targetRow 15 20 32 [
  16033, 17034, 20035, 30036]
/-- l.853-857 -/
def groebnerRow21_1100 (targetRow : ℕ) : GStmt := .elim targetRow 16 21 33 [
  17034, 20035, 30036]
/-- l.863-866 -/
def groebnerRow22_1100 (targetRow : ℕ) : GStmt := .elim targetRow 17 22 34 [
  20035, 30036]
/-- l.872-878 -/
def groebnerRow19_0100 (targetRow : ℕ) : GStmt := .elim targetRow 20 19 31 [
  25032, 26033, 27034, 30035, 34036]
/-- l.884-887 -/
def groebnerRow22_0100 (targetRow : ℕ) : GStmt := .elim targetRow 27 22 34 [
  30035, 34036]
/-- l.893-896 -/
def groebnerRow22_1000 (targetRow : ℕ) : GStmt := .elim targetRow 30 22 34 [
  31035, 35036]
/-- l.902-905 -/
def groebnerRow22_0000 (targetRow : ℕ) : GStmt := .elim targetRow 34 22 34 [
  35035, 36036]
/-- l.911-913 -/
def groebnerRow23_0000 (targetRow : ℕ) : GStmt := .elim targetRow 35 23 35 [
  36036]

/-! ### src/absolute_pose/modules/gpnp4/code.cpp -/

/-- l.39-39 -/
def code0 : List GStmt := [
  sPolynomial5]
/-- l.41-42 -/
def code1 : List GStmt := [
  sPolynomial6, groebnerRow5_0000 6]
/-- l.44-46 -/
def code2 : List GStmt := [
  sPolynomial7, groebnerRow5_0000 7, groebnerRow6_0000 7]
/-- l.48-51 -/
def code3 : List GStmt := [
  sPolynomial8, groebnerRow5_0000 8, groebnerRow6_0000 8, groebnerRow7_0000 8]
/-- l.53-63 -/
def code4 : List GStmt := [
  sPolynomial9, groebnerRow7_0100 9, groebnerRow8_0100 9, groebnerRow5_1000 9, groebnerRow6_1000 9,
  groebnerRow7_1000 9, groebnerRow8_1000 9, groebnerRow5_0000 9, groebnerRow6_0000 9,
  groebnerRow7_0000 9, groebnerRow8_0000 9]
/-- l.65-77 -/
def code5 : List GStmt := [
  sPolynomial10, groebnerRow6_0100 10, groebnerRow7_0100 10, groebnerRow8_0100 10,
  groebnerRow9_0000 10, groebnerRow5_1000 10, groebnerRow6_1000 10, groebnerRow7_1000 10,
  groebnerRow8_1000 10, groebnerRow5_0000 10, groebnerRow6_0000 10, groebnerRow7_0000 10,
  groebnerRow8_0000 10]
/-- l.79-94 -/
def code6 : List GStmt := [
  sPolynomial11, groebnerRow6_0100 11, groebnerRow7_0100 11, groebnerRow8_0100 11,
  groebnerRow9_0000 11, groebnerRow4_1000 11, groebnerRow5_1000 11, groebnerRow6_1000 11,
  groebnerRow7_1000 11, groebnerRow8_1000 11, groebnerRow10_0000 11, groebnerRow4_0000 11,
  groebnerRow5_0000 11, groebnerRow6_0000 11, groebnerRow7_0000 11, groebnerRow8_0000 11]
/-- l.96-113 -/
def code7 : List GStmt := [
  sPolynomial12, groebnerRow5_0100 12, groebnerRow6_0100 12, groebnerRow7_0100 12,
  groebnerRow8_0100 12, groebnerRow9_0000 12, groebnerRow4_1000 12, groebnerRow5_1000 12,
  groebnerRow6_1000 12, groebnerRow7_1000 12, groebnerRow8_1000 12, groebnerRow10_0000 12,
  groebnerRow11_0000 12, groebnerRow4_0000 12, groebnerRow5_0000 12, groebnerRow6_0000 12,
  groebnerRow7_0000 12, groebnerRow8_0000 12]
/-- l.115-135 -/
def code8 : List GStmt := [
  sPolynomial13, groebnerRow6_0010 13, groebnerRow4_0100 13, groebnerRow5_0100 13,
  groebnerRow6_0100 13, groebnerRow7_0100 13, groebnerRow8_0100 13, groebnerRow9_0000 13,
  groebnerRow4_1000 13, groebnerRow5_1000 13, groebnerRow6_1000 13, groebnerRow7_1000 13,
  groebnerRow8_1000 13, groebnerRow10_0000 13, groebnerRow11_0000 13, groebnerRow12_0000 13,
  groebnerRow4_0000 13, groebnerRow5_0000 13, groebnerRow6_0000 13, groebnerRow7_0000 13,
  groebnerRow8_0000 13]
/-- l.137-159 -/
def code9 : List GStmt := [
  sPolynomial14, groebnerRow5_0010 14, groebnerRow6_0010 14, groebnerRow4_0100 14,
  groebnerRow5_0100 14, groebnerRow6_0100 14, groebnerRow7_0100 14, groebnerRow8_0100 14,
  groebnerRow9_0000 14, groebnerRow4_1000 14, groebnerRow5_1000 14, groebnerRow6_1000 14,
  groebnerRow7_1000 14, groebnerRow8_1000 14, groebnerRow10_0000 14, groebnerRow11_0000 14,
  groebnerRow12_0000 14, groebnerRow13_0000 14, groebnerRow4_0000 14, groebnerRow5_0000 14,
  groebnerRow6_0000 14, groebnerRow7_0000 14, groebnerRow8_0000 14]
/-- l.161-172 -/
def code10 : List GStmt := [
  sPolynomial15, groebnerRow14_1000 15, groebnerRow9_0000 15, groebnerRow7_1000 15,
  groebnerRow8_1000 15, groebnerRow10_0000 15, groebnerRow11_0000 15, groebnerRow12_0000 15,
  groebnerRow13_0000 15, groebnerRow14_0000 15, groebnerRow7_0000 15, groebnerRow8_0000 15]
/-- l.174-192 -/
def code11 : List GStmt := [
  sPolynomial16, groebnerRow13_1000 16, groebnerRow14_1000 16, groebnerRow8_0100 16,
  groebnerRow15_0100 16, groebnerRow5_1000 16, groebnerRow6_1000 16, groebnerRow7_1000 16,
  groebnerRow8_1000 16, groebnerRow15_1000 16, groebnerRow11_0000 16, groebnerRow12_0000 16,
  groebnerRow13_0000 16, groebnerRow14_0000 16, groebnerRow5_0000 16, groebnerRow6_0000 16,
  groebnerRow7_0000 16, groebnerRow8_0000 16, groebnerRow15_0000 16]
/-- l.194-217 -/
def code12 : List GStmt := [
  sPolynomial17, groebnerRow12_1000 17, groebnerRow13_1000 17, groebnerRow14_1000 17,
  groebnerRow7_0100 17, groebnerRow8_0100 17, groebnerRow15_0100 17, groebnerRow4_1000 17,
  groebnerRow5_1000 17, groebnerRow6_1000 17, groebnerRow7_1000 17, groebnerRow8_1000 17,
  groebnerRow15_1000 17, groebnerRow16_1000 17, groebnerRow12_0000 17, groebnerRow13_0000 17,
  groebnerRow14_0000 17, groebnerRow4_0000 17, groebnerRow5_0000 17, groebnerRow6_0000 17,
  groebnerRow7_0000 17, groebnerRow8_0000 17, groebnerRow15_0000 17, groebnerRow16_0000 17]
/-- l.219-244 -/
def code13 : List GStmt := [
  sPolynomial18, groebnerRow14_0001 18, groebnerRow14_0010 18, groebnerRow13_1000 18,
  groebnerRow14_1000 18, groebnerRow7_0100 18, groebnerRow8_0100 18, groebnerRow15_0100 18,
  groebnerRow4_1000 18, groebnerRow5_1000 18, groebnerRow6_1000 18, groebnerRow7_1000 18,
  groebnerRow8_1000 18, groebnerRow15_1000 18, groebnerRow16_1000 18, groebnerRow17_1000 18,
  groebnerRow13_0000 18, groebnerRow14_0000 18, groebnerRow4_0000 18, groebnerRow5_0000 18,
  groebnerRow6_0000 18, groebnerRow7_0000 18, groebnerRow8_0000 18, groebnerRow15_0000 18,
  groebnerRow16_0000 18, groebnerRow17_0000 18]
/-- l.246-251 -/
def code14 : List GStmt := [
  sPolynomial19, groebnerRow14_0000 19, groebnerRow15_0000 19, groebnerRow16_0000 19,
  groebnerRow17_0000 19, groebnerRow18_0000 19]
/-- l.253-260 -/
def code15 : List GStmt := [
  sPolynomial20, groebnerRow18_1000 20, groebnerRow19_1000 20, groebnerRow15_0000 20,
  groebnerRow16_0000 20, groebnerRow17_0000 20, groebnerRow18_0000 20, groebnerRow19_0000 20]
/-- l.262-271 -/
def code16 : List GStmt := [
  sPolynomial21, groebnerRow17_1000 21, groebnerRow18_1000 21, groebnerRow19_1000 21,
  groebnerRow15_0000 21, groebnerRow20_1000 21, groebnerRow17_0000 21, groebnerRow18_0000 21,
  groebnerRow19_0000 21, groebnerRow20_0000 21]
/-- l.273-289 -/
def code17 : List GStmt := [
  sPolynomial22, groebnerRow19_0001 22, groebnerRow19_0010 22, groebnerRow18_1000 22,
  groebnerRow19_1000 22, groebnerRow20_0001 22, groebnerRow20_0010 22, groebnerRow21_0010 22,
  groebnerRow20_0100 22, groebnerRow21_0100 22, groebnerRow15_0000 22, groebnerRow20_1000 22,
  groebnerRow21_1000 22, groebnerRow18_0000 22, groebnerRow19_0000 22, groebnerRow20_0000 22,
  groebnerRow21_0000 22]
/-- l.291-311 -/
def code18 : List GStmt := [
  sPolynomial23, groebnerRow20_1100 23, groebnerRow21_1100 23, groebnerRow22_1100 23,
  groebnerRow19_0001 23, groebnerRow19_0010 23, groebnerRow19_0100 23, groebnerRow19_1000 23,
  groebnerRow20_0001 23, groebnerRow20_0010 23, groebnerRow21_0010 23, groebnerRow20_0100 23,
  groebnerRow21_0100 23, groebnerRow22_0100 23, groebnerRow20_1000 23, groebnerRow21_1000 23,
  groebnerRow22_1000 23, groebnerRow19_0000 23, groebnerRow20_0000 23, groebnerRow21_0000 23,
  groebnerRow22_0000 23]
/-- l.313-317 -/
def code19 : List GStmt := [
  sPolynomial24, groebnerRow20_0000 24, groebnerRow21_0000 24, groebnerRow22_0000 24,
  groebnerRow23_0000 24]

/-- `compute`: the statements in order (src/absolute_pose/modules/gpnp4/code.cpp l.39-317). -/
def compute : List GStmt :=
  [code0, code1, code2, code3, code4, code5, code6, code7, code8, code9, code10, code11, code12,
    code13, code14, code15, code16, code17, code18, code19].flatten

end OpenGV.Gpnp4
