import Verif.Model.Groebner
import Verif.Model.Geometry

/-!
# The initial matrices of `gpnp1` to `gpnp5`

Transcribed by `tools/gen_groebner.py` from src/absolute_pose/modules/gpnp1/init.cpp to
src/absolute_pose/modules/gpnp5/init.cpp. An entry of the matrix is a list of terms. A term is
packed in decimal, with sign: `c * 1000000 + u * 1000 + v` is the coefficient `c` times the
variables `u` and `v`. The component `i` of the arguments `a`, `n`, `m`, ... has the number `i`,
`100 + i`, `200 + i`, ... in the order of the argument list. The square distance `cijw` is
`900 + 10 * i + j`, and `999` stands for a missing factor. For example `-2100103` is
`-2*n(0,0)*n(3,0)`. `temp.norm()*temp.norm()` is written as the scalar product of `temp` with
itself. The other entries of the matrix are zero (src/absolute_pose/modules/main.cpp l.472-473
and following).
-/

namespace OpenGV

open Matrix

/-- The variables of a term. -/
def gVars (vecs : List (Fin 12 → ℝ)) (c : Fin 4 → Vec3) (u : ℕ) : ℝ :=
  if u = 999 then 1
  else if 900 ≤ u then
    (c (Fin.ofNat 4 (u / 10 % 10)) - c (Fin.ofNat 4 (u % 10))) ⬝ᵥ
      (c (Fin.ofNat 4 (u / 10 % 10)) - c (Fin.ofNat 4 (u % 10)))
  else vecs.getD (u / 100) 0 (Fin.ofNat 12 (u % 100))

/-- The value of a term. -/
def gTerm (X : ℕ → ℝ) (t : ℤ) : ℝ :=
  (t.sign * (t.natAbs / 1000000 : ℕ) : ℤ) * (X (t.natAbs / 1000 % 1000) * X (t.natAbs % 1000))

/-- A matrix whose first rows have the given entries from column `s` on. -/
def gInit (s : ℕ) (rows : List (List (List ℤ))) (X : ℕ → ℝ) : GMat ℝ :=
  fun r c => if c < s then 0 else (((rows.getD r []).getD (c - s) []).map (gTerm X)).sum

/-- The entries from column 0 on (src/absolute_pose/modules/gpnp1/init.cpp l.52-60). -/
def Gpnp1.initTerms : List (List (List ℤ)) := [
  [
    [-2100103, -2101104, -2102105, 1100100, 1103103, 1101101, 1104104, 1102102, 1105105],
    [2000100, -2000103, -2100003, 2003103, 2001101, -2001104, -2101004, 2004104, 2002102,
      -2002105, -2102005, 2005105],
    [-1901999, 1000000, -2000003, 1003003, 1001001, -2001004, 1004004, 1002002, -2002005, 1005005]],
  [
    [-2100106, -2101107, -2102108, 1100100, 1101101, 1102102, 1106106, 1107107, 1108108],
    [2000100, 2001101, 2002102, -2000106, -2100006, 2006106, -2001107, -2101007, 2007107,
      -2002108, -2102008, 2008108],
    [-1902999, 1000000, 1001001, 1002002, -2000006, 1006006, -2001007, 1007007, -2002008, 1008008]],
  [
    [-2100109, -2101110, -2102111, 1100100, 1101101, 1102102, 1109109, 1110110, 1111111],
    [2000100, 2001101, 2002102, -2000109, -2100009, 2009109, -2001110, -2101010, 2010110,
      -2002111, -2102011, 2011111],
    [-1903999, 1000000, 1001001, 1002002, -2000009, 1009009, -2001010, 1010010, -2002011, 1011011]]]

/-- src/absolute_pose/modules/gpnp1/init.cpp l.36-61 -/
def Gpnp1.init (a n : Fin 12 → ℝ) (c0 c1 c2 c3 : Vec3) : GMat ℝ :=
  gInit 0 Gpnp1.initTerms (gVars [a, n] ![c0, c1, c2, c3])

/-- The entries from column 0 on (src/absolute_pose/modules/gpnp2/init.cpp l.57-86). -/
def Gpnp2.initTerms : List (List (List ℤ)) := [
  [
    [-2200203, -2201204, -2202205, 1200200, 1203203, 1201201, 1204204, 1202202, 1205205],
    [2100200, -2100203, -2200103, 2103203, 2101201, -2101204, -2201104, 2104204, 2102202,
      -2102205, -2202105, 2105205],
    [-2100103, -2101104, -2102105, 1100100, 1103103, 1101101, 1104104, 1102102, 1105105],
    [2000200, -2000203, -2200003, 2003203, 2001201, -2001204, -2201004, 2004204, 2002202,
      -2002205, -2202005, 2005205],
    [2000100, -2000103, -2100003, 2003103, 2001101, -2001104, -2101004, 2004104, 2002102,
      -2002105, -2102005, 2005105],
    [-1901999, 1000000, -2000003, 1003003, 1001001, -2001004, 1004004, 1002002, -2002005, 1005005]],
  [
    [-2200206, -2201207, -2202208, 1200200, 1201201, 1202202, 1206206, 1207207, 1208208],
    [2100200, 2101201, 2102202, -2100206, -2200106, 2106206, -2101207, -2201107, 2107207,
      -2102208, -2202108, 2108208],
    [-2100106, -2101107, -2102108, 1100100, 1101101, 1102102, 1106106, 1107107, 1108108],
    [2000200, 2001201, 2002202, -2000206, -2200006, 2006206, -2001207, -2201007, 2007207,
      -2002208, -2202008, 2008208],
    [2000100, 2001101, 2002102, -2000106, -2100006, 2006106, -2001107, -2101007, 2007107,
      -2002108, -2102008, 2008108],
    [-1902999, 1000000, 1001001, 1002002, -2000006, 1006006, -2001007, 1007007, -2002008, 1008008]],
  [
    [-2200209, -2201210, -2202211, 1200200, 1201201, 1202202, 1209209, 1210210, 1211211],
    [2100200, 2101201, 2102202, -2100209, -2200109, 2109209, -2101210, -2201110, 2110210,
      -2102211, -2202111, 2111211],
    [-2100109, -2101110, -2102111, 1100100, 1101101, 1102102, 1109109, 1110110, 1111111],
    [2000200, 2001201, 2002202, -2000209, -2200009, 2009209, -2001210, -2201010, 2010210,
      -2002211, -2202011, 2011211],
    [2000100, 2001101, 2002102, -2000109, -2100009, 2009109, -2001110, -2101010, 2010110,
      -2002111, -2102011, 2011111],
    [-1903999, 1000000, 1001001, 1002002, -2000009, 1009009, -2001010, 1010010, -2002011, 1011011]],
  [
    [-2203206, -2204207, -2205208, 1203203, 1204204, 1205205, 1206206, 1207207, 1208208],
    [2103203, 2104204, 2105205, 2106206, 2107207, 2108208, -2103206, -2203106, -2104207, -2204107,
      -2105208, -2205108],
    [-2103106, -2104107, -2105108, 1103103, 1104104, 1105105, 1106106, 1107107, 1108108],
    [2003203, 2004204, 2005205, 2006206, 2007207, 2008208, -2003206, -2203006, -2004207, -2204007,
      -2005208, -2205008],
    [2003103, 2004104, 2005105, 2006106, 2007107, 2008108, -2003106, -2103006, -2004107, -2104007,
      -2005108, -2105008],
    [-1912999, 1003003, 1004004, 1005005, 1006006, 1007007, 1008008, -2003006, -2004007, -2005008]],
  [
    [-2203209, -2204210, -2205211, 1203203, 1204204, 1205205, 1209209, 1210210, 1211211],
    [2103203, 2104204, 2105205, 2109209, 2110210, 2111211, -2103209, -2203109, -2104210, -2204110,
      -2105211, -2205111],
    [-2103109, -2104110, -2105111, 1103103, 1104104, 1105105, 1109109, 1110110, 1111111],
    [2003203, 2004204, 2005205, 2009209, 2010210, 2011211, -2003209, -2203009, -2004210, -2204010,
      -2005211, -2205011],
    [2003103, 2004104, 2005105, 2009109, 2010110, 2011111, -2003109, -2103009, -2004110, -2104010,
      -2005111, -2105011],
    [-1913999, 1003003, 1004004, 1005005, 1009009, 1010010, 1011011, -2003009, -2004010, -2005011]]]

/-- src/absolute_pose/modules/gpnp2/init.cpp l.36-87 -/
def Gpnp2.init (a n m : Fin 12 → ℝ) (c0 c1 c2 c3 : Vec3) : GMat ℝ :=
  gInit 0 Gpnp2.initTerms (gVars [a, n, m] ![c0, c1, c2, c3])

/-- The entries from column 8 on (src/absolute_pose/modules/gpnp3/init.cpp l.56-95). -/
def Gpnp3.initTerms : List (List (List ℤ)) := [
  [
    [-2300303, -2301304, -2302305, 1300300, 1303303, 1301301, 1304304, 1302302, 1305305],
    [2200300, -2200303, -2300203, 2203303, 2201301, -2201304, -2301204, 2204304, 2202302,
      -2202305, -2302205, 2205305],
    [-2200203, -2201204, -2202205, 1200200, 1203203, 1201201, 1204204, 1202202, 1205205],
    [2100300, -2100303, -2300103, 2103303, 2101301, -2101304, -2301104, 2104304, 2102302,
      -2102305, -2302105, 2105305],
    [2100200, -2100203, -2200103, 2103203, 2101201, -2101204, -2201104, 2104204, 2102202,
      -2102205, -2202105, 2105205],
    [-2100103, -2101104, -2102105, 1100100, 1103103, 1101101, 1104104, 1102102, 1105105],
    [2000300, -2000303, -2300003, 2003303, 2001301, -2001304, -2301004, 2004304, 2002302,
      -2002305, -2302005, 2005305],
    [2000200, -2000203, -2200003, 2003203, 2001201, -2001204, -2201004, 2004204, 2002202,
      -2002205, -2202005, 2005205],
    [2000100, -2000103, -2100003, 2003103, 2001101, -2001104, -2101004, 2004104, 2002102,
      -2002105, -2102005, 2005105],
    [-1901999, 1000000, -2000003, 1003003, 1001001, -2001004, 1004004, 1002002, -2002005, 1005005]],
  [
    [-2300306, -2301307, -2302308, 1300300, 1301301, 1302302, 1306306, 1307307, 1308308],
    [2200300, 2201301, 2202302, -2200306, -2300206, 2206306, -2201307, -2301207, 2207307,
      -2202308, -2302208, 2208308],
    [-2200206, -2201207, -2202208, 1200200, 1201201, 1202202, 1206206, 1207207, 1208208],
    [2100300, 2101301, 2102302, -2100306, -2300106, 2106306, -2101307, -2301107, 2107307,
      -2102308, -2302108, 2108308],
    [2100200, 2101201, 2102202, -2100206, -2200106, 2106206, -2101207, -2201107, 2107207,
      -2102208, -2202108, 2108208],
    [-2100106, -2101107, -2102108, 1100100, 1101101, 1102102, 1106106, 1107107, 1108108],
    [2000300, 2001301, 2002302, -2000306, -2300006, 2006306, -2001307, -2301007, 2007307,
      -2002308, -2302008, 2008308],
    [2000200, 2001201, 2002202, -2000206, -2200006, 2006206, -2001207, -2201007, 2007207,
      -2002208, -2202008, 2008208],
    [2000100, 2001101, 2002102, -2000106, -2100006, 2006106, -2001107, -2101007, 2007107,
      -2002108, -2102008, 2008108],
    [-1902999, 1000000, 1001001, 1002002, -2000006, 1006006, -2001007, 1007007, -2002008, 1008008]],
  [
    [1300300, 1301301, 1302302, 1309309, 1310310, 1311311, -2300309, -2301310, -2302311],
    [2200300, 2201301, 2202302, -2200309, -2300209, 2209309, -2201310, -2301210, 2210310,
      -2202311, -2302211, 2211311],
    [1200200, 1201201, 1202202, 1209209, 1210210, 1211211, -2200209, -2201210, -2202211],
    [2100300, 2101301, 2102302, -2100309, -2300109, 2109309, -2101310, -2301110, 2110310,
      -2102311, -2302111, 2111311],
    [2100200, 2101201, 2102202, -2100209, -2200109, 2109209, -2101210, -2201110, 2110210,
      -2102211, -2202111, 2111211],
    [1100100, 1101101, 1102102, 1109109, 1110110, 1111111, -2100109, -2101110, -2102111],
    [2000300, 2001301, 2002302, -2000309, -2300009, 2009309, -2001310, -2301010, 2010310,
      -2002311, -2302011, 2011311],
    [2000200, 2001201, 2002202, -2000209, -2200009, 2009209, -2001210, -2201010, 2010210,
      -2002211, -2202011, 2011211],
    [2000100, 2001101, 2002102, -2000109, -2100009, 2009109, -2001110, -2101010, 2010110,
      -2002111, -2102011, 2011111],
    [-1903999, 1000000, 1001001, 1002002, -2000009, 1009009, -2001010, 1010010, -2002011, 1011011]],
  [
    [1303303, 1304304, 1305305, 1306306, 1307307, 1308308, -2303306, -2304307, -2305308],
    [2203303, 2204304, 2205305, 2206306, 2207307, 2208308, -2203306, -2303206, -2204307, -2304207,
      -2205308, -2305208],
    [1203203, 1204204, 1205205, 1206206, 1207207, 1208208, -2203206, -2204207, -2205208],
    [2103303, 2104304, 2105305, 2106306, 2107307, 2108308, -2103306, -2303106, -2104307, -2304107,
      -2105308, -2305108],
    [2103203, 2104204, 2105205, 2106206, 2107207, 2108208, -2103206, -2203106, -2104207, -2204107,
      -2105208, -2205108],
    [1103103, 1104104, 1105105, 1106106, 1107107, 1108108, -2103106, -2104107, -2105108],
    [2003303, 2004304, 2005305, 2006306, 2007307, 2008308, -2003306, -2303006, -2004307, -2304007,
      -2005308, -2305008],
    [2003203, 2004204, 2005205, 2006206, 2007207, 2008208, -2003206, -2203006, -2004207, -2204007,
      -2005208, -2205008],
    [2003103, 2004104, 2005105, 2006106, 2007107, 2008108, -2003106, -2103006, -2004107, -2104007,
      -2005108, -2105008],
    [-1912999, 1003003, 1004004, 1005005, 1006006, 1007007, 1008008, -2003006, -2004007, -2005008]]]

/-- src/absolute_pose/modules/gpnp3/init.cpp l.36-96 -/
def Gpnp3.init (a n m k : Fin 12 → ℝ) (c0 c1 c2 c3 : Vec3) : GMat ℝ :=
  gInit 8 Gpnp3.initTerms (gVars [a, n, m, k] ![c0, c1, c2, c3])

/-- The entries from column 22 on (src/absolute_pose/modules/gpnp4/init.cpp l.59-133). -/
def Gpnp4.initTerms : List (List (List ℤ)) := [
  [
    [-2400403, -2401404, -2402405, 1400400, 1403403, 1401401, 1404404, 1402402, 1405405],
    [2300400, -2300403, -2400303, 2303403, 2301401, -2301404, -2401304, 2304404, 2302402,
      -2302405, -2402305, 2305405],
    [-2300303, -2301304, -2302305, 1300300, 1303303, 1301301, 1304304, 1302302, 1305305],
    [2202402, 2200400, -2200403, -2400203, 2203403, 2201401, -2201404, -2401204, 2204404,
      -2202405, -2402205, 2205405],
    [2202302, 2200300, -2200303, -2300203, 2203303, 2201301, -2201304, -2301204, 2204304,
      -2202305, -2302205, 2205305],
    [-2200203, -2201204, -2202205, 1200200, 1203203, 1201201, 1204204, 1202202, 1205205],
    [2100400, -2100403, -2400103, 2103403, 2101401, -2101404, -2401104, 2104404, 2102402,
      -2102405, -2402105, 2105405],
    [2100300, -2100303, -2300103, 2103303, 2101301, -2101304, -2301104, 2104304, 2102302,
      -2102305, -2302105, 2105305],
    [2100200, -2100203, -2200103, 2103203, 2101201, -2101204, -2201104, 2104204, 2102202,
      -2102205, -2202105, 2105205],
    [-2100103, -2101104, -2102105, 1100100, 1103103, 1101101, 1104104, 1102102, 1105105],
    [2000400, -2000403, -2400003, 2003403, 2001401, -2001404, -2401004, 2004404, 2002402,
      -2002405, -2402005, 2005405],
    [2000300, -2000303, -2300003, 2003303, 2001301, -2001304, -2301004, 2004304, 2002302,
      -2002305, -2302005, 2005305],
    [2000200, -2000203, -2200003, 2003203, 2001201, -2001204, -2201004, 2004204, 2002202,
      -2002205, -2202005, 2005205],
    [2000100, -2000103, -2100003, 2003103, 2001101, -2001104, -2101004, 2004104, 2002102,
      -2002105, -2102005, 2005105],
    [-1901999, 1000000, -2000003, 1003003, 1001001, -2001004, 1004004, 1002002, -2002005, 1005005]],
  [
    [-2400406, -2401407, -2402408, 1400400, 1401401, 1402402, 1406406, 1407407, 1408408],
    [2300400, 2301401, 2302402, -2300406, -2400306, 2306406, -2301407, -2401307, 2307407,
      -2302408, -2402308, 2308408],
    [-2300306, -2301307, -2302308, 1300300, 1301301, 1302302, 1306306, 1307307, 1308308],
    [2202402, 2200400, 2201401, -2200406, -2400206, 2206406, -2201407, -2401207, 2207407,
      -2202408, -2402208, 2208408],
    [2202302, 2200300, 2201301, -2200306, -2300206, 2206306, -2201307, -2301207, 2207307,
      -2202308, -2302208, 2208308],
    [-2200206, -2201207, -2202208, 1200200, 1201201, 1202202, 1206206, 1207207, 1208208],
    [2100400, 2101401, 2102402, -2100406, -2400106, 2106406, -2101407, -2401107, 2107407,
      -2102408, -2402108, 2108408],
    [2100300, 2101301, 2102302, -2100306, -2300106, 2106306, -2101307, -2301107, 2107307,
      -2102308, -2302108, 2108308],
    [2100200, 2101201, 2102202, -2100206, -2200106, 2106206, -2101207, -2201107, 2107207,
      -2102208, -2202108, 2108208],
    [-2100106, -2101107, -2102108, 1100100, 1101101, 1102102, 1106106, 1107107, 1108108],
    [-2000406, 2000400, 2001401, 2002402, -2400006, 2006406, -2001407, -2401007, 2007407,
      -2002408, -2402008, 2008408],
    [-2000306, 2000300, 2001301, 2002302, -2300006, 2006306, -2001307, -2301007, 2007307,
      -2002308, -2302008, 2008308],
    [-2000206, -2200006, 2000200, 2001201, 2002202, 2006206, -2001207, -2201007, 2007207,
      -2002208, -2202008, 2008208],
    [-2000106, -2100006, 2000100, 2001101, 2002102, 2006106, -2001107, -2101007, 2007107,
      -2002108, -2102008, 2008108],
    [-1902999, 1000000, 1001001, 1002002, -2000006, 1006006, -2001007, 1007007, -2002008, 1008008]],
  [
    [1400400, 1401401, 1402402, -2400409, -2401410, -2402411, 1409409, 1410410, 1411411],
    [2300400, 2301401, 2302402, -2300409, -2400309, 2309409, -2301410, -2401310, 2310410,
      -2302411, -2402311, 2311411],
    [1300300, 1301301, 1302302, -2300309, -2301310, -2302311, 1309309, 1310310, 1311311],
    [2202402, 2200400, 2201401, -2200409, -2400209, 2209409, -2201410, -2401210, 2210410,
      -2202411, -2402211, 2211411],
    [2202302, 2200300, 2201301, -2200309, -2300209, 2209309, -2201310, -2301210, 2210310,
      -2202311, -2302211, 2211311],
    [1200200, 1201201, 1202202, -2200209, -2201210, -2202211, 1209209, 1210210, 1211211],
    [2100400, 2101401, 2102402, -2100409, -2400109, 2109409, -2101410, -2401110, 2110410,
      -2102411, -2402111, 2111411],
    [2100300, 2101301, 2102302, -2100309, -2300109, 2109309, -2101310, -2301110, 2110310,
      -2102311, -2302111, 2111311],
    [2100200, 2101201, 2102202, -2100209, -2200109, 2109209, -2101210, -2201110, 2110210,
      -2102211, -2202111, 2111211],
    [1100100, 1101101, 1102102, -2100109, -2101110, -2102111, 1109109, 1110110, 1111111],
    [2000400, 2001401, 2002402, -2000409, -2400009, 2009409, -2001410, -2401010, 2010410,
      -2002411, -2402011, 2011411],
    [2000300, 2001301, 2002302, -2000309, -2300009, 2009309, -2001310, -2301010, 2010310,
      -2002311, -2302011, 2011311],
    [2000200, 2001201, 2002202, -2000209, -2200009, 2009209, -2001210, -2201010, 2010210,
      -2002211, -2202011, 2011211],
    [2000100, 2001101, 2002102, -2000109, -2100009, 2009109, -2001110, -2101010, 2010110,
      -2002111, -2102011, 2011111],
    [-1903999, 1000000, 1001001, 1002002, -2000009, 1009009, -2001010, 1010010, -2002011, 1011011]],
  [
    [1403403, 1404404, 1405405, 1406406, 1407407, 1408408, -2403406, -2404407, -2405408],
    [2303403, 2304404, -2304407, -2404307, 2305405, 2306406, 2307407, 2308408, -2303406, -2403306,
      -2305408, -2405308],
    [1303303, 1304304, 1305305, 1306306, 1307307, 1308308, -2303306, -2304307, -2305308],
    [2203403, 2204404, -2204407, -2404207, 2205405, 2206406, 2207407, 2208408, -2203406, -2403206,
      -2205408, -2405208],
    [2203303, 2204304, -2204307, -2304207, 2205305, 2206306, 2207307, 2208308, -2203306, -2303206,
      -2205308, -2305208],
    [1203203, 1204204, 1205205, 1206206, 1207207, 1208208, -2203206, -2204207, -2205208],
    [2103403, 2104404, -2404107, 2105405, 2106406, 2107407, 2108408, -2103406, -2403106, -2104407,
      -2105408, -2405108],
    [2103303, 2104304, -2304107, 2105305, 2106306, 2107307, 2108308, -2103306, -2303106, -2104307,
      -2105308, -2305108],
    [2103203, 2104204, -2204107, 2105205, 2106206, 2107207, 2108208, -2103206, -2203106, -2104207,
      -2105208, -2205108],
    [-2103106, 1103103, 1104104, 1105105, 1106106, 1107107, 1108108, -2104107, -2105108],
    [-2003406, 2003403, 2004404, 2005405, 2006406, 2007407, 2008408, -2403006, -2004407, -2404007,
      -2005408, -2405008],
    [-2003306, 2003303, 2004304, 2005305, 2006306, 2007307, 2008308, -2303006, -2004307, -2304007,
      -2005308, -2305008],
    [-2003206, 2003203, 2004204, 2005205, 2006206, 2007207, 2008208, -2203006, -2004207, -2204007,
      -2005208, -2205008],
    [-2103006, -2003106, 2003103, 2004104, 2005105, 2006106, 2007107, 2008108, -2004107, -2104007,
      -2005108, -2105008],
    [-1912999, 1003003, 1004004, 1005005, 1006006, 1007007, 1008008, -2003006, -2004007, -2005008]],
  [
    [1403403, 1404404, 1405405, -2403409, -2404410, -2405411, 1409409, 1410410, 1411411],
    [2303403, 2304404, 2305405, 2309409, 2310410, 2311411, -2303409, -2403309, -2304410, -2404310,
      -2305411, -2405311],
    [1303303, 1304304, 1305305, -2303309, -2304310, -2305311, 1309309, 1310310, 1311311],
    [2203403, 2204404, 2205405, 2209409, 2210410, 2211411, -2203409, -2403209, -2204410, -2404210,
      -2205411, -2405211],
    [2203303, 2204304, 2205305, 2209309, 2210310, 2211311, -2203309, -2303209, -2204310, -2304210,
      -2205311, -2305211],
    [1203203, 1204204, 1205205, -2203209, -2204210, -2205211, 1209209, 1210210, 1211211],
    [2103403, 2104404, 2105405, 2109409, 2110410, 2111411, -2103409, -2403109, -2104410, -2404110,
      -2105411, -2405111],
    [2103303, 2104304, 2105305, 2109309, 2110310, 2111311, -2103309, -2303109, -2104310, -2304110,
      -2105311, -2305111],
    [2103203, 2104204, 2105205, 2109209, 2110210, 2111211, -2103209, -2203109, -2104210, -2204110,
      -2105211, -2205111],
    [1103103, 1104104, 1105105, -2103109, -2104110, -2105111, 1109109, 1110110, 1111111],
    [2003403, 2004404, 2005405, 2009409, 2010410, 2011411, -2003409, -2403009, -2004410, -2404010,
      -2005411, -2405011],
    [2003303, 2004304, 2005305, 2009309, 2010310, 2011311, -2003309, -2303009, -2004310, -2304010,
      -2005311, -2305011],
    [2003203, 2004204, 2005205, 2009209, 2010210, 2011211, -2003209, -2203009, -2004210, -2204010,
      -2005211, -2205011],
    [2003103, 2004104, 2005105, 2009109, 2010110, 2011111, -2003109, -2103009, -2004110, -2104010,
      -2005111, -2105011],
    [-1913999, 1003003, 1004004, 1005005, 1009009, 1010010, 1011011, -2003009, -2004010, -2005011]]]

/-- src/absolute_pose/modules/gpnp4/init.cpp l.36-134 -/
def Gpnp4.init (a n m k l : Fin 12 → ℝ) (c0 c1 c2 c3 : Vec3) : GMat ℝ :=
  gInit 22 Gpnp4.initTerms (gVars [a, n, m, k, l] ![c0, c1, c2, c3])

/-- The entries from column 59 on (src/absolute_pose/modules/gpnp5/init.cpp l.62-187). -/
def Gpnp5.initTerms : List (List (List ℤ)) := [
  [
    [-2500503, 1501501, 1504504, 1502502, 1505505, 1500500, 1503503, -2501504, -2502505],
    [2401501, -2401504, -2501404, 2404504, 2402502, -2402505, -2502405, 2405505, 2400500,
      -2400503, -2500403, 2403503],
    [-2400403, 1401401, 1404404, 1402402, 1405405, 1400400, 1403403, -2401404, -2402405],
    [2301501, -2301504, -2501304, 2304504, 2302502, -2302505, -2502305, 2305505, 2300500,
      -2300503, -2500303, 2303503],
    [2301401, -2301404, -2401304, 2304404, 2302402, -2302405, -2402305, 2305405, 2300400,
      -2300403, -2400303, 2303403],
    [-2300303, 1301301, 1304304, 1302302, 1305305, 1300300, 1303303, -2301304, -2302305],
    [2201501, -2201504, -2501204, 2204504, 2202502, -2202505, -2502205, 2205505, 2200500,
      -2200503, -2500203, 2203503],
    [2201401, -2201404, -2401204, 2204404, 2202402, -2202405, -2402205, 2205405, 2200400,
      -2200403, -2400203, 2203403],
    [2201301, -2201304, -2301204, 2204304, 2202302, -2202305, -2302205, 2205305, 2200300,
      -2200303, -2300203, 2203303],
    [-2200203, 1201201, 1204204, 1202202, 1205205, 1200200, 1203203, -2201204, -2202205],
    [-2501104, 2104504, 2102502, -2102505, -2502105, 2105505, 2100500, -2100503, -2500103,
      2103503, 2101501, -2101504],
    [-2401104, 2104404, 2102402, -2102405, -2402105, 2105405, 2100400, -2100403, -2400103,
      2103403, 2101401, -2101404],
    [-2301104, 2104304, 2102302, -2102305, -2302105, 2105305, 2100300, -2100303, -2300103,
      2103303, 2101301, -2101304],
    [-2201104, 2104204, 2102202, -2102205, -2202105, 2105205, 2100200, -2100203, -2200103,
      2103203, 2101201, -2101204],
    [-2100103, 1101101, 1104104, 1102102, 1105105, 1100100, 1103103, -2101104, -2102105],
    [2000500, -2000503, -2500003, 2003503, 2001501, -2001504, -2501004, 2004504, 2002502,
      -2002505, -2502005, 2005505],
    [2000400, -2000403, -2400003, 2003403, 2001401, -2001404, -2401004, 2004404, 2002402,
      -2002405, -2402005, 2005405],
    [2000300, -2000303, -2300003, 2003303, 2001301, -2001304, -2301004, 2004304, 2002302,
      -2002305, -2302005, 2005305],
    [2000200, -2000203, -2200003, 2003203, 2001201, -2001204, -2201004, 2004204, 2002202,
      -2002205, -2202005, 2005205],
    [2000100, -2000103, -2100003, 2003103, 2001101, -2001104, -2101004, 2004104, 2002102,
      -2002105, -2102005, 2005105],
    [-1901999, 1004004, 1002002, -2002005, 1005005, 1000000, -2000003, 1003003, 1001001, -2001004]],
  [
    [1501501, 1502502, 1506506, 1507507, 1508508, 1500500, -2500506, -2501507, -2502508],
    [2401501, 2402502, -2400506, -2500406, 2406506, -2401507, -2501407, 2407507, -2402508,
      -2502408, 2408508, 2400500],
    [1401401, 1402402, 1406406, 1407407, 1408408, 1400400, -2400406, -2401407, -2402408],
    [2301501, 2302502, -2300506, -2500306, 2306506, -2301507, -2501307, 2307507, -2302508,
      -2502308, 2308508, 2300500],
    [2301401, 2302402, -2300406, -2400306, 2306406, -2301407, -2401307, 2307407, -2302408,
      -2402308, 2308408, 2300400],
    [1301301, 1302302, 1306306, 1307307, 1308308, 1300300, -2300306, -2301307, -2302308],
    [2201501, 2202502, -2200506, -2500206, 2206506, -2201507, -2501207, 2207507, -2202508,
      -2502208, 2208508, 2200500],
    [2201401, 2202402, -2200406, -2400206, 2206406, -2201407, -2401207, 2207407, -2202408,
      -2402208, 2208408, 2200400],
    [2201301, 2202302, -2200306, -2300206, 2206306, -2201307, -2301207, 2207307, -2202308,
      -2302208, 2208308, 2200300],
    [1201201, 1202202, 1206206, 1207207, 1208208, 1200200, -2200206, -2201207, -2202208],
    [2102502, -2100506, -2500106, 2106506, -2101507, -2501107, 2107507, -2102508, -2502108,
      2108508, 2100500, 2101501],
    [2102402, -2100406, -2400106, 2106406, -2101407, -2401107, 2107407, -2102408, -2402108,
      2108408, 2100400, 2101401],
    [2102302, -2100306, -2300106, 2106306, -2101307, -2301107, 2107307, -2102308, -2302108,
      2108308, 2100300, 2101301],
    [2102202, -2100206, -2200106, 2106206, -2101207, -2201107, 2107207, -2102208, -2202108,
      2108208, 2100200, 2101201],
    [1101101, 1102102, 1106106, 1107107, 1108108, 1100100, -2100106, -2101107, -2102108],
    [-2000506, 2000500, 2001501, 2002502, -2500006, 2006506, -2001507, -2501007, 2007507,
      -2002508, -2502008, 2008508],
    [2000400, 2001401, 2002402, -2400006, 2006406, -2001407, -2401007, 2007407, -2002408,
      -2402008, 2008408, -2000406],
    [-2000306, 2000300, 2001301, 2002302, -2300006, 2006306, -2001307, -2301007, 2007307,
      -2002308, -2302008, 2008308],
    [2000200, 2001201, 2002202, -2200006, 2006206, -2001207, -2201007, 2007207, -2002208,
      -2202008, 2008208, -2000206],
    [2000100, 2001101, 2002102, -2100006, 2006106, -2001107, -2101007, 2007107, -2002108,
      -2102008, 2008108, -2000106],
    [-1902999, 1002002, -2000006, 1006006, -2001007, 1007007, -2002008, 1008008, 1000000, 1001001]],
  [
    [1501501, 1502502, 1509509, 1510510, 1511511, 1500500, -2500509, -2501510, -2502511],
    [2401501, 2402502, -2400509, -2500409, 2409509, -2401510, -2501410, 2410510, -2402511,
      -2502411, 2411511, 2400500],
    [1401401, 1402402, 1409409, 1410410, 1411411, 1400400, -2400409, -2401410, -2402411],
    [2301501, 2302502, -2300509, -2500309, 2309509, -2301510, -2501310, 2310510, -2302511,
      -2502311, 2311511, 2300500],
    [2301401, 2302402, -2300409, -2400309, 2309409, -2301410, -2401310, 2310410, -2302411,
      -2402311, 2311411, 2300400],
    [-2300309, 1301301, 1302302, 1309309, 1310310, 1311311, 1300300, -2301310, -2302311],
    [-2200509, 2201501, 2202502, -2500209, 2209509, -2201510, -2501210, 2210510, -2202511,
      -2502211, 2211511, 2200500],
    [-2200409, 2201401, 2202402, -2400209, 2209409, -2201410, -2401210, 2210410, -2202411,
      -2402211, 2211411, 2200400],
    [-2200309, 2201301, 2202302, -2300209, 2209309, -2201310, -2301210, 2210310, -2202311,
      -2302211, 2211311, 2200300],
    [1201201, 1202202, 1209209, 1210210, 1211211, 1200200, -2201210, -2202211, -2200209],
    [-2100509, 2102502, -2500109, 2109509, -2101510, -2501110, 2110510, -2102511, -2502111,
      2111511, 2100500, 2101501],
    [-2100409, 2102402, -2400109, 2109409, -2101410, -2401110, 2110410, -2102411, -2402111,
      2111411, 2100400, 2101401],
    [-2100309, 2102302, -2300109, 2109309, -2101310, -2301110, 2110310, -2102311, -2302111,
      2111311, 2100300, 2101301],
    [-2100209, -2200109, 2102202, 2109209, -2101210, -2201110, 2110210, -2102211, -2202111,
      2111211, 2100200, 2101201],
    [1101101, 1102102, 1109109, 1110110, 1111111, 1100100, -2101110, -2102111, -2100109],
    [-2000509, 2000500, 2001501, 2002502, -2500009, 2009509, -2001510, -2501010, 2010510,
      -2002511, -2502011, 2011511],
    [-2000409, 2000400, 2001401, 2002402, -2400009, 2009409, -2001410, -2401010, 2010410,
      -2002411, -2402011, 2011411],
    [2000300, 2001301, 2002302, 2009309, -2001310, -2301010, 2010310, -2002311, -2302011, 2011311,
      -2300009, -2000309],
    [2000200, 2001201, 2002202, 2009209, -2001210, -2201010, 2010210, -2002211, -2202011, 2011211,
      -2200009, -2000209],
    [-2000109, 2000100, 2001101, 2002102, 2009109, -2001110, -2101010, 2010110, -2002111,
      -2102011, 2011111, -2100009],
    [-1903999, 1002002, -2000009, 1009009, -2001010, 1010010, -2002011, 1011011, 1000000, 1001001]],
  [
    [1504504, 1505505, 1506506, 1507507, 1508508, 1503503, -2503506, -2504507, -2505508],
    [2404504, 2405505, 2406506, 2407507, 2408508, -2404507, -2504407, -2403506, -2503406,
      -2405508, -2505408, 2403503],
    [1404404, 1405405, 1406406, 1407407, 1408408, 1403403, -2403406, -2404407, -2405408],
    [2304504, 2305505, 2306506, 2307507, 2308508, -2305508, -2304507, -2504307, -2303506,
      -2503306, -2505308, 2303503],
    [2304404, 2305405, 2306406, 2307407, 2308408, -2305408, -2304407, -2404307, -2303406,
      -2403306, -2405308, 2303403],
    [1304304, 1305305, 1306306, 1307307, 1308308, 1303303, -2305308, -2303306, -2304307],
    [2204504, 2205505, 2206506, 2207507, 2208508, -2204507, -2504207, -2205508, -2203506,
      -2503206, -2505208, 2203503],
    [2204404, 2205405, 2206406, 2207407, 2208408, -2204407, -2404207, -2205408, -2203406,
      -2403206, -2405208, 2203403],
    [2204304, 2205305, 2206306, 2207307, 2208308, -2305208, -2204307, -2304207, -2205308,
      -2203306, -2303206, 2203303],
    [1204204, 1205205, 1206206, 1207207, 1208208, 1203203, -2203206, -2204207, -2205208],
    [2104504, 2105505, 2106506, 2107507, 2108508, -2504107, -2105508, -2103506, -2503106,
      -2104507, -2505108, 2103503],
    [2104404, 2105405, 2106406, 2107407, 2108408, -2404107, -2105408, -2103406, -2403106,
      -2104407, -2405108, 2103403],
    [2104304, 2105305, 2106306, 2107307, 2108308, -2305108, -2304107, -2105308, -2103306,
      -2303106, -2104307, 2103303],
    [2104204, 2105205, 2106206, 2107207, 2108208, -2204107, -2105208, -2205108, -2103206,
      -2203106, -2104207, 2103203],
    [1104104, 1105105, 1106106, 1107107, 1108108, 1103103, -2103106, -2104107, -2105108],
    [-2003506, 2003503, 2004504, 2005505, 2006506, 2007507, 2008508, -2503006, -2004507, -2504007,
      -2005508, -2505008],
    [2003403, 2004404, 2005405, 2006406, 2007407, 2008408, -2403006, -2004407, -2404007, -2005408,
      -2405008, -2003406],
    [2003303, -2305008, 2004304, 2005305, 2006306, 2007307, 2008308, -2303006, -2004307, -2304007,
      -2005308, -2003306],
    [2003203, 2004204, 2005205, 2006206, 2007207, 2008208, -2203006, -2004207, -2204007, -2005208,
      -2205008, -2003206],
    [2003103, 2004104, 2005105, 2006106, 2007107, 2008108, -2103006, -2004107, -2104007, -2005108,
      -2105008, -2003106],
    [-1912999, 1004004, 1005005, 1006006, 1007007, 1008008, -2003006, -2004007, 1003003, -2005008]],
  [
    [1504504, 1505505, 1509509, 1510510, 1511511, 1503503, -2503509, -2504510, -2505511],
    [2404504, 2405505, 2409509, 2410510, 2411511, -2403509, -2503409, -2404510, -2504410,
      -2405511, -2505411, 2403503],
    [1404404, 1405405, 1409409, 1410410, 1411411, 1403403, -2403409, -2404410, -2405411],
    [2304504, 2305505, 2309509, 2310510, 2311511, -2303509, -2503309, -2304510, -2504310,
      -2305511, -2505311, 2303503],
    [2304404, 2305405, 2309409, 2310410, 2311411, -2303409, -2403309, -2304410, -2404310,
      -2305411, -2405311, 2303403],
    [1304304, 1305305, 1309309, 1310310, 1311311, 1303303, -2303309, -2304310, -2305311],
    [2204504, 2205505, 2209509, 2210510, 2211511, -2203509, -2503209, -2204510, -2504210,
      -2205511, -2505211, 2203503],
    [2204404, 2205405, 2209409, 2210410, 2211411, -2203409, -2403209, -2204410, -2404210,
      -2205411, -2405211, 2203403],
    [2204304, 2205305, 2209309, 2210310, 2211311, -2203309, -2303209, -2204310, -2304210,
      -2205311, -2305211, 2203303],
    [1204204, 1205205, 1209209, 1210210, 1211211, 1203203, -2203209, -2204210, -2205211],
    [2104504, 2105505, 2109509, 2110510, 2111511, -2103509, -2503109, -2104510, -2504110,
      -2105511, -2505111, 2103503],
    [2104404, 2105405, 2109409, 2110410, 2111411, -2103409, -2403109, -2104410, -2404110,
      -2105411, -2405111, 2103403],
    [2104304, 2105305, 2109309, 2110310, 2111311, -2103309, -2303109, -2104310, -2304110,
      -2105311, -2305111, 2103303],
    [2104204, 2105205, 2109209, 2110210, 2111211, -2103209, -2203109, -2104210, -2204110,
      -2105211, -2205111, 2103203],
    [1104104, 1105105, 1109109, 1110110, 1111111, 1103103, -2103109, -2104110, -2105111],
    [2003503, 2004504, 2005505, 2009509, 2010510, 2011511, -2003509, -2503009, -2004510, -2504010,
      -2005511, -2505011],
    [2003403, 2004404, 2005405, 2009409, 2010410, 2011411, -2003409, -2403009, -2004410, -2404010,
      -2005411, -2405011],
    [2003303, 2004304, 2005305, 2009309, 2010310, 2011311, -2003309, -2303009, -2004310, -2304010,
      -2005311, -2305011],
    [2003203, 2004204, 2005205, 2009209, 2010210, 2011211, -2003209, -2203009, -2004210, -2204010,
      -2005211, -2205011],
    [2003103, 2004104, 2005105, 2009109, 2010110, 2011111, -2003109, -2103009, -2004110, -2104010,
      -2005111, -2105011],
    [-1913999, 1004004, 1005005, 1009009, 1010010, 1011011, 1003003, -2003009, -2004010, -2005011]],
  [
    [1506506, 1507507, 1508508, 1509509, 1510510, 1511511, -2508511, -2506509, -2507510],
    [2406506, 2407507, 2408508, 2409509, 2410510, 2411511, -2406509, -2506409, -2407510, -2507410,
      -2408511, -2508411],
    [1406406, 1407407, 1408408, 1409409, 1410410, 1411411, -2408411, -2406409, -2407410],
    [2306506, 2307507, 2308508, 2309509, 2310510, 2311511, -2307510, -2306509, -2506309, -2507310,
      -2308511, -2508311],
    [2306406, 2307407, 2308408, 2309409, 2310410, 2311411, -2307410, -2407310, -2306409, -2406309,
      -2308411, -2408311],
    [1306306, 1307307, 1308308, 1309309, 1310310, 1311311, -2308311, -2306309, -2307310],
    [2206506, 2207507, 2208508, 2209509, 2210510, 2211511, -2206509, -2506209, -2207510, -2507210,
      -2208511, -2508211],
    [2206406, 2207407, 2208408, 2209409, 2210410, 2211411, -2407210, -2206409, -2406209, -2207410,
      -2208411, -2408211],
    [2206306, 2207307, 2208308, 2209309, 2210310, 2211311, -2307210, -2206309, -2306209, -2207310,
      -2208311, -2308211],
    [1206206, 1207207, 1208208, 1209209, 1210210, 1211211, -2208211, -2206209, -2207210],
    [2106506, 2107507, 2108508, 2109509, 2110510, 2111511, -2106509, -2506109, -2107510, -2507110,
      -2108511, -2508111],
    [2106406, 2107407, 2108408, 2109409, 2110410, 2111411, -2407110, -2106409, -2406109, -2107410,
      -2108411, -2408111],
    [2106306, 2107307, 2108308, 2109309, 2110310, 2111311, -2307110, -2106309, -2306109, -2107310,
      -2108311, -2308111],
    [2106206, 2107207, 2108208, 2109209, 2110210, 2111211, -2106209, -2206109, -2107210, -2207110,
      -2108211, -2208111],
    [1106106, 1107107, 1108108, 1109109, 1110110, 1111111, -2108111, -2106109, -2107110],
    [2006506, 2007507, 2008508, 2009509, 2010510, 2011511, -2008511, -2508011, -2006509, -2506009,
      -2007510, -2507010],
    [2006406, 2007407, 2008408, 2009409, 2010410, 2011411, -2008411, -2408011, -2006409, -2406009,
      -2007410, -2407010],
    [2006306, 2007307, 2008308, 2009309, 2010310, 2011311, -2008311, -2308011, -2006309, -2306009,
      -2007310, -2307010],
    [2006206, 2007207, 2008208, 2009209, 2010210, 2011211, -2008211, -2208011, -2006209, -2206009,
      -2007210, -2207010],
    [2006106, 2007107, 2008108, 2009109, 2010110, 2011111, -2008111, -2108011, -2006109, -2106009,
      -2007110, -2107010],
    [-1923999, 1006006, 1007007, 1008008, 1009009, 1010010, 1011011, -2006009, -2007010, -2008011]]]

/-- src/absolute_pose/modules/gpnp5/init.cpp l.36-188 -/
def Gpnp5.init (a n m k l p : Fin 12 → ℝ) (c0 c1 c2 c3 : Vec3) : GMat ℝ :=
  gInit 59 Gpnp5.initTerms (gVars [a, n, m, k, l, p] ![c0, c1, c2, c3])

end OpenGV
