import Mathlib.Data.Int.Basic

/-!
# The initial rows of `fivept_kneip`

Transcribed by `tools/gen_kneip_init.py` from src/relative_pose/modules/fivept_kneip/init.cpp.
-/

namespace OpenGV.FiveKneip

/-- Columns 0 to 19. -/
def initTerms0 : List (List ℕ) := [
  [2100212, 1100221, 1001212, 2001122, 2010221, 1010122],
  [2100112, 1100121, 1001211, 2001121, 2010211, 1010112],
  [2100202, 1100220, 1001202, 2001022, 2010220, 1010022],
  [2100102, 2100012, 1100120, 1100021, 1001201, 1001210, 2001120, 2001021, 2010201, 1010102,
    2010210, 1010012],
  [2100002, 1100020, 1001200, 2001020, 2010200, 1010002],
  [1200212, 2200221, 2002212, 1002122, 1020221, 2020122],
  [1200202, 2200220, 2002202, 1002022, 1020220, 2020022],
  [1100212, 2100221, 2001212, 1001122, 1010221, 2010122],
  [1100112, 2100121, 2001211, 1001121, 1010211, 2010112],
  [],
  [2100201, 1100210, 1100012, 2100021, 1001102, 2001210, 2001012, 1001120, 1010201, 2010102,
    2010120, 1010021],
  [2100101, 1100110, 1001101, 2001011, 2010110, 1010011],
  [2100001, 1100010, 1001100, 2001010, 2010100, 1010001],
  [2200212, 1200221, 1002212, 2002122, 2020221, 1020122],
  [1200112, 2200121, 2002211, 1002121, 1020211, 2020112],
  [1200201, 1200102, 2200210, 2200120, 2002201, 2002102, 1002012, 1002021, 1020210, 2020012,
    1020120, 2020021],
  [2200112, 1200121, 1002211, 2002121, 2020211, 1020112],
  [],
  [1200101, 2200110, 2002101, 1002011, 1020110, 2020011],
  [1100202, 2100220, 2001202, 1001022, 1010220, 2010022]]
/-- Columns 20 to 39. -/
def initTerms1 : List (List ℕ) := [
  [1100201, 1100102, 2100210, 2100120, 2001201, 2001102, 1001012, 1001021, 1010210, 2010012,
    1010120, 2010021],
  [1100101, 2100110, 2001101, 1001011, 1010110, 2010011],
  [1100002, 2100020, 2001200, 1001020, 1010200, 2010002],
  [1100001, 2100010, 2001100, 1001010, 1010100, 2010001],
  [],
  [2200202, 1200220, 1002202, 2002022, 2020220, 1020022],
  [2200201, 1200210, 1200012, 2200021, 1002102, 2002210, 2002012, 1002120, 1020201, 2020102,
    2020120, 1020021],
  [1200002, 2200020, 2002200, 1002020, 1020200, 2020002],
  [2200102, 2200012, 1200120, 1200021, 1002201, 1002210, 2002120, 2002021, 2020201, 1020102,
    2020210, 1020012],
  [2200101, 1200110, 1002101, 2002011, 2020110, 1020011],
  [1200001, 2200010, 2002100, 1002010, 1020100, 2020001],
  [],
  [],
  [2200002, 1200020, 1002200, 2002020, 2020200, 1020002],
  [2200001, 1200010, 1002100, 2002010, 2020100, 1020001],
  [],
  [],
  [],
  [],
  [2101221, 1101122, 1110212, 2110122, 2011212, 1011221]]
/-- Columns 40 to 59. -/
def initTerms2 : List (List ℕ) := [
  [2101211, 1101112, 1110211, 2110121, 2011112, 1011121],
  [2101220, 1101022, 1110202, 2110022, 2011202, 1011220],
  [2101201, 1101102, 2101210, 1101012, 1110201, 1110210, 2110120, 2110021, 2011102, 2011012,
    1011120, 1011021],
  [2101200, 1101002, 1110200, 2110020, 2011002, 1011020],
  [2201212, 1201221, 1102212, 2102122, 2210212, 1210221, 1012212, 2012122, 2120221, 1120122,
    2021221, 1021122],
  [2201202, 1201220, 1102202, 2102022, 2210202, 1210220, 1012202, 2012022, 2120220, 1120022,
    2021220, 1021022],
  [1201212, 2201122, 2102212, 1102221, 2210221, 1210122, 2012221, 1012122, 2120212, 1120221,
    1021212, 2021122],
  [1201211, 2201112, 1102211, 2102112, 2210211, 1210121, 1012112, 2012121, 2120211, 1120121,
    1021112, 2021121],
  [2201102, 1201210, 1102201, 2102012, 2210201, 1210120, 1012102, 2012021, 2120210, 1120021,
    1021012, 2021120],
  [2202221, 1202122, 1220212, 2220122, 2022212, 1022221],
  [2202211, 1202112, 1220211, 2220121, 2022112, 1022121],
  [1201202, 2201022, 2102202, 1102220, 2210220, 1210022, 2012220, 1012022, 2120202, 1120220,
    1021202, 2021022],
  [1201201, 2201012, 2102102, 1102210, 2210210, 1210021, 1012012, 2012120, 2120201, 1120120,
    1021102, 2021021],
  [1201200, 2201002, 1102200, 2102002, 2210200, 1210020, 1012002, 2012020, 2120200, 1120020,
    1021002, 2021020],
  [2202220, 1202022, 1220202, 2220022, 2022202, 1022220],
  [2202201, 1202102, 2202210, 1202012, 1220201, 1220210, 2220120, 2220021, 2022102, 2022012,
    1022120, 1022021],
  [2202200, 1202002, 1220200, 2220020, 2022002, 1022020],
  [1211212, 2211221, 2112212, 1112122, 1121221, 2121122],
  [1211202, 2211220, 2112202, 1112022, 1121220, 2121022],
  [1212221, 2212122, 2221212, 1221122, 1122212, 2122221]]
/-- Columns 60 to 79. -/
def initTerms3 : List (List ℕ) := [
  [1212220, 2212022, 2221202, 1221022, 1122202, 2122220],
  [1101221, 2101122, 2110212, 1110122, 1011212, 2011221],
  [1101211, 2101112, 2110211, 1110121, 1011112, 2011121],
  [],
  [1101201, 2101102, 2101120, 1101021, 1110102, 2110210, 2110012, 1110120, 2011201, 1011210,
    1011012, 2011021],
  [2101110, 1101011, 1110101, 2110011, 2011101, 1011110],
  [2101100, 1101001, 1110100, 2110010, 2011001, 1011010],
  [2201221, 1201122, 2102221, 1102122, 1210212, 2210122, 2012212, 1012221, 1120212, 2120122,
    2021212, 1021221],
  [2201211, 1201121, 1102112, 2102121, 1210211, 2210112, 1012211, 2012112, 1120112, 2120121,
    2021211, 1021121],
  [2201201, 1201120, 1102102, 2102021, 2210102, 1210210, 1012201, 2012012, 1120012, 2120120,
    2021210, 1021021],
  [1202221, 2202122, 2220212, 1220122, 1022212, 2022221],
  [1201112, 2201121, 2102211, 1102121, 1210112, 2210121, 2012211, 1012121, 1120211, 2120112,
    1021211, 2021112],
  [],
  [2201101, 1201110, 1102101, 2102011, 2210101, 1210110, 1012101, 2012011, 2120110, 1120011,
    2021110, 1021011],
  [1202211, 2202112, 2220211, 1220121, 1022112, 2022121],
  [],
  [1201102, 2201021, 2102201, 1102120, 1210012, 2210120, 2012210, 1012021, 2120102, 1120210,
    1021201, 2021012],
  [1201101, 2201011, 2102101, 1102110, 2210110, 1210011, 2012110, 1012011, 2120101, 1120110,
    1021101, 2021011],
  [1201100, 2201001, 1102100, 2102001, 2210100, 1210010, 1012001, 2012010, 2120100, 1120010,
    1021001, 2021010],
  [1202201, 2202102, 2202120, 1202021, 1220102, 2220210, 2220012, 1220120, 2022201, 1022210,
    1022012, 2022021]]
/-- Columns 80 to 99. -/
def initTerms4 : List (List ℕ) := [
  [2202110, 1202011, 1220101, 2220011, 2022101, 1022110],
  [1202001, 2202100, 1220100, 2220010, 2022001, 1022010],
  [2211212, 1211221, 1112212, 2112122, 2121221, 1121122],
  [1211112, 2211121, 2112211, 1112121, 1121211, 2121112],
  [1211201, 1211102, 2211210, 2211120, 2112201, 2112102, 1112012, 1112021, 1121210, 2121012,
    1121120, 2121021],
  [2212221, 1212122, 1221212, 2221122, 2122212, 1122221],
  [1212211, 2212112, 2221211, 1221121, 1122112, 2122121],
  [1212210, 2212012, 1212120, 2212021, 2221201, 2221102, 1221012, 1221021, 1122201, 1122102,
    2122210, 2122120],
  [],
  [2211112, 1211121, 1112211, 2112121, 2121211, 1121112],
  [],
  [1211101, 2211110, 2112101, 1112011, 1121110, 2121011],
  [2212211, 1212112, 1221211, 2221121, 2122112, 1122121],
  [],
  [1212110, 2212011, 2221101, 1221011, 1122101, 2122110],
  [],
  [],
  [1101220, 2101022, 2110202, 1110022, 1011202, 2011220],
  [1101210, 2101012, 1101120, 2101021, 2110201, 2110102, 1110012, 1110021, 1011201, 1011102,
    2011210, 2011120],
  [1101110, 2101011, 2110101, 1110011, 1011101, 2011110]]
/-- Columns 100 to 119. -/
def initTerms5 : List (List ℕ) := [
  [1101200, 2101002, 2110200, 1110020, 1011002, 2011020],
  [1101100, 2101001, 2110100, 1110010, 1011001, 2011010],
  [],
  [2201220, 1201022, 2102220, 1102022, 1210202, 2210022, 2012202, 1012220, 1120202, 2120022,
    2021202, 1021220],
  [2201210, 1201021, 1102012, 2102120, 1210201, 2210012, 2012102, 1012210, 1120102, 2120021,
    2021201, 1021120],
  [2201200, 1201020, 1102002, 2102020, 1210200, 2210002, 1012200, 2012002, 1120002, 2120020,
    2021200, 1021020],
  [1202220, 2202022, 2220202, 1220022, 1022202, 2022220],
  [1201012, 2201120, 2102210, 1102021, 1210102, 2210021, 2012201, 1012120, 1120201, 2120012,
    2021102, 1021210],
  [2201110, 1201011, 2102110, 1102011, 1210101, 2210011, 2012101, 1012110, 1120101, 2120011,
    2021101, 1021110],
  [2201100, 1201010, 1102001, 2102010, 1210100, 2210001, 1012100, 2012001, 1120001, 2120010,
    2021100, 1021010],
  [1202210, 2202012, 1202120, 2202021, 2220201, 2220102, 1220012, 1220021, 1022201, 1022102,
    2022210, 2022120],
  [1202110, 2202011, 2220101, 1220011, 1022101, 2022110],
  [1201002, 2201020, 2102200, 1102020, 1210002, 2210020, 2012200, 1012020, 1120200, 2120002,
    1021200, 2021002],
  [1201001, 2201010, 2102100, 1102010, 1210001, 2210010, 2012100, 1012010, 1120100, 2120001,
    1021100, 2021001],
  [],
  [1202200, 2202002, 2220200, 1220020, 1022002, 2022020],
  [1202100, 2202001, 2220100, 1220010, 1022001, 2022010],
  [],
  [2211202, 1211220, 1112202, 2112022, 2121220, 1121022],
  [2211201, 1211210, 1211012, 2211021, 1112102, 2112210, 2112012, 1112120, 1121201, 2121102,
    2121120, 1121021]]
/-- Columns 120 to 137. -/
def initTerms6 : List (List ℕ) := [
  [1211002, 2211020, 2112200, 1112020, 1121200, 2121002],
  [2212220, 1212022, 1221202, 2221022, 2122202, 1122220],
  [1212201, 2212102, 2212120, 1212021, 1221102, 2221210, 2221012, 1221120, 2122201, 1122210,
    1122012, 2122021],
  [1212200, 2212002, 2221200, 1221020, 1122002, 2122020],
  [],
  [2211102, 2211012, 1211120, 1211021, 1112201, 1112210, 2112120, 2112021, 2121201, 1121102,
    2121210, 1121012],
  [2211101, 1211110, 1112101, 2112011, 2121110, 1121011],
  [1211001, 2211010, 2112100, 1112010, 1121100, 2121001],
  [2212201, 1212102, 2212210, 1212012, 1221201, 1221210, 2221120, 2221021, 2122102, 2122012,
    1122120, 1122021],
  [2212110, 1212011, 1221101, 2221011, 2122101, 1122110],
  [1212100, 2212001, 2221100, 1221010, 1122001, 2122010],
  [],
  [],
  [2211002, 1211020, 1112200, 2112020, 2121200, 1121002],
  [2211001, 1211010, 1112100, 2112010, 2121100, 1121001],
  [],
  [2212200, 1212002, 1221200, 2221020, 2122002, 1122020],
  [2212100, 1212001, 1221100, 2221010, 2122001, 1122010]]

/-- `initEpncpRowR` (l.41-154): for each column the terms that are added. The number `1aijbkl` is
`c123_1[a](i,j)*c123_2[b](k,l)`, and `2aijbkl` is the same with a minus. -/
def initTerms : List (List ℕ) :=
  initTerms0 ++ initTerms1 ++ initTerms2 ++ initTerms3 ++ initTerms4 ++ initTerms5 ++ initTerms6

/-- `initMatrix` (l.162-226): the entries `(column, value)` of the rows 10 to 29. -/
def constRows : List (List (ℕ × ℤ)) := [
  [(169, 1), (177, 1), (186, 1), (196, -1)],
  [(166, 1), (174, 1), (183, 1)],
  [(163, 1), (171, 1), (180, 1)],
  [(151, 1), (156, 1), (162, 1), (196, -1)],
  [(148, 1), (153, 1), (159, 1)],
  [(142, 1), (144, 1), (147, 1), (196, -1)],
  [(154, -1), (158, 1), (193, -1)],
  [(172, 1), (179, -1), (190, -1)],
  [(175, -1), (182, 1), (187, -1)],
  [(149, -1), (152, 1), (195, -1)],
  [(164, 1), (170, -1), (192, -1)],
  [(167, -1), (173, 1), (189, -1)],
  [(147, 1), (162, 1), (186, 1), (196, -1)],
  [(146, 1), (161, 1), (185, 1)],
  [(145, 1), (160, 1), (184, 1)],
  [(144, 1), (156, 1), (177, 1), (196, -1)],
  [(143, 1), (155, 1), (176, 1)],
  [(168, 1), (181, -1), (188, -1)],
  [(150, 1), (157, -1), (194, -1)],
  [(165, -1), (178, 1), (191, -1)]]

end OpenGV.FiveKneip
