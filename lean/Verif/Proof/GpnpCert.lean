import Verif.Proof.GpnpMod
import Verif.Model.Gpnp1Table
import Verif.Model.Gpnp2Table
import Verif.Model.Gpnp3Table
import Verif.Model.Gpnp4Table
import Verif.Model.Gpnp5Table
import Mathlib.Tactic.NormNum.Prime

/-!
# Certified runs of the programs of GPnP

Examples for the theorems on the programs: data for which no division by zero occurs.
-/

namespace OpenGV

theorem prime_65537 : Nat.Prime 65537 := by norm_num

def Gpnp1.vecsEx : List (List ℤ) := [
  [7, -4, -9, -6, -9, 9, 2, 6, 1, -3, 3, -3],
  [-2, 1, 3, 3, 3, -3, -1, -3, 0, 3, 0, 0]]

def Gpnp1.ptsEx : List (List ℤ) := [[3, -2, -3], [0, -3, 3], [0, 0, 1], [3, 3, -3]]

def Gpnp1.coefEx : List ℤ := [2]

def Gpnp1.hintsEx : List ℕ := [
  44404055434, 7929335457, 14571]

def Gpnp1.stateEx : List ℕ := [
  0x1d80000fe9300000041,
  0xc40000ff6b0000001a,
  0xa00000ff6b00000023] ++
  List.replicate 2 0

theorem Gpnp1.runEx : ∃ G',
    gRun (gInit 0 initTerms (gVars (vecsEx.map intVec) (intPts ptsEx))) compute = some G' ∧
      ∀ q ∈ [((3 : ℕ), (1 : ℕ))], G' q.1 q.2 ≠ 0 :=
  modCheck_spec (n := 3) (S := stateEx) (hs := hintsEx) prime_65537 (by norm_num) (by norm_num)
    (by decide +kernel)

def Gpnp2.vecsEx : List (List ℤ) := [
  [-7, -8, 9, 10, 5, 9, -13, 3, -4, -10, -8, -9],
  [3, 3, -3, -3, -3, -1, 3, -2, 2, 3, 2, 3],
  [-1, -1, 1, -2, 1, -3, 1, 2, -2, 0, 2, 0]]

def Gpnp2.ptsEx : List (List ℤ) := [[1, 0, 1], [-1, -3, 3], [-3, -1, 0], [-1, 0, 0]]

def Gpnp2.coefEx : List ℤ := [3, 1]

def Gpnp2.hintsEx : List ℕ := [
  52358548387, 3123713862, 64113, 6247421766, 64113, 10896, 6247457939, 40998, 10896, 40998,
  11425314770, 40998, 30674]

def Gpnp2.stateEx : List ℕ := [
  0x1b90000fe99000000120000004c0000ffe500000015,
  0x1340000ff1100000078000000320000ffc500000016,
  0x1480000ff290000001e000000250000ffef0000000b,
  0x2ad0000fe9b0000ff590000002e0000002c0000000b,
  0x36b0000fdff0000ff2b0000004d0000003a0000000e] ++
  List.replicate 5 0

theorem Gpnp2.runEx : ∃ G',
    gRun (gInit 0 initTerms (gVars (vecsEx.map intVec) (intPts ptsEx))) compute = some G' ∧
      ∀ q ∈ [((8 : ℕ), (4 : ℕ)), (7, 3)], G' q.1 q.2 ≠ 0 :=
  modCheck_spec (n := 6) (S := stateEx) (hs := hintsEx) prime_65537 (by norm_num) (by norm_num)
    (by decide +kernel)

def Gpnp3.vecsEx : List (List ℤ) := [
  [-4, -5, -5, 0, 5, -3, 7, -5, 1, -1, -3, 5],
  [-2, 1, 1, -2, -1, 1, 0, 2, 1, -3, 1, -3],
  [3, 0, -1, 1, -2, -2, 2, 0, 1, 3, 1, 0],
  [0, 2, 3, -2, -2, 2, -2, 3, 1, 0, 2, -3]]

def Gpnp3.ptsEx : List (List ℤ) := [[-3, -1, 3], [-3, 3, 3], [-1, 0, 1], [2, 0, 2]]

def Gpnp3.coefEx : List ℤ := [-2, -1, 3]

def Gpnp3.hintsEx : List ℕ := [
  52358552690, 7635765021, 30296, 36269202826, 30296, 60229, 31767678015, 60229, 19519, 30296,
  60229, 19519, 7929351231, 30296, 60229, 19519, 58133, 7562, 30296, 60229, 19519, 31767718725,
  60229, 7562, 30296, 60229, 19519, 58133, 21399, 7562, 30296, 60229, 19519, 7929362008, 30296,
  60229, 7562, 30296, 60229, 19519, 40007, 21399, 7562, 30296, 60229, 19519, 40007, 22438482437,
  19519, 40007, 4613, 60956908615, 4613, 62711, 40007, 4613, 62711, 41950384645, 4613, 62711,
  35144, 62711, 35144, 4613, 62711, 35144, 4837145096, 62711, 35144, 64008]

def Gpnp3.stateEx : List ℕ := [
  0x680000ffd90000ffc50000ff9d000000040000000800000010000000090000001a000000150000000000000000000000000000000000000000000000000000000000000000,
  0x940000002c000000020000ffbd000000050000fffd0000fffb000000050000fffd000000090000000000000000000000000000000000000000000000000000000000000000,
  0x560000ffab000000180000ff89000000110000fff900000030000000020000fff5000000240000000000000000000000000000000000000000000000000000000000000000,
  0x940000ffe10000ffff0000ff950000000d000000100000001e0000000e0000000e0000001a0000000000000000000000000000000000000000000000000000000000000000] ++
  List.replicate 11 0

theorem Gpnp3.runEx : ∃ G',
    gRun (gInit 8 initTerms (gVars (vecsEx.map intVec) (intPts ptsEx))) compute = some G' ∧
      ∀ q ∈ [((13 : ℕ), (16 : ℕ)), (12, 15), (11, 14)], G' q.1 q.2 ≠ 0 :=
  modCheck_spec (n := 18) (S := stateEx) (hs := hintsEx) prime_65537 (by norm_num) (by norm_num)
    (by decide +kernel)

def Gpnp4.vecsEx : List (List ℤ) := [
  [1, -9, -4, 2, 14, 5, 8, 10, 8, -4, 4, -13],
  [-2, -1, -3, 2, 0, 0, -2, -3, -3, -3, 0, 1],
  [-1, 3, 3, -3, -2, 1, 1, -1, -1, 3, -2, 3],
  [-3, -1, -2, -3, 3, 2, 3, -1, 3, -1, -2, -2],
  [-1, -1, 2, 3, 2, 3, 3, -1, -3, 3, 1, -1]]

def Gpnp4.ptsEx : List (List ℤ) := [[-2, 0, -1], [-3, 3, 3], [1, 3, -1], [-3, -1, 1]]

def Gpnp4.coefEx : List ℤ := [2, 3, -1, -1]

def Gpnp4.hintsEx : List ℕ := [
  7929376469, 46931138631, 38535, 23696822910, 38535, 35423, 56503597177, 38535, 35423, 38386,
  37143747473, 38386, 39825, 38535, 35423, 38386, 39825, 38535, 35423, 38386, 39825,
  40406914546, 35423, 38386, 39825, 15557, 38535, 35423, 38386, 39825, 38535, 35423, 38386,
  39825, 40406915985, 35423, 38386, 39825, 15557, 30841, 38535, 35423, 38386, 39825, 7804,
  30841, 38535, 35423, 38386, 39825, 32339170802, 38535, 35423, 38386, 39825, 15557, 30841,
  38535, 35423, 38386, 39825, 7804, 55471, 30841, 38535, 35423, 38386, 39825, 40406911583,
  35423, 30841, 38535, 35423, 38386, 39825, 15557, 30841, 38535, 35423, 38386, 39825, 7804,
  55471, 29457, 30841, 38535, 35423, 38386, 39825, 32339170951, 38535, 35423, 30841, 38535,
  35423, 38386, 39825, 15557, 30841, 38535, 35423, 38386, 39825, 7804, 55471, 29457, 36730,
  30841, 38535, 35423, 38386, 39825, 38514234099, 37619, 15557, 38386, 39825, 7804, 55471,
  29457, 36730, 37619, 38386, 39825, 30887940851, 36730, 37619, 39825, 31473, 38535, 35423,
  38386, 39825, 31473, 55471, 29457, 36730, 37619, 38535, 35423, 38386, 39825, 31473,
  58165596915, 29457, 36730, 37619, 38386, 39825, 31473, 30841, 38535, 35423, 38386, 39825,
  31473, 65307, 29457, 36730, 37619, 30841, 38535, 35423, 38386, 39825, 31473, 65307,
  8183123834, 37619, 37619, 36730, 37619, 38386, 39825, 31473, 30841, 38535, 35423, 38386,
  39825, 31473, 65307, 18865, 36730, 37619, 30841, 38535, 35423, 38386, 39825, 31473, 65307,
  18865, 38514208509, 37619, 31473, 65307, 18865, 12029, 30887922097, 12029, 28584, 31473,
  65307, 18865, 12029, 28584, 58165624603, 18865, 12029, 28584, 31473, 21802, 18865, 12029,
  28584, 21802, 8183118577, 28584, 28584, 12029, 28584, 21802, 21802, 26880, 21802, 26880,
  31473, 21802, 26880, 12029, 28584, 21802, 26880, 16312728305, 21802, 26880, 32287, 28584,
  28584, 28584, 28584, 21802, 21802, 26880, 21802, 26880, 32287, 21802, 26880, 32287, 28584,
  21802, 26880, 32287, 29972530313, 21802, 26880, 32287, 33929]

def Gpnp4.stateEx : List ℕ := [
  0x2490000006c0000fef300000100000000a40000001a0000ffdb000000200000002c000000210000ffc90000ffcf00000020000000200000001a00000000000000000000000000000000000000000000000000000000000000000000000000000000000000000000000000000000000000000000000000000000000000000000000000000000000000000000000000000000,
  0x2180000ffb50000ff25000000cc0000ffc100000004000000100000000000000000000000240000fff1000000380000003d0000ffff0000002900000000000000000000000000000000000000000000000000000000000000000000000000000000000000000000000000000000000000000000000000000000000000000000000000000000000000000000000000000000,
  0x10d0000ffdd0000ff570000ffd300000042000000120000ffef0000fffb0000ffe5000000290000001a0000000c000000050000000c0000001d00000000000000000000000000000000000000000000000000000000000000000000000000000000000000000000000000000000000000000000000000000000000000000000000000000000000000000000000000000000,
  0x1d0000ffd70000001c0000006e0000fff5000000220000ffe70000ffe300000036000000150000002400000012000000350000000c0000002d00000000000000000000000000000000000000000000000000000000000000000000000000000000000000000000000000000000000000000000000000000000000000000000000000000000000000000000000000000000,
  0x1b8000000180000ff71000000dc000000a40000001a0000ffc90000ffe50000fff900000028000000080000fff10000002d0000002a0000001100000000000000000000000000000000000000000000000000000000000000000000000000000000000000000000000000000000000000000000000000000000000000000000000000000000000000000000000000000000] ++
  List.replicate 20 0

theorem Gpnp4.runEx : ∃ G',
    gRun (gInit 22 initTerms (gVars (vecsEx.map intVec) (intPts ptsEx))) compute = some G' ∧
      ∀ q ∈ [((23 : ℕ), (35 : ℕ)), (22, 34), (21, 33), (20, 32)], G' q.1 q.2 ≠ 0 :=
  modCheck_spec (n := 37) (S := stateEx) (hs := hintsEx) prime_65537 (by norm_num) (by norm_num)
    (by decide +kernel)

def Gpnp5.vecsEx : List (List ℤ) := [
  [10, 9, 0, 15, 15, -2, 19, -1, 9, -17, -5, -13],
  [-3, -1, 0, -2, -2, -1, -3, -1, -1, 3, 1, 1],
  [-3, 1, 2, 2, -1, -3, -1, -1, 3, -1, 0, 2],
  [-1, -2, 0, 0, 2, -2, -3, -1, -3, 2, -1, 3],
  [0, -3, 1, 3, 0, -1, 0, 1, 3, -3, 0, -3],
  [2, -2, 1, -2, -3, 3, -2, 3, 0, -1, 1, -1]]

def Gpnp5.ptsEx : List (List ℤ) := [[2, 3, 3], [-1, 3, -1], [-3, 0, -3], [-2, -1, 1]]

def Gpnp5.coefEx : List ℤ := [3, 1, 2, -2, 3]

def Gpnp5.hintsEx : List ℕ := [
  52358603143, 60539538339, 24576, 3123761790, 24576, 55812, 56503568322, 24576, 55812, 29355,
  2082482859, 24576, 55812, 29355, 1777, 1863320971, 1419, 24576, 55812, 29355, 1777, 1419,
  24576, 55812, 29355, 1777, 1419, 24576, 55812, 29355, 1777, 1419, 30780949899, 1777, 1419,
  10923, 24576, 55812, 29355, 1777, 1419, 60635, 10923, 24576, 55812, 29355, 1777, 1419, 10923,
  24576, 55812, 29355, 1777, 1419, 58523125489, 29355, 1777, 1419, 24576, 55812, 29355, 1777,
  1419, 60635, 47121, 24576, 55812, 29355, 1777, 1419, 24576, 55812, 29355, 1777, 1419,
  25769833131, 55812, 29355, 1777, 1419, 24576, 55812, 29355, 1777, 1419, 60635, 47121, 3547,
  24576, 55812, 29355, 1777, 1419, 24576, 55812, 29355, 1777, 1419, 25769805553, 55812, 29355,
  1777, 1419, 10923, 24576, 55812, 29355, 1777, 1419, 60635, 47121, 3547, 7286, 10923, 24576,
  55812, 29355, 1777, 1419, 10923, 24576, 55812, 29355, 1777, 1419, 11453625003, 24576, 55812,
  29355, 1777, 1419, 10923, 24576, 55812, 29355, 1777, 1419, 60635, 47121, 3547, 7286, 10923,
  24576, 55812, 29355, 1777, 1419, 63857, 10923, 24576, 55812, 29355, 1777, 1419, 25769859588,
  55812, 10923, 24576, 55812, 29355, 1777, 1419, 10923, 24576, 55812, 29355, 1777, 1419, 60635,
  47121, 3547, 7286, 10923, 24576, 55812, 29355, 1777, 1419, 63857, 18435, 10923, 24576, 55812,
  29355, 1777, 1419, 11453620224, 24576, 55812, 10923, 24576, 55812, 29355, 1777, 1419, 10923,
  24576, 55812, 29355, 1777, 1419, 60635, 47121, 3547, 7286, 10923, 24576, 55812, 29355, 1777,
  1419, 63857, 18435, 30377, 10923, 24576, 55812, 29355, 1777, 1419, 7639972400, 63857, 18435,
  30377, 47664, 60635, 47121, 3547, 7286, 63857, 18435, 30377, 47664, 3719329449, 7286, 63857,
  18435, 30377, 47664, 16422, 60635, 47121, 3547, 7286, 63857, 18435, 30377, 47664, 3719346736,
  7286, 29355, 1777, 1419, 63857, 18435, 30377, 47664, 16422, 16457, 29355, 1777, 1419, 60635,
  47121, 3547, 7286, 29355, 1777, 1419, 63857, 18435, 30377, 47664, 29355, 1777, 1419,
  49409968131, 3547, 7286, 63857, 18435, 30377, 47664, 16422, 16457, 57126, 60635, 47121, 3547,
  7286, 63857, 18435, 30377, 47664, 49409997360, 3547, 7286, 24576, 55812, 29355, 1777, 1419,
  63857, 18435, 30377, 47664, 16422, 16457, 57126, 5357, 24576, 55812, 29355, 1777, 1419, 60635,
  47121, 3547, 7286, 24576, 55812, 29355, 1777, 1419, 63857, 18435, 30377, 47664, 24576, 55812,
  29355, 1777, 1419, 63580469617, 47121, 3547, 7286, 63857, 18435, 30377, 47664, 16422, 16457,
  57126, 5357, 37048, 60635, 47121, 3547, 7286, 63857, 18435, 30377, 47664, 63580453424, 47121,
  3547, 7286, 10923, 24576, 55812, 29355, 1777, 1419, 63857, 18435, 30377, 47664, 7519, 16457,
  57126, 5357, 37048, 10923, 24576, 55812, 29355, 1777, 1419, 60635, 47121, 3547, 7286, 10923,
  24576, 55812, 29355, 1777, 1419, 63857, 18435, 30377, 47664, 7519, 10923, 24576, 55812, 29355,
  1777, 1419, 1487959721, 60635, 47121, 3547, 7286, 29355, 1777, 1419, 63857, 18435, 30377,
  47664, 7519, 41912, 57126, 5357, 37048, 29355, 1777, 1419, 60635, 47121, 3547, 7286, 29355,
  1777, 1419, 63857, 18435, 30377, 47664, 7519, 41912, 29355, 1777, 1419, 1863337987, 1419,
  60635, 47121, 3547, 7286, 29355, 1777, 1419, 63857, 18435, 30377, 47664, 7519, 41912, 22197,
  5357, 37048, 29355, 1777, 1419, 60635, 47121, 3547, 7286, 29355, 1777, 1419, 63857, 18435,
  30377, 47664, 7519, 41912, 22197, 29355, 1777, 1419, 1863349929, 1419, 60635, 47121, 3547,
  7286, 24576, 55812, 29355, 1777, 1419, 63857, 18435, 30377, 47664, 7519, 41912, 22197, 41720,
  37048, 24576, 55812, 29355, 1777, 1419, 60635, 47121, 3547, 7286, 24576, 55812, 29355, 1777,
  1419, 63857, 18435, 30377, 47664, 7519, 41912, 22197, 41720, 24576, 55812, 29355, 1777, 1419,
  30781012337, 1777, 1419, 60635, 47121, 3547, 7286, 29355, 1777, 1419, 63857, 18435, 30377,
  47664, 7519, 41912, 22197, 41720, 38956, 29355, 1777, 1419, 60635, 47121, 3547, 7286, 29355,
  1777, 1419, 63857, 18435, 30377, 47664, 7519, 41912, 22197, 41720, 38956, 29355, 1777, 1419,
  30780978857, 1777, 1419, 47664, 47121, 3547, 7286, 10923, 24576, 55812, 29355, 1777, 1419,
  7519, 18435, 30377, 47664, 7519, 41912, 22197, 41720, 38956, 10923, 24576, 55812, 29355, 1777,
  1419, 17120, 47121, 3547, 7286, 10923, 24576, 55812, 29355, 1777, 1419, 17120, 18435, 30377,
  47664, 7519, 41912, 22197, 41720, 38956, 10923, 24576, 55812, 29355, 1777, 1419, 17120,
  3719306358, 7286, 29355, 1777, 1419, 47664, 47664, 3547, 7286, 10923, 24576, 55812, 29355,
  1777, 1419, 7519, 41912, 30377, 47664, 7519, 41912, 22197, 41720, 38956, 10923, 24576, 55812,
  29355, 1777, 1419, 17120, 65472, 3547, 7286, 10923, 24576, 55812, 29355, 1777, 1419, 17120,
  65472, 30377, 47664, 7519, 41912, 22197, 41720, 38956, 10923, 24576, 55812, 29355, 1777, 1419,
  17120, 65472, 49409956982, 7286, 7286, 24576, 55812, 29355, 1777, 1419, 47664, 47664, 47664,
  7286, 10923, 24576, 55812, 29355, 1777, 1419, 7519, 41912, 22197, 47664, 7519, 41912, 22197,
  41720, 38956, 10923, 24576, 55812, 29355, 1777, 1419, 17120, 65472, 61206, 7286, 10923, 24576,
  55812, 29355, 1777, 1419, 17120, 65472, 61206, 47664, 7519, 41912, 22197, 41720, 38956, 10923,
  24576, 55812, 29355, 1777, 1419, 17120, 65472, 61206, 49979354796, 7519, 41912, 22197, 41720,
  38956, 17120, 65472, 61206, 28332, 31852654358, 28332, 717, 41912, 22197, 41720, 38956, 17120,
  65472, 61206, 28332, 717, 19330564032, 61206, 28332, 717, 45913, 22197, 41720, 38956, 17120,
  65472, 61206, 28332, 717, 45913, 66958934752, 65472, 61206, 28332, 717, 45913, 53852, 41720,
  38956, 17120, 65472, 61206, 28332, 717, 45913, 53852, 7639953068, 17120, 65472, 61206, 28332,
  717, 45913, 53852, 57519, 38956, 17120, 65472, 61206, 28332, 717, 45913, 53852, 57519,
  3719360278, 28332, 17120, 65472, 61206, 28332, 717, 45913, 53852, 57519, 64928, 17120, 65472,
  61206, 28332, 717, 45913, 53852, 57519, 64928, 64179170988, 28332, 53852, 1777, 1419, 57519,
  65472, 61206, 28332, 64928, 45913, 53852, 57519, 64928, 43455, 43455, 55812, 43455, 1777,
  1419, 43455, 65472, 61206, 28332, 43455, 45913, 53852, 57519, 64928, 43455, 49410015168,
  61206, 28332, 57519, 57519, 61206, 28332, 64928, 64928, 53852, 57519, 64928, 43455, 43455,
  42955, 43455, 42955, 1419, 43455, 42955, 61206, 28332, 43455, 42955, 53852, 57519, 64928,
  43455, 42955, 68652396204, 28332, 28332, 43455, 42955, 43455, 42955, 59313, 57519, 57519,
  57519, 28332, 64928, 64928, 64928, 57519, 64928, 43455, 43455, 42955, 43455, 42955, 59313,
  43455, 42955, 59313, 28332, 43455, 42955, 59313, 57519, 64928, 43455, 42955, 59313,
  63580422880, 42955, 59313, 19252, 43455, 42955, 59313, 19252, 64928, 64928, 64928, 64928,
  64928, 43455, 43455, 42955, 43455, 42955, 59313, 43455, 42955, 59313, 19252, 43455, 42955,
  59313, 19252, 64928, 43455, 42955, 59313, 19252, 38847682604, 43455, 42955, 59313, 19252,
  43455, 42955, 59313, 19252, 15057, 43455, 42955, 59313, 19252, 43455, 42955, 59313, 19252,
  15057, 43455, 42955, 59313, 19252, 15057]

def Gpnp5.stateEx : List ℕ := [
  0x28000000020000002e000000420000004a0000ffc500000003000000180000ffff000000040000fff7000000360000000e000000260000ffc900000015000000260000ffe9000000160000ffdb000000150000000000000000000000000000000000000000000000000000000000000000000000000000000000000000000000000000000000000000000000000000000000000000000000000000000000000000000000000000000000000000000000000000000000000000000000000000000000000000000000000000000000000000000000000000000000000000000000000000000000000000000000000000000000000000000000000000000000000000000000000000000000000000000000000000000000000000000000000000000000000000000000000000000000000000000000000000000000000000,
  0xc00000ffef0000005e0000ff930000ffd50000ff43000000010000ffff000000060000fffd00000002000000090000ffef0000fff50000ffdb0000000e0000fffd0000002000000014000000240000002a0000000000000000000000000000000000000000000000000000000000000000000000000000000000000000000000000000000000000000000000000000000000000000000000000000000000000000000000000000000000000000000000000000000000000000000000000000000000000000000000000000000000000000000000000000000000000000000000000000000000000000000000000000000000000000000000000000000000000000000000000000000000000000000000000000000000000000000000000000000000000000000000000000000000000000000000000000000000000000,
  0x4220000fe6b0000ffb10000fef5000000b60000008200000029000000140000002e0000ffe10000ffe5000000050000000a0000ffef0000ffef000000130000ffdd0000ffe90000002200000034000000160000000000000000000000000000000000000000000000000000000000000000000000000000000000000000000000000000000000000000000000000000000000000000000000000000000000000000000000000000000000000000000000000000000000000000000000000000000000000000000000000000000000000000000000000000000000000000000000000000000000000000000000000000000000000000000000000000000000000000000000000000000000000000000000000000000000000000000000000000000000000000000000000000000000000000000000000000000000000000,
  0x1780000ffd90000006c00000032000000200000feff000000020000000600000000000000080000000c0000002d00000006000000420000ffdd00000013000000040000ffe30000001a0000fff50000002d0000000000000000000000000000000000000000000000000000000000000000000000000000000000000000000000000000000000000000000000000000000000000000000000000000000000000000000000000000000000000000000000000000000000000000000000000000000000000000000000000000000000000000000000000000000000000000000000000000000000000000000000000000000000000000000000000000000000000000000000000000000000000000000000000000000000000000000000000000000000000000000000000000000000000000000000000000000000000000,
  0x5f40000fe1d0000002a0000ff8b000001ac0000ff79000000260000fffd000000160000ffbd000000120000002300000020000000100000ffdb000000260000ffd50000ffc50000002800000004000000210000000000000000000000000000000000000000000000000000000000000000000000000000000000000000000000000000000000000000000000000000000000000000000000000000000000000000000000000000000000000000000000000000000000000000000000000000000000000000000000000000000000000000000000000000000000000000000000000000000000000000000000000000000000000000000000000000000000000000000000000000000000000000000000000000000000000000000000000000000000000000000000000000000000000000000000000000000000000000,
  0x6f20000fde9000000240000fd91000001e80000fff50000002c00000000000000540000ffc100000000000000020000fff50000000a0000ffff0000003d0000ff9b0000ffff0000002e0000000a000000060000000000000000000000000000000000000000000000000000000000000000000000000000000000000000000000000000000000000000000000000000000000000000000000000000000000000000000000000000000000000000000000000000000000000000000000000000000000000000000000000000000000000000000000000000000000000000000000000000000000000000000000000000000000000000000000000000000000000000000000000000000000000000000000000000000000000000000000000000000000000000000000000000000000000000000000000000000000000000] ++
  List.replicate 38 0

theorem Gpnp5.runEx : ∃ G',
    gRun (gInit 59 initTerms (gVars (vecsEx.map intVec) (intPts ptsEx))) compute = some G' ∧
      ∀ q ∈ [((42 : ℕ), (78 : ℕ)), (41, 77), (40, 76), (39, 75), (38, 74), (38, 76)], G' q.1 q.2 ≠ 0 :=
  modCheck_spec (n := 80) (S := stateEx) (hs := hintsEx) prime_65537 (by norm_num) (by norm_num)
    (by decide +kernel)

end OpenGV
