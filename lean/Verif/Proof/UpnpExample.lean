import Verif.Proof.UpnpRational
import Verif.Proof.UpnpAction
import Verif.Proof.ModRank

/-!
# Two sets of correspondences for UPnP

The viewing directions are the coordinate axes, the pose has the quaternion (1/2, 1/2, 1/2, 1/2) and
no translation. All numbers are rational; the regularity of the large matrices is checked modulo 11.
-/

namespace OpenGV

open Matrix

set_option linter.style.longLine false

/-! ## 5 correspondences -/

/-- 5 correspondences. -/
def axes5Q : List QObs :=
  [⟨![1, 0, 0], ![0, 0, 0], ![0, 0, 1]⟩,
   ⟨![0, 1, 0], ![0, 0, 1], ![2, 1, 0]⟩,
   ⟨![0, 0, 1], ![1, 0, 0], ![0, 3, 1]⟩,
   ⟨![1, 0, 0], ![0, 1, 2], ![1, 2, 3]⟩,
   ⟨![0, 1, 0], ![2, 0, 1], ![1, 1, 2]⟩]

/-- The correspondences in real numbers. -/
def axes5 : List UpnpObs := axes5Q.map QObs.real

/-- The matrix `H`. -/
def axes5H : Matrix (Fin 3) (Fin 3) ℚ :=
  !![1 / 3, 0, 0; 0, 1 / 3, 0; 0, 0, 1 / 4]

/-- The matrix `I`. -/
def axes5I : Matrix (Fin 3) (Fin 10) ℚ :=
  !![-1, -1, 1, 1, 0, -2, 10 / 3, -10 / 3, -2, 0; -5 / 3, 5 / 3, -5 / 3, 5 / 3, 10 / 3, 0, -2 / 3,
  -2 / 3, 0, -10 / 3; -3 / 2, 3 / 2, 3 / 2, -3 / 2, -2, 2, 0, 0, -2, -2]

/-- The vector `J`. -/
def axes5J : Fin 3 → ℚ := ![-1, -1 / 3, -1]

/-- The matrix `M`. -/
def axes5M : Matrix (Fin 10) (Fin 10) ℚ :=
  !![35 / 3, -23 / 3, -7 / 3, -5 / 3, 8 / 3, 0, 14 / 3, -10 / 3, -4, 16 / 3; -23 / 3, 35 / 3, -5 /
  3, -7 / 3, -8 / 3, -4, 10 / 3, -14 / 3, 0, -16 / 3; -7 / 3, -5 / 3, 35 / 3, -23 / 3, -16 / 3, 0,
  -10 / 3, 14 / 3, 4, -8 / 3; -5 / 3, -7 / 3, -23 / 3, 35 / 3, 16 / 3, 4, -14 / 3, 10 / 3, 0, 8 /
  3; 8 / 3, -8 / 3, -16 / 3, 16 / 3, 56 / 3, -4, -16 / 3, -16 / 3, 4, -8 / 3; 0, -4, 0, 4, -4, 16,
  0, 0, 0, -4; 14 / 3, 10 / 3, -10 / 3, -14 / 3, -16 / 3, 0, 40 / 3, -8, 0, 16 / 3; -10 / 3, -14 /
  3, 14 / 3, 10 / 3, -16 / 3, 0, -8, 40 / 3, 0, 16 / 3; -4, 0, 4, 0, 4, 0, 0, 0, 16, 4; 16 / 3,
  -16 / 3, -8 / 3, 8 / 3, -8 / 3, -4, 16 / 3, 16 / 3, 4, 56 / 3]

/-- The vector `C`. -/
def axes5C : Fin 10 → ℚ := ![-4 / 3, 10 / 3, 2 / 3, -8 / 3, -4 / 3, -2, -4 / 3, -4 / 3, -6, -20 / 3]

/-- The inverse of the leading block of `M1`. -/
def axes5B : Matrix (Fin 7) (Fin 7) ℚ :=
  !![771 / 25684, 2481 / 51368, -4071 / 51368, -2391 / 51368, -2877 / 12842, -18194 / 6421, 19271
  / 6421; -3 / 12842, -1059 / 25684, 1365 / 25684, 993 / 51368, 647 / 12842, 15532 / 6421, -12942
  / 6421; -771 / 25684, -2481 / 51368, 4071 / 51368, 2391 / 51368, 15719 / 12842, 18194 / 6421,
  -19271 / 6421; 3 / 12842, 1059 / 25684, -1365 / 25684, -993 / 51368, -647 / 12842, -9111 / 6421,
  12942 / 6421; 987 / 25684, 1677 / 51368, -1509 / 12842, 387 / 51368, -26169 / 12842, -31017 /
  12842, 52163 / 12842; 1599 / 51368, 1455 / 25684, -7407 / 51368, -573 / 12842, -17187 / 12842,
  -49101 / 12842, 58755 / 12842; -987 / 25684, -1677 / 51368, 1509 / 12842, -387 / 51368, 26169 /
  12842, 31017 / 12842, -39321 / 12842]

/-- The equations after the multiplication with the inverse. -/
def axes5F : Matrix (Fin 7) (Fin 24) ℚ :=
  !![1, 0, 0, 0, 0, 0, 0, 4006 / 6421, -33875 / 6421, 12 / 6421, -23595 / 12842, 6381 / 6421, 2961
  / 12842, 1265 / 6421, -38493 / 6421, 18223 / 12842, 4594 / 6421, -16572 / 6421, 19243 / 6421,
  -36921 / 12842, 2416 / 6421, 53517 / 12842, -18241 / 6421, 11475 / 12842; 0, 1, 0, 0, 0, 0, 0,
  1293 / 6421, 22125 / 6421, -150 / 6421, 22045 / 12842, -12342 / 6421, -1697 / 12842, 240 / 6421,
  22061 / 6421, -19105 / 12842, 364 / 6421, 14520 / 6421, -12592 / 6421, 15253 / 12842, -2611 /
  12842, -42915 / 12842, 12909 / 6421, -2693 / 6421; 0, 0, 1, 0, 0, 0, 0, 2415 / 6421, 33875 /
  6421, -12 / 6421, 23595 / 12842, -6381 / 6421, -2961 / 12842, -1265 / 6421, 38493 / 6421, -18223
  / 12842, 1827 / 6421, 16572 / 6421, -19243 / 6421, 36921 / 12842, -8837 / 6421, -53517 / 12842,
  18241 / 6421, -11475 / 12842; 0, 0, 0, 1, 0, 0, 0, -1293 / 6421, -15704 / 6421, 150 / 6421,
  -22045 / 12842, 12342 / 6421, 1697 / 12842, -240 / 6421, -22061 / 6421, 19105 / 12842, -364 /
  6421, -8099 / 6421, 12592 / 6421, -15253 / 12842, 2611 / 12842, 30073 / 12842, -12909 / 6421,
  2693 / 6421; 0, 0, 0, 0, 1, 0, 0, -10437 / 6421, -34171 / 6421, -7430 / 6421, -8169 / 12842,
  14065 / 6421, 25527 / 12842, 24730 / 6421, -36485 / 6421, 25377 / 12842, -21352 / 6421, -19191 /
  6421, 29506 / 6421, -8139 / 12842, 28197 / 12842, 19077 / 6421, -60569 / 12842, 12741 / 12842;
  0, 0, 0, 0, 0, 1, 0, -3741 / 6421, -50680 / 6421, -8907 / 6421, -33599 / 12842, 16848 / 6421,
  12627 / 12842, 12967 / 6421, -54994 / 6421, 33525 / 12842, -9977 / 6421, -27753 / 6421, 27687 /
  6421, -40347 / 12842, 11025 / 6421, 69549 / 12842, -29796 / 6421, 10503 / 6421; 0, 0, 0, 0, 0,
  0, 1, 10437 / 6421, 34171 / 6421, 13851 / 6421, 8169 / 12842, -14065 / 6421, -25527 / 12842,
  -24730 / 6421, 36485 / 6421, -25377 / 12842, 21352 / 6421, 19191 / 6421, -23085 / 6421, 8139 /
  12842, -28197 / 12842, -19077 / 6421, 47727 / 12842, -12741 / 12842]

/-- The equations, multiplied by 12842. -/
def axes5G : List (List ℤ) :=
  [[12842, 0, 0, 0, 0, 0, 0, 8012, -67750, 24, 0, 12762, 26556, 2530, -76986, 41818, 9188, -33144,
  38486, -13326, 4832, 53517, -36482, -12120], [0, 12842, 0, 0, 0, 0, 0, 2586, 44250, -300, 0,
  -24684, -23742, 480, 44122, -41150, 728, 29040, -25184, -6792, -2611, -42915, 25818, 16659], [0,
  0, 12842, 0, 0, 0, 0, 4830, 67750, -24, 0, -12762, -26556, -2530, 76986, -41818, 3654, 33144,
  -38486, 13326, -17674, -53517, 36482, 12120], [0, 0, 0, 12842, 0, 0, 0, -2586, -31408, 300, 0,
  24684, 23742, -480, -44122, 41150, -728, -16198, 25184, 6792, 2611, 30073, -25818, -16659], [0,
  0, 0, 0, 12842, 0, 0, -20874, -68342, -14860, 0, 28130, 33696, 49460, -72970, 33546, -42704,
  -38382, 59012, 30, 28197, 38154, -60569, 4572], [0, 0, 0, 0, 0, 12842, 0, -7482, -101360,
  -17814, 0, 33696, 46226, 25934, -109988, 67124, -19954, -55506, 55374, -6748, 22050, 69549,
  -59592, -12593], [0, 0, 0, 0, 0, 0, 12842, 20874, 68342, 27702, 0, -28130, -33696, -49460,
  72970, -33546, 42704, 38382, -46170, -30, -28197, -38154, 47727, -4572], [0, 0, 0, 0, 0, 0, 0,
  0, 0, 0, 12842, 0, 12842, 0, 0, 12842, 0, 0, 0, 12842, 0, 0, 0, -12842]]

/-- The equations modulo 11, packed. -/
def axes5T : ℕ :=
  0x6000000050000000500000500050000000000000000000000000000000000000409050703080302040707080800040a0705000000000000000000000000000002060706060000000201070403000605090005000000000000000000000000000708060408080809070404030300010104000005000000000000000000000000060a0a04050505090a0a0404000003080a000000050000000000000000000000090609030503010204080009090009010100000000050000000000000000000005010707060600020101070700000808010000000000050000000000000000000205020306080a03070300020200020a0400000000000005

/-- The order of the pivot rows. -/
def axes5P : List ℕ :=
  [67, 49, 21, 22, 70, 52, 23, 15, 16, 63, 45, 17, 18, 19, 34, 6, 7, 8, 32, 24, 25, 33, 35, 73,
  55, 26, 36, 38, 66, 48, 20, 12, 27, 37, 39, 30, 2, 40, 41, 43, 44, 10, 60, 56, 46, 47, 29, 31,
  3, 1, 50, 51, 5, 53, 54, 13, 57, 14, 58, 59, 42, 61, 62, 9, 64, 65, 28, 0, 68, 69, 74, 71, 72,
  11, 4, 75, 76, 77, 95, 96, 101, 97, 84, 85, 86, 87, 88, 99, 98, 103, 102, 114, 106, 90, 104,
  107, 100, 79, 80, 89, 81, 82, 93, 105, 108, 111, 94, 92, 109, 110, 83, 112, 113, 91, 115, 78,
  116, 117, 118, 119, 120, 121, 122, 123, 124, 125, 126, 127, 128, 129, 130, 131, 132, 134, 133,
  135, 136, 138, 137, 139, 140]

theorem axes5_hinv : hinvQ axes5Q * axes5H = 1 := by decide +kernel

theorem axes5_I : (axes5Q.map fun o => axes5H * tempQ o.f * fillQ o.p).sum = axes5I := by decide +kernel

theorem axes5_J : (axes5Q.map fun o => (axes5H * tempQ o.f) *ᵥ o.v).sum = axes5J := by decide +kernel

theorem axes5_M : (axes5Q.map fun o =>
    (tempQ o.f * (fillQ o.p + axes5I))ᵀ * (tempQ o.f * (fillQ o.p + axes5I))).sum = axes5M := by
  decide +kernel

theorem axes5_C : (axes5Q.map fun o =>
    (-(tempQ o.f *ᵥ (o.v + axes5J))) ᵥ* (tempQ o.f * (fillQ o.p + axes5I))).sum = axes5C := by
  decide +kernel

theorem axes5_upnpM : upnpM axes5 = realMat axes5M := upnpM_real axes5_hinv axes5_I axes5_M

theorem axes5_upnpC : upnpC axes5 = realVec axes5C := upnpC_real axes5_hinv axes5_I axes5_J axes5_C

theorem axes5_B : (upnpM1SymInit axes5M axes5C).submatrix (Fin.castLE (by norm_num))
    (Fin.castLE (by norm_num)) * axes5B = 1 := by decide +kernel

theorem axes5_F : axes5B * (upnpM1SymInit axes5M axes5C).submatrix (Fin.castLE (by norm_num)) id =
    axes5F := by decide +kernel

/-- An entry of the equations, multiplied by 12842. -/
def axes5A (k j : ℕ) : ℤ := (axes5G.getD k []).getD j 0

/-! ## 4 correspondences -/

/-- 4 correspondences. -/
def axes4Q : List QObs :=
  [⟨![1, 0, 0], ![0, 0, 0], ![0, 0, 1]⟩,
   ⟨![0, 1, 0], ![0, 0, 1], ![2, 1, 0]⟩,
   ⟨![0, 0, 1], ![1, 0, 0], ![0, 3, 1]⟩,
   ⟨![1, 0, 0], ![0, 1, 2], ![1, 2, 3]⟩]

/-- The correspondences in real numbers. -/
def axes4 : List UpnpObs := axes4Q.map QObs.real

/-- The matrix `H`. -/
def axes4H : Matrix (Fin 3) (Fin 3) ℚ :=
  !![1 / 2, 0, 0; 0, 1 / 3, 0; 0, 0, 1 / 3]

/-- The matrix `I`. -/
def axes4I : Matrix (Fin 3) (Fin 10) ℚ :=
  !![-1, -1, 1, 1, 0, -1, 4, -4, -1, 0; -5 / 3, 5 / 3, -5 / 3, 5 / 3, 10 / 3, 0, -2 / 3, -2 / 3,
  0, -10 / 3; -4 / 3, 4 / 3, 4 / 3, -4 / 3, -2, 2, 0, 0, -2, -2]

/-- The vector `J`. -/
def axes4J : Fin 3 → ℚ := ![-1 / 2, -1 / 3, -1]

/-- The matrix `M`. -/
def axes4M : Matrix (Fin 10) (Fin 10) ℚ :=
  !![34 / 3, -22 / 3, -2, -2, 8 / 3, 0, 14 / 3, -10 / 3, -4, 16 / 3; -22 / 3, 34 / 3, -2, -2, -8 /
  3, -4, 10 / 3, -14 / 3, 0, -16 / 3; -2, -2, 34 / 3, -22 / 3, -16 / 3, 0, -10 / 3, 14 / 3, 4, -8
  / 3; -2, -2, -22 / 3, 34 / 3, 16 / 3, 4, -14 / 3, 10 / 3, 0, 8 / 3; 8 / 3, -8 / 3, -16 / 3, 16 /
  3, 56 / 3, -4, -16 / 3, -16 / 3, 4, -8 / 3; 0, -4, 0, 4, -4, 10, -4, 4, -6, -4; 14 / 3, 10 / 3,
  -10 / 3, -14 / 3, -16 / 3, -4, 32 / 3, -16 / 3, -4, 16 / 3; -10 / 3, -14 / 3, 14 / 3, 10 / 3,
  -16 / 3, 4, -16 / 3, 32 / 3, 4, 16 / 3; -4, 0, 4, 0, 4, -6, -4, 4, 10, 4; 16 / 3, -16 / 3, -8 /
  3, 8 / 3, -8 / 3, -4, 16 / 3, 16 / 3, 4, 56 / 3]

/-- The vector `C`. -/
def axes4C : Fin 10 → ℚ := ![-4 / 3, 10 / 3, 2 / 3, -8 / 3, -4 / 3, 1, 2 / 3, -10 / 3, -3, -20 / 3]

/-- The inverse of the leading block of `M1`. -/
def axes4B : Matrix (Fin 4) (Fin 4) ℚ :=
  !![8619 / 440992, 2085 / 440992, 2601 / 220496, 2097 / 220496; 3171 / 440992, -1449 / 440992,
  -4425 / 220496, -7287 / 220496; -1449 / 440992, -3171 / 440992, -7287 / 220496, 4425 / 220496;
  -2085 / 440992, 8619 / 440992, -2097 / 220496, 2601 / 220496]

/-- The equations after the multiplication with the inverse. -/
def axes4F : Matrix (Fin 4) (Fin 29) ℚ :=
  !![1, 0, 0, 0, 10757 / 110248, -14870 / 13781, -40273 / 110248, 9089 / 110248, 28595 / 55124,
  58229 / 110248, 68051 / 110248, -11997 / 13781, 40717 / 110248, -2107 / 110248, 16195 / 110248,
  -34293 / 110248, 12519 / 55124, 31075 / 110248, 75047 / 110248, 34357 / 110248, 0, 0, 0, 0,
  -8883 / 110248, -13757 / 110248, -19355 / 220496, -57557 / 220496, 0; 0, 1, 0, 0, -30953 /
  110248, 13011 / 13781, -24439 / 110248, 63917 / 110248, -68453 / 55124, -84249 / 110248, -25521
  / 110248, 287 / 13781, -26195 / 110248, -56753 / 110248, -209741 / 110248, -12137 / 110248,
  35161 / 55124, -34683 / 110248, -66511 / 110248, -184371 / 110248, 0, 0, 0, 0, -12545 / 110248,
  29667 / 110248, 93361 / 220496, 143189 / 220496, 0; 0, 0, 1, 0, -26195 / 110248, -287 / 13781,
  -25521 / 110248, -34683 / 110248, -35161 / 55124, -184371 / 110248, 24439 / 110248, 13011 /
  13781, 30953 / 110248, 209741 / 110248, -56753 / 110248, 66511 / 110248, -68453 / 55124, -63917
  / 110248, -12137 / 110248, 84249 / 110248, 0, 0, 0, 0, -291 / 110248, 1411 / 110248, -69311 /
  220496, 58507 / 220496, 0; 0, 0, 0, 1, -40717 / 110248, -11997 / 13781, -68051 / 110248, -31075
  / 110248, 12519 / 55124, -34357 / 110248, -40273 / 110248, 14870 / 13781, 10757 / 110248, 16195
  / 110248, 2107 / 110248, 75047 / 110248, -28595 / 55124, 9089 / 110248, 34293 / 110248, 58229 /
  110248, 0, 0, 0, 0, -3329 / 110248, 29307 / 110248, -71087 / 220496, -27031 / 220496, 0]

/-- The equations, multiplied by 220496. -/
def axes4G : List (List ℤ) :=
  [[220496, 0, 0, 0, 21514, -237920, -80546, 18178, 114380, 116458, 136102, -191952, 81434, -4214,
  32390, -68586, 50076, 62150, 150094, 68714, 0, 0, 0, 0, -17766, -27514, -19355, -57557, 0], [0,
  220496, 0, 0, -61906, 208176, -48878, 127834, -273812, -168498, -51042, 4592, -52390, -113506,
  -419482, -24274, 140644, -69366, -133022, -368742, 0, 0, 0, 0, -25090, 59334, 93361, 143189, 0],
  [0, 0, 220496, 0, -52390, -4592, -51042, -69366, -140644, -368742, 48878, 208176, 61906, 419482,
  -113506, 133022, -273812, -127834, -24274, 168498, 0, 0, 0, 0, -582, 2822, -69311, 58507, 0],
  [0, 0, 0, 220496, -81434, -191952, -136102, -62150, 50076, -68714, -80546, 237920, 21514, 32390,
  4214, 150094, -114380, 18178, 68586, 116458, 0, 0, 0, 0, -6658, 58614, -71087, -27031, 0], [0,
  0, 0, 0, 0, 0, 0, 0, 0, 0, 0, 0, 0, 0, 0, 0, 0, 0, 0, 0, 220496, 220496, 220496, 220496, 0, 0,
  0, 0, -220496]]

/-- The equations modulo 11, packed. -/
def axes4T : ℕ :=
  0xa00000000010101010000000000000000000000000000000000000000000000000706060800000000010106090a010609010703040001090a01000000000000000900060100000000000308000a0308090105000200090603000100000000000002040001000000000001000903030303050900000306010200000100000000000605080a00000000080a00040a060a01090a010206070a0900000001

/-- The order of the pivot rows. -/
def axes4P : List ℕ :=
  [9, 8, 5, 65, 30, 31, 32, 7, 4, 60, 26, 27, 28, 29, 2, 50, 18, 19, 20, 21, 36, 37, 38, 39, 51,
  52, 53, 61, 62, 63, 66, 67, 68, 6, 3, 55, 22, 23, 24, 25, 1, 45, 46, 47, 48, 17, 75, 15, 56, 16,
  57, 35, 58, 34, 14, 33, 76, 77, 78, 0, 40, 10, 11, 12, 13, 70, 71, 72, 73, 42, 43, 41, 80, 81,
  82, 83, 85, 86, 87, 88, 90, 91, 92, 93, 95, 96, 97, 98, 102, 100, 101, 103, 105, 106, 107, 110,
  108, 111, 112, 113, 115, 119, 114, 99, 69, 142, 143, 144, 109, 94, 64, 137, 138, 139, 140, 84,
  54, 128, 129, 130, 131, 149, 150, 151, 152, 163, 164, 165, 166, 173, 174, 175, 176, 179, 104,
  89, 59, 169, 168, 134, 135, 79, 49, 124, 158, 161, 127, 188, 159, 160, 148, 125, 126, 146, 170,
  171, 132, 178, 133, 147, 74, 153, 154, 121, 156, 123, 183, 155, 120, 44, 180, 184, 181, 185,
  122, 186, 189, 190, 191, 193, 194, 195, 196, 198, 199, 200, 201, 204, 203, 205, 206, 208, 209,
  210, 211, 213, 214, 215, 216, 218, 219, 220, 221, 116, 117, 212, 182, 145, 118, 227, 222, 207,
  177, 141, 232, 260, 197, 167, 251, 250, 253, 236, 237, 238, 239, 252, 261, 262, 263, 265, 266,
  217, 202, 172, 136, 255, 256, 192, 245, 246, 247, 248, 267, 162, 234, 235, 257, 258, 233, 268,
  275, 276, 187, 240, 241, 242, 243, 270, 271, 272, 273, 277, 157, 278, 280, 281, 282, 283, 285,
  286, 287, 288, 290, 291, 292, 293, 296, 295, 297, 298, 300, 301, 302, 303, 305, 231, 224, 225,
  269, 226, 228, 299, 294, 264, 229, 230, 223, 254, 309, 284, 314, 319, 330, 331, 332, 333, 304,
  289, 259, 335, 336, 325, 326, 327, 328, 249, 279, 337, 338, 340, 341, 274, 244, 322, 323, 321,
  320, 342, 343, 345, 346, 347, 348, 350, 351, 352, 353, 355, 356, 357, 360, 312, 313, 308, 307,
  315, 306, 344, 349, 316, 334, 310, 317, 318, 359, 311, 354, 339, 364, 369, 329, 370, 371, 372,
  373, 375, 324, 377, 376, 378, 380, 381, 382, 383, 385, 365, 368, 366, 367, 379, 361, 362, 363,
  358, 389, 374, 384, 390, 391, 392, 393, 388, 386, 387, 394]

theorem axes4_hinv : hinvQ axes4Q * axes4H = 1 := by decide +kernel

theorem axes4_I : (axes4Q.map fun o => axes4H * tempQ o.f * fillQ o.p).sum = axes4I := by decide +kernel

theorem axes4_J : (axes4Q.map fun o => (axes4H * tempQ o.f) *ᵥ o.v).sum = axes4J := by decide +kernel

theorem axes4_M : (axes4Q.map fun o =>
    (tempQ o.f * (fillQ o.p + axes4I))ᵀ * (tempQ o.f * (fillQ o.p + axes4I))).sum = axes4M := by
  decide +kernel

theorem axes4_C : (axes4Q.map fun o =>
    (-(tempQ o.f *ᵥ (o.v + axes4J))) ᵥ* (tempQ o.f * (fillQ o.p + axes4I))).sum = axes4C := by
  decide +kernel

theorem axes4_upnpM : upnpM axes4 = realMat axes4M := upnpM_real axes4_hinv axes4_I axes4_M

theorem axes4_upnpC : upnpC axes4 = realVec axes4C := upnpC_real axes4_hinv axes4_I axes4_J axes4_C

theorem axes4_B : (upnpM1GenInit axes4M axes4C).submatrix (Fin.castLE (by norm_num))
    (Fin.castLE (by norm_num)) * axes4B = 1 := by decide +kernel

theorem axes4_F : axes4B * (upnpM1GenInit axes4M axes4C).submatrix (Fin.castLE (by norm_num)) id =
    axes4F := by decide +kernel

/-- An entry of the equations, multiplied by 220496. -/
def axes4A (k j : ℕ) : ℤ := (axes4G.getD k []).getD j 0

end OpenGV
