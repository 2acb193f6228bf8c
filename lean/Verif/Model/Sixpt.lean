import Verif.Model.SixptTables
import Verif.Model.UpnpAction
import Verif.Model.Adapters
import Verif.Model.Cayley

/-!
# Model of the six point solver for non-central cameras

`sixpt` of `src/relative_pose/methods.cpp`, `sixpt_main` of `src/relative_pose/modules/main.cpp` and
`setupAction` of `src/relative_pose/modules/sixpt/modules2.cpp`. The number of equations `EQS` is 60, the
number of groups `DECA_EQS` is 6 (include/opengv/relative_pose/modules/sixpt/modules.hpp line 35,
modules2.cpp lines 174-190). The function asserts that there are six correspondences; other numbers are
not modelled. `none` is a result that is not finite: a singular matrix, or a division by zero.
-/

namespace OpenGV

open Matrix Adapters

/-- The Pluecker coordinates of a viewing ray: the direction `f` and the moment `f x offset`
(src/relative_pose/methods.cpp lines 618-622). -/
def sixLine (f off : Vec3) : Fin 6 → ℝ :=
  ![f 0, f 1, f 2, crossProduct f off 0, crossProduct f off 1, crossProduct f off 2]

/-- Column `i` of `L1` (src/relative_pose/methods.cpp lines 613-621). -/
def sixL1 (obs : Fin 6 → RelObs) (i : Fin 6) : Fin 6 → ℝ :=
  sixLine ((obs i).rot1 *ᵥ (obs i).f1) (obs i).off1

/-- Column `i` of `L2` (src/relative_pose/methods.cpp lines 615-622). -/
def sixL2 (obs : Fin 6 → RelObs) (i : Fin 6) : Fin 6 → ℝ :=
  sixLine ((obs i).rot2 *ᵥ (obs i).f2) (obs i).off2

section

variable {R : Type} [CommRing R]

/-- The index `secI` that is stored at position `r` of group `primI`
(src/relative_pose/modules/sixpt/modules2.cpp lines 201-212). -/
def sixSec (primI r : ℕ) : ℕ := if r < primI then r else r + 1

/-- Line `i` of an array. -/
def sixGet (L : Fin 6 → Fin 6 → R) (i : ℕ) : Fin 6 → R := if h : i < 6 then L ⟨i, h⟩ else 0

/-- `m[primI][r]`: the numbers filled in by `fillRow1` (src/relative_pose/modules/sixpt/modules2.cpp
lines 198-217). -/
def sixM (L1 L2 : Fin 6 → Fin 6 → R) (primI r : ℕ) : Fin 3 → Fin 10 → R :=
  let l01 := sixGet L1 primI
  let l02 := sixGet L2 primI
  let l11 := sixGet L1 (sixSec primI r)
  let l12 := sixGet L2 (sixSec primI r)
  ![sixC0 l01 l02 l11 l12, sixC1 l01 l02 l11 l12, sixC2 l01 l02 l11 l12]

/-- An entry of `m[primI][r]`; no entry outside is read (`C65_tables`). -/
def sixEntry (m : Fin 3 → Fin 10 → R) (k j : ℕ) : R :=
  if h : k < 3 ∧ j < 10 then m ⟨k, h.1⟩ ⟨j, h.2⟩ else 0

/-- One term of `fillRow2`, see `sixFill`. -/
def sixTerm (m0 m1 m2 : Fin 3 → Fin 10 → R) (t : ℕ) : R :=
  let v := sixEntry m2 (t / 1048576 % 16) (t / 65536 % 16) * sixEntry m1 (t / 4096 % 16) (t / 256 % 16) *
    sixEntry m0 (t / 16 % 16) (t % 16)
  if t < 16777216 then v else -v

/-- `fillRow2` (src/relative_pose/modules/sixpt/modules2.cpp lines 80-172), the entry in column `c`. -/
def sixFillRow (m0 m1 m2 : Fin 3 → Fin 10 → R) (c : ℕ) : R :=
  ((sixFill.getD c []).map (sixTerm m0 m1 m2)).sum

/-- The update of `decaIndex`, `row0`, `row1` and `row2`
(src/relative_pose/modules/sixpt/modules2.cpp lines 230-249). -/
def sixNext : ℕ × ℕ × ℕ × ℕ → ℕ × ℕ × ℕ × ℕ
  | (d, r0, r1, r2) =>
    let r2 := r2 + 1
    if r2 > 4 then
      let r1 := r1 + 1
      let r2 := r1 + 1
      if r1 > 3 then
        let r0 := r0 + 1
        let r1 := r0 + 1
        let r2 := r1 + 1
        if r0 > 2 then (d + 1, 0, 1, 2) else (d, r0, r1, r2)
      else (d, r0, r1, r2)
    else (d, r0, r1, r2)

/-- The counters in the iteration for `row` (src/relative_pose/modules/sixpt/modules2.cpp lines
221-229). -/
def sixCount (row : ℕ) : ℕ × ℕ × ℕ × ℕ := sixNext^[row] (0, 0, 1, 2)

/-- `M1p` (src/relative_pose/modules/sixpt/modules2.cpp lines 219-250). -/
def sixM1p (L1 L2 : Fin 6 → Fin 6 → R) : Matrix (Fin 60) (Fin 84) R := fun row c =>
  let s := sixCount row
  sixFillRow (sixM L1 L2 s.1 s.2.1) (sixM L1 L2 s.1 s.2.2.1) (sixM L1 L2 s.1 s.2.2.2) c

/-- `B` (src/relative_pose/modules/sixpt/modules2.cpp line 257). -/
def sixB (M1p : Matrix (Fin 60) (Fin 84) R) : Matrix (Fin 60) (Fin 15) R :=
  M1p.submatrix id (Fin.castLE (by norm_num))

end

open Classical in
/-- `M1` (src/relative_pose/modules/sixpt/modules2.cpp lines 257-260). -/
noncomputable def sixM1 (M1p : Matrix (Fin 60) (Fin 84) ℝ) : Option (Matrix (Fin 15) (Fin 84) ℝ) :=
  let BtB := (sixB M1p)ᵀ * sixB M1p
  if BtB.det = 0 then none else some (BtB⁻¹ * (sixB M1p)ᵀ * M1p)

/-- `M2.block<93,93>(0,0)` (src/relative_pose/modules/sixpt/modules2.cpp lines 262-357). -/
def sixLeft (M1 : Matrix (Fin 15) (Fin 84) ℝ) : Matrix (Fin 93) (Fin 93) ℝ :=
  Matrix.of fun r c => templateM2 sixTable (matFun M1) r c

/-- `M2.block<93,64>(0,93)` (src/relative_pose/modules/sixpt/modules2.cpp lines 262-358). -/
def sixRight (M1 : Matrix (Fin 15) (Fin 84) ℝ) : Matrix (Fin 93) (Fin 64) ℝ :=
  Matrix.of fun r c => templateM2 sixTable (matFun M1) r (93 + c)

open Classical in
/-- `M3` (src/relative_pose/modules/sixpt/modules2.cpp lines 357-358). -/
noncomputable def sixM3 (M1 : Matrix (Fin 15) (Fin 84) ℝ) : Option (Matrix (Fin 93) (Fin 64) ℝ) :=
  if (sixLeft M1).det = 0 then none else some ((sixLeft M1)⁻¹ * sixRight M1)

/-- The rows of `M3` subtracted from the rows of `Action`
(src/relative_pose/modules/sixpt/modules2.cpp lines 360-381). -/
def sixSource : Fin 64 → Option (Fin 93) :=
    ![some 36, some 66, some 67, some 68, some 69, some 70, some 71, none, some 79, some 80, some
    81, some 82, some 83, some 84, some 85, some 86, some 87, some 88, some 89, some 90, some 91,
    some 92, none, none, none, none, none, none, none, none, none, none, none, none, none, none,
    none, none, none, none, none, none, none, none, none, none, none, none, none, none, none,
    none, none, none, none, none, none, none, none, none, none, none, none, none]

/-- The positions of the ones in `Action` (src/relative_pose/modules/sixpt/modules2.cpp lines
367-423). -/
def sixOne : Fin 64 → Option (Fin 64) :=
    ![none, none, none, none, none, none, none, some 0, none, none, none, none, none, none, none,
    none, none, none, none, none, none, none, some 1, some 2, some 3, some 4, some 5, some 6, some
    7, some 14, some 15, some 16, some 17, some 18, some 19, some 20, some 21, some 22, some 23,
    some 24, some 25, some 26, some 27, some 28, some 34, some 35, some 36, some 37, some 38, some
    39, some 40, some 41, some 42, some 43, some 48, some 49, some 50, some 51, some 52, some 53,
    some 57, some 58, some 59, some 62]

/-- `Action` (src/relative_pose/modules/sixpt/modules2.cpp lines 359-423). -/
def sixAction (M3 : Matrix (Fin 93) (Fin 64) ℝ) : Matrix (Fin 64) (Fin 64) ℝ := fun i s =>
  match sixSource i with
  | some r => 0 - M3 r s
  | none => if sixOne i = some s then 1 else 0

/-- `setupAction` (src/relative_pose/modules/sixpt/modules2.cpp lines 192-426). -/
noncomputable def sixSetup (L1 L2 : Fin 6 → Fin 6 → ℝ) : Option (Matrix (Fin 64) (Fin 64) ℝ) :=
  (sixM1 (sixM1p L1 L2)).bind fun M1 => (sixM3 M1).map sixAction

open Classical in
/-- The rotations read from the eigenvectors (src/relative_pose/modules/main.cpp lines 711-725). -/
noncomputable def sixSolutions (EV : Matrix (Fin 64) (Fin 64) ℂ) : List (Option Mat3) :=
  List.ofFn fun c : Fin 64 =>
    if EV 63 c = 0 then none
    else some (cayley2rot fun r : Fin 3 => (EV ⟨60 + r, by omega⟩ c / EV 63 c).re)ᵀ

/-- `sixpt` (src/relative_pose/methods.cpp lines 601-628, modules/main.cpp lines 689-726); `eig` gives
the eigenvectors. -/
noncomputable def sixpt (obs : Fin 6 → RelObs)
    (eig : Matrix (Fin 64) (Fin 64) ℝ → Matrix (Fin 64) (Fin 64) ℂ) : Option (List (Option Mat3)) :=
  (sixSetup (sixL1 obs) (sixL2 obs)).map fun Action => sixSolutions (eig Action)

end OpenGV
