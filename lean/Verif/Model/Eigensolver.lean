import Verif.Model.Cayley
import Verif.Model.RelativePose
import Mathlib.Analysis.SpecialFunctions.Trigonometric.Inverse

/-!
# Model of the eigensolver (`eigensolver` of `src/relative_pose/methods.cpp`, `eigensolver_main` of
`src/relative_pose/modules/main.cpp` and `src/relative_pose/modules/eigensolver/modules.cpp`)
-/

namespace OpenGV

open Matrix

/-- The summation terms `xxF`, `yyF`, `zzF`, `xyF`, `yzF`, `zxF`. -/
structure FSums where
  xx : Mat3
  yy : Mat3
  zz : Mat3
  xy : Mat3
  yz : Mat3
  zx : Mat3

/-- All terms zero (src/relative_pose/methods.cpp lines 505-510). -/
def FSums.zero : FSums := ⟨0, 0, 0, 0, 0, 0⟩

/-- One step of the accumulation (src/relative_pose/methods.cpp lines 521-534). -/
def FSums.add (s : FSums) (weight : ℝ) (f1 f2 : Vec3) : FSums :=
  let F : Mat3 := vecMulVec f2 f2
  { xx := s.xx + (weight * f1 0 * f1 0) • F
    yy := s.yy + (weight * f1 1 * f1 1) • F
    zz := s.zz + (weight * f1 2 * f1 2) • F
    xy := s.xy + (weight * f1 0 * f1 1) • F
    yz := s.yz + (weight * f1 1 * f1 2) • F
    zx := s.zx + (weight * f1 2 * f1 0) • F }

/-- The weights used: 1, or the adapter's weight over the norm of all of them
(src/relative_pose/methods.cpp lines 512-516 and 525-527). `none` is the division by a zero norm
(every weight is then zero, `0/0` is NaN). A correspondence is `(weight, f1, f2)`. -/
noncomputable def usedWeights (useWeights : Bool) (cs : List (ℝ × Vec3 × Vec3)) :
    Option (List (ℝ × Vec3 × Vec3)) :=
  if useWeights then
    let norm := √((cs.map fun c => c.1 ^ 2).sum)
    if norm = 0 then none else some (cs.map fun c => (c.1 / norm, c.2))
  else some (cs.map fun c => (1, c.2))

/-- The loop of src/relative_pose/methods.cpp lines 519-535. -/
def eigenSums (cs : List (ℝ × Vec3 × Vec3)) : FSums :=
  cs.foldl (fun s c => s.add c.1 c.2.1 c.2.2) FSums.zero

/-- `R.row(i)*F*R'.row(j).transpose()`. -/
def rowForm (R : Mat3) (i : Fin 3) (F : Mat3) (R' : Mat3) (j : Fin 3) : ℝ := R i ⬝ᵥ (F *ᵥ R' j)

/-- `composeM` (src/relative_pose/modules/eigensolver/modules.cpp lines 190-258) from the reduced
rotation matrix `R`. -/
def composeMR (s : FSums) (R : Mat3) : Mat3 :=
  let M00 := rowForm R 2 s.yy R 2 - 2 * rowForm R 2 s.yz R 1 + rowForm R 1 s.zz R 1
  let M01 := rowForm R 2 s.yz R 0 - rowForm R 2 s.xy R 2 - rowForm R 1 s.zz R 0 +
    rowForm R 1 s.zx R 2
  let M02 := rowForm R 2 s.xy R 1 - rowForm R 2 s.yy R 0 - rowForm R 1 s.zx R 1 +
    rowForm R 1 s.yz R 0
  let M11 := rowForm R 0 s.zz R 0 - 2 * rowForm R 0 s.zx R 2 + rowForm R 2 s.xx R 2
  let M12 := rowForm R 0 s.zx R 1 - rowForm R 0 s.yz R 0 - rowForm R 2 s.xx R 1 +
    rowForm R 2 s.xy R 0
  let M22 := rowForm R 1 s.xx R 1 - 2 * rowForm R 0 s.xy R 1 + rowForm R 0 s.yy R 0
  !![M00, M01, M02; M01, M11, M12; M02, M12, M22]

/-- `composeM` (src/relative_pose/modules/eigensolver/modules.cpp lines 190-258). -/
def composeM (s : FSums) (cayley : Vec3) : Mat3 := composeMR s (cayley2rotReduced cayley)

/-- `R_jac1`, `R_jac2`, `R_jac3` (src/relative_pose/modules/eigensolver/modules.cpp lines
278-304). -/
def rJac (c : Vec3) (k : Fin 3) : Mat3 :=
  match k with
  | 0 => !![2 * c 0, 2 * c 1, 2 * c 2; 2 * c 1, -2 * c 0, -2; 2 * c 2, 2, -2 * c 0]
  | 1 => !![-2 * c 1, 2 * c 0, 2; 2 * c 0, 2 * c 1, 2 * c 2; -2, 2 * c 2, -2 * c 1]
  | 2 => !![-2 * c 2, -2, 2 * c 0; 2, -2 * c 2, 2 * c 1; 2 * c 0, 2 * c 1, 2 * c 2]

/-- `M_jac1`, `M_jac2`, `M_jac3` (src/relative_pose/modules/eigensolver/modules.cpp lines 308-566):
the three blocks differ only in the matrix `J` among `R_jac1`, `R_jac2`, `R_jac3`. -/
def composeMJac (s : FSums) (R J : Mat3) : Mat3 :=
  let M00 := 2 * rowForm J 2 s.yy R 2 - 2 * rowForm J 2 s.yz R 1 - 2 * rowForm R 2 s.yz J 1 +
    2 * rowForm J 1 s.zz R 1
  let M01 := rowForm J 2 s.yz R 0 + rowForm R 2 s.yz J 0 - 2 * rowForm J 2 s.xy R 2 -
    rowForm J 1 s.zz R 0 - rowForm R 1 s.zz J 0 + rowForm J 1 s.zx R 2 + rowForm R 1 s.zx J 2
  let M02 := rowForm J 2 s.xy R 1 + rowForm R 2 s.xy J 1 - rowForm J 2 s.yy R 0 -
    rowForm R 2 s.yy J 0 - 2 * rowForm J 1 s.zx R 1 + rowForm J 1 s.yz R 0 + rowForm R 1 s.yz J 0
  let M11 := 2 * rowForm J 0 s.zz R 0 - 2 * rowForm J 0 s.zx R 2 - 2 * rowForm R 0 s.zx J 2 +
    2 * rowForm J 2 s.xx R 2
  let M12 := rowForm J 0 s.zx R 1 + rowForm R 0 s.zx J 1 - 2 * rowForm J 0 s.yz R 0 -
    rowForm J 2 s.xx R 1 - rowForm R 2 s.xx J 1 + rowForm J 2 s.xy R 0 + rowForm R 2 s.xy J 0
  let M22 := 2 * rowForm J 1 s.xx R 1 - 2 * rowForm J 0 s.xy R 1 - 2 * rowForm R 0 s.xy J 1 +
    2 * rowForm J 0 s.yy R 0
  !![M00, M01, M02; M01, M11, M12; M02, M12, M22]

/-- The coefficients `b`, `c`, `d` (src/relative_pose/modules/eigensolver/modules.cpp lines
48-54). -/
def cubicB (M : Mat3) : ℝ := -M 0 0 - M 1 1 - M 2 2

@[inherit_doc cubicB]
def cubicC (M : Mat3) : ℝ :=
  -M 0 2 ^ 2 - M 1 2 ^ 2 - M 0 1 ^ 2 + M 0 0 * M 1 1 + M 0 0 * M 2 2 + M 1 1 * M 2 2

@[inherit_doc cubicB]
def cubicD (M : Mat3) : ℝ :=
  M 1 1 * M 0 2 ^ 2 + M 0 0 * M 1 2 ^ 2 + M 2 2 * M 0 1 ^ 2 - M 0 0 * M 1 1 * M 2 2 -
    2 * M 0 1 * M 1 2 * M 0 2

/-- `s` and `t` (lines 56-57). -/
def evS (b c d : ℝ) : ℝ := 2 * b ^ 3 - 9 * b * c + 27 * d

@[inherit_doc evS]
def evT (b c : ℝ) : ℝ := 4 * (b ^ 2 - 3 * c) ^ 3

/-- Lines 59-69: the value computed from `b`, `s` and `t`. -/
noncomputable def evFormula (b s t : ℝ) : ℝ :=
  let alpha := Real.arccos (s / √t)
  let beta := alpha / 3
  let y := Real.cos beta
  let r := 0.5 * √t
  let w := r ^ ((1 : ℝ) / 3)
  let k := w * y
  (-b - 2 * k) / 3

open Classical in
/-- `getSmallestEV` from the matrix `M` (src/relative_pose/modules/eigensolver/modules.cpp lines
47-71). `none` is a NaN: the square root of a negative number, the division by zero, or the inverse
cosine outside `[-1, 1]`. -/
noncomputable def smallestEVOf (M : Mat3) : Option ℝ :=
  let b := cubicB M
  let s := evS b (cubicC M) (cubicD M)
  let t := evT b (cubicC M)
  if t ≤ 0 ∨ 1 < |s / √t| then none else some (evFormula b s t)

/-- `getSmallestEV` (src/relative_pose/modules/eigensolver/modules.cpp lines 34-71). -/
noncomputable def getSmallestEV (s : FSums) (cayley : Vec3) : Option ℝ :=
  smallestEVOf (composeM s cayley)

/-- The derivative of the value (src/relative_pose/modules/eigensolver/modules.cpp lines 92-184),
where `J` is the derivative of `M`; the three blocks differ only in `J`. -/
noncomputable def evJac (M J : Mat3) : ℝ :=
  let b := cubicB M
  let b' := -J 0 0 - J 1 1 - J 2 2
  let c := cubicC M
  let c' := -2 * M 0 2 * J 0 2 - 2 * M 1 2 * J 1 2 - 2 * M 0 1 * J 0 1 + J 0 0 * M 1 1 +
    M 0 0 * J 1 1 + J 0 0 * M 2 2 + M 0 0 * J 2 2 + J 1 1 * M 2 2 + M 1 1 * J 2 2
  let d := cubicD M
  let d' := J 1 1 * M 0 2 ^ 2 + M 1 1 * 2 * M 0 2 * J 0 2 + J 0 0 * M 1 2 ^ 2 +
    M 0 0 * 2 * M 1 2 * J 1 2 + J 2 2 * M 0 1 ^ 2 + M 2 2 * 2 * M 0 1 * J 0 1 -
    J 0 0 * M 1 1 * M 2 2 - M 0 0 * J 1 1 * M 2 2 - M 0 0 * M 1 1 * J 2 2 -
    2 * (J 0 1 * M 1 2 * M 0 2 + M 0 1 * J 1 2 * M 0 2 + M 0 1 * M 1 2 * J 0 2)
  let s := evS b c d
  let t := evT b c
  let s' := 2 * 3 * b ^ 2 * b' - 9 * b' * c - 9 * b * c' + 27 * d'
  let t' := 4 * 3 * (b ^ 2 - 3 * c) ^ 2 * (2 * b * b' - 3 * c')
  let alpha := Real.arccos (s / √t)
  let alpha' := -1 / √(1 - s ^ 2 / t) * (s' * √t - s * 0.5 * t ^ (-0.5 : ℝ) * t') / t
  let beta := alpha / 3
  let beta' := alpha' / 3
  let y := Real.cos beta
  let y' := -Real.sin beta * beta'
  let r := 0.5 * √t
  let r' := 0.25 * t ^ (-0.5 : ℝ) * t'
  let w := r ^ ((1 : ℝ) / 3)
  let w' := 1 / 3 * r ^ (-2 / 3 : ℝ) * r'
  let k' := w' * y + w * y'
  (-b' - 2 * k') / 3

open Classical in
/-- `getSmallestEVwithJacobian` (src/relative_pose/modules/eigensolver/modules.cpp lines 73-188).
`none` is a NaN or an infinity in the result: also the square root of `1 - s^2/t` is divided
by. -/
noncomputable def getSmallestEVwithJacobian (s : FSums) (cayley : Vec3) : Option (ℝ × Vec3) :=
  let R := cayley2rotReduced cayley
  let M := composeMR s R
  let b := cubicB M
  let S := evS b (cubicC M) (cubicD M)
  let T := evT b (cubicC M)
  if T ≤ 0 ∨ 1 < |S / √T| ∨ 1 - S ^ 2 / T ≤ 0 then none
  else some (evFormula b S T, fun k => evJac M (composeMJac s R (rJac cayley k)))

/-- `eigensolverOutput_t` (include/opengv/relative_pose/modules/main.hpp and types.hpp). -/
structure EigensolverOutput where
  translation : Vec3
  rotation : Mat3
  eigenvalues : Vec3
  eigenvectors : Mat3

/-- The end of `eigensolver_main` (src/relative_pose/modules/main.cpp lines 655-691). `cayley` is
the result of the Levenberg-Marquardt minimisation, `D` and `V` are the results of Eigen's
`EigenSolver` on `composeM`, and `π` is the order found by `std::sort`. -/
noncomputable def eigensolverMain (cayley : Vec3) (D : Fin 3 → ℂ) (V : Matrix (Fin 3) (Fin 3) ℂ)
    (π : Equiv.Perm (Fin 3)) : EigensolverOutput :=
  let D' : Vec3 := fun i => (D (π i)).re
  let V' : Mat3 := of fun j i => (V j (π i)).re
  let translationMagnitude := √(D' 0 ^ 2 + D' 1 ^ 2)
  { translation := translationMagnitude • fun j => V' j 2
    rotation := cayley2rot cayley
    eigenvalues := D'
    eigenvectors := V' }

open Classical in
/-- The end of `eigensolver` (src/relative_pose/methods.cpp lines 540-548), where `(f1, f2)` is the
first correspondence: the sign of the translation. -/
noncomputable def fixTranslation (f1 f2 : Vec3) (out : EigensolverOutput) : EigensolverOutput :=
  let opticalFlow := f1 - out.rotation *ᵥ f2
  if opticalFlow ⬝ᵥ out.translation < 0 then { out with translation := -out.translation } else out

end OpenGV
