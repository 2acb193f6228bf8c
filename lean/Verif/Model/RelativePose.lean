import Verif.Model.SacProblems
import Mathlib.Analysis.Complex.Basic
import Mathlib.LinearAlgebra.Matrix.Adjugate

/-!
# Model of the linear relative pose solvers (`src/relative_pose/methods.cpp`) and of
`CentralRelativePoseSacProblem::computeModelCoefficients`

A correspondence is a pair of bearing vectors `(f1, f2)`, in the first and in the second frame.
-/

namespace OpenGV

open Matrix

/-- `twopt` (src/relative_pose/methods.cpp lines 56-86) on the two correspondences `c`, `d`. `none`
is the division by a zero norm. -/
noncomputable def twopt (R12 : Mat3) (unrotate : Bool) (c d : Vec3 × Vec3) : Option Vec3 :=
  let f1 := c.1
  let f1prime := if unrotate then R12 *ᵥ c.2 else c.2
  let f2 := d.1
  let f2prime := if unrotate then R12 *ᵥ d.2 else d.2
  let normal1 := crossProduct f1 f1prime
  let normal2 := crossProduct f2 f2prime
  match normalize3 (crossProduct normal1 normal2) with
  | none => none
  | some translation =>
    let opticalFlow := f1 - f1prime
    open Classical in
    some (if opticalFlow ⬝ᵥ translation < 0 then -translation else translation)

/-- One row of `A` in `sevenpt` and `eightpt` (src/relative_pose/methods.cpp lines 327-339 and
435-447): the roles of the two frames are exchanged. -/
def epipolarRow (c : Vec3 × Vec3) : Fin 9 → ℝ :=
  let f1 := c.2
  let f2 := c.1
  ![f2 0 * f1 0, f2 0 * f1 1, f2 0 * f1 2, f2 1 * f1 0, f2 1 * f1 1, f2 1 * f1 2,
    f2 2 * f1 0, f2 2 * f1 1, f2 2 * f1 2]

/-- The matrix `A` of `sevenpt` and `eightpt`. -/
def epipolarA (cs : List (Vec3 × Vec3)) : Matrix (Fin cs.length) (Fin 9) ℝ :=
  Matrix.of fun i => epipolarRow cs[i]

/-- The 3x3 matrix made of a 9-vector: the columns of `F_temp` are the three parts of the vector,
and `F` is its transpose (lines 348-358 and 454-458). -/
def unvec (f : Fin 9 → ℝ) : Mat3 :=
  let Ftemp : Mat3 := !![f 0, f 3, f 6; f 1, f 4, f 7; f 2, f 5, f 8]
  Ftemp.transpose

/-- `eightpt` (src/relative_pose/methods.cpp lines 424-473). `V` are the right singular vectors of
`epipolarA`, `svd` is the decomposition `(U, V, σ)` of a 3x3 matrix. -/
def eightpt (V : Matrix (Fin 9) (Fin 9) ℝ) (svd : Mat3 → Mat3 × Mat3 × Vec3) : Mat3 :=
  let F := unvec fun i => V i 8
  let d := svd F
  let S : Mat3 := !![d.2.2 0, 0, 0; 0, d.2.2 1, 0; 0, 0, 0]
  d.1 * S * d.2.1.transpose

/-- `eps` of `sevenpt` (line 360). -/
noncomputable def sevenEps : ℝ := 1 / 100000000

open Classical in
/-- The end of `sevenpt` (lines 363-397) on the two null space matrices. `eig` is Eigen's
`EigenSolver`; Eigen's 3x3 inverse is the adjugate over the determinant. `none` is the inversion
of a singular matrix. -/
noncomputable def sevenptFrom (n : ℕ) (eig : Mat3 → Fin 3 → ℂ) (F1 F2 : Mat3) :
    Option (List Mat3) :=
  if |F1.det| < sevenEps ∨ n > 7 then some [F1]
  else if F2.det = 0 then none
  else
    let M := ((F2.det)⁻¹ • F2.adjugate) * F1
    let D := eig M
    let val1 := |(D 0).im|
    let val2 := |(D 1).im|
    let val3 := |(D 2).im|
    if val1 < sevenEps ∧ val2 < sevenEps ∧ val3 < sevenEps then
      some [F1 - (D 0).re • F2, F1 - (D 1).re • F2, F1 - (D 2).re • F2]
    else
      let minIndex : ℝ × Fin 3 := if val2 < val1 then (val2, 1) else (val1, 0)
      let minIndex' : Fin 3 := if val3 < minIndex.1 then 2 else minIndex.2
      some [F1 - (D minIndex').re • F2]

/-- `sevenpt` (src/relative_pose/methods.cpp lines 316-398) for `n` correspondences; `V` are the
right singular vectors of `epipolarA`. -/
noncomputable def sevenpt (n : ℕ) (V : Matrix (Fin 9) (Fin 9) ℝ) (eig : Mat3 → Fin 3 → ℂ) :
    Option (List Mat3) :=
  sevenptFrom n eig (unvec fun i => V i 8) (unvec fun i => V i 7)

/-! ## From essential matrices to a pose -/

/-- The matrix `W` (CentralRelativePoseSacProblem.cpp lines 96-99). -/
def wMat : Mat3 := !![0, -1, 0; 1, 0, 0; 0, 0, 1]

open Classical in
/-- `if( R.determinant() < 0 ) R = -R` (lines 133-134, 244). -/
noncomputable def fixSign (R : Mat3) : Mat3 := if R.det < 0 then -R else R

/-- The four transformations derived from an essential matrix (CentralRelativePoseSacProblem.cpp
lines 107-150). -/
noncomputable def candidates (svd : Mat3 → Mat3 × Mat3 × Vec3) (E : Mat3) : List Pose :=
  let U := (svd E).1
  let V := (svd E).2.1
  let scale := (svd E).2.2 0
  let Ra := U * wMat * V.transpose
  let Rb := U * wMat.transpose * V.transpose
  let ta : Vec3 := fun i => scale * U i 2
  let tb := -ta
  [(ta, fixSign Ra), (ta, fixSign Rb), (tb, fixSign Ra), (tb, fixSign Rb)]

/-- The second derivation of the chosen transformation (lines 205-250); `none` is
`default: return false`. -/
noncomputable def rederive (svd : Mat3 → Mat3 × Mat3 × Vec3) (E : Mat3) (sub : ℕ) : Option Pose :=
  let U := (svd E).1
  let V := (svd E).2.1
  let scale := (svd E).2.2 0
  match sub with
  | 0 => some (fun i => scale * U i 2, fixSign (U * wMat * V.transpose))
  | 1 => some (fun i => scale * U i 2, fixSign (U * wMat.transpose * V.transpose))
  | 2 => some (fun i => -scale * U i 2, fixSign (U * wMat * V.transpose))
  | 3 => some (fun i => -scale * U i 2, fixSign (U * wMat.transpose * V.transpose))
  | _ => none

/-- The quality of a candidate: the sum of the two-view scores of the sample
(lines 163-190). -/
noncomputable def candQuality (sample : List (Vec3 × Vec3)) (P : Pose) : Option ℝ :=
  quality (fun k => (sample[k]?).bind fun c => relScore P.1 P.2 c.1 c.2) (List.range sample.length)

/-- `computeModelCoefficients` of the central relative problem after the essential matrices have been
computed (CentralRelativePoseSacProblem.cpp lines 94-252). The two nested loops are one loop over
the candidates in the same order; candidate `4 i + j` has index `i` and subindex `j`. `none` is
`return false`. -/
noncomputable def centralModel (svd : Mat3 → Mat3 × Mat3 × Vec3) (sample : List (Vec3 × Vec3))
    (Es : List Mat3) : Option Pose :=
  match minLoop ((Es.flatMap (candidates svd)).map (candQuality sample)) 0 initialScore none with
  | none => none
  | some k =>
    match Es[k / 4]? with
    | none => none
    | some E => rederive svd E (k % 4)

end OpenGV
