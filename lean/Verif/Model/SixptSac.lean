import Verif.Model.Sixpt
import Verif.Model.SacProblems

/-!
# Model of the six point hypotheses of the non-central sample consensus problems

The case `SIXPT` of `computeModelCoefficients` in
`src/sac_problems/relative_pose/NoncentralRelativePoseSacProblem.cpp` (lines 63-200), and the same
statements in `MultiNoncentralRelativePoseSacProblem.cpp` (lines 111-236, with the order of the indices
modelled for C51). A sample has nine correspondences: six for the rotations, three to choose.
-/

namespace OpenGV

open Matrix Adapters

/-- `t1_skew` and `t2_skew` (NoncentralRelativePoseSacProblem.cpp lines 84-100). -/
def sixSkew (t : Vec3) : Mat3 := !![0, -t 2, t 1; t 2, 0, -t 0; -t 1, t 0, 0]

/-- The "generalized normal vector" `g` (NoncentralRelativePoseSacProblem.cpp lines 79-105). -/
def sixNormal (o : RelObs) (R : Mat3) : Fin 4 → ℝ :=
  let f1 := o.rot1 *ᵥ o.f1
  let f2 := o.rot2 *ᵥ o.f2
  let n := crossProduct f1 (R *ᵥ f2)
  ![n 0, n 1, n 2, f1 ᵥ* (sixSkew o.off1 * R - R * sixSkew o.off2) ⬝ᵥ f2]

/-- `G` (NoncentralRelativePoseSacProblem.cpp lines 74-110). -/
def sixG (obs : Fin 6 → RelObs) (R : Mat3) : Matrix (Fin 4) (Fin 4) ℝ :=
  ∑ i, vecMulVec (sixNormal (obs i) R) (sixNormal (obs i) R)

open Classical in
/-- The translation read from the eigenvectors `V` of `G` (NoncentralRelativePoseSacProblem.cpp lines
112-120): always from column 0. `none` is a division by zero. -/
noncomputable def sixTranslation (V : Matrix (Fin 4) (Fin 4) ℂ) : Option Vec3 :=
  let factor := (V 3 0).re
  if factor = 0 then none
  else some ![1 / factor * (V 0 0).re, 1 / factor * (V 1 0).re, 1 / factor * (V 2 0).re]

/-- `transformations` (NoncentralRelativePoseSacProblem.cpp lines 70-122): an entry for every rotation,
`none` if it is not finite. `eig4` gives the eigenvectors of `G`. -/
noncomputable def sixPoses (obs : Fin 6 → RelObs)
    (eig4 : Matrix (Fin 4) (Fin 4) ℝ → Matrix (Fin 4) (Fin 4) ℂ) (rotations : List (Option Mat3)) :
    List (Option Pose) :=
  rotations.map fun r => r.bind fun R =>
    (sixTranslation (eig4 (sixG obs R))).map fun t => (t, R)

/-- The score of one correspondence (NoncentralRelativePoseSacProblem.cpp lines 145-184). -/
noncomputable def sixScore (P : Pose) (o : RelObs) : Option ℝ :=
  noncentralRelScore P o.off1 o.off2 o.rot1 o.rot2 o.f1 o.f2

/-- `quality` of a transformation (NoncentralRelativePoseSacProblem.cpp lines 138-185): the sum over the
correspondences 6, 7 and 8 of the sample. It is a NaN for a transformation that is not finite. -/
noncomputable def sixQuality (obs : ℕ → RelObs) (P : Option Pose) : Option ℝ :=
  P.bind fun P => quality (fun k => sixScore P (obs k)) [6, 7, 8]

/-- The case `SIXPT` (NoncentralRelativePoseSacProblem.cpp lines 63-200) for a sample, `obs k` is
the correspondence `indices[k]`; `none` is `return false`. If `sixpt` has no finite result, every
transformation has a NaN, and so has its quality. -/
noncomputable def sixSac (obs : ℕ → RelObs)
    (eig : Matrix (Fin 64) (Fin 64) ℝ → Matrix (Fin 64) (Fin 64) ℂ)
    (eig4 : Matrix (Fin 4) (Fin 4) ℝ → Matrix (Fin 4) (Fin 4) ℂ) : Option Pose :=
  (sixpt (fun i => obs i) eig).bind fun rotations =>
    let poses := sixPoses (fun i => obs i) eig4 rotations
    (minLoop (poses.map (sixQuality obs)) 0 initialScore none).bind fun i => (poses[i]?).bind id

end OpenGV
