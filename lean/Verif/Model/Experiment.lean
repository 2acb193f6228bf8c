import Verif.Model.Cayley
import Verif.Model.SacProblems
import Mathlib.Algebra.Order.Floor.Semiring
import Mathlib.Analysis.SpecialFunctions.Trigonometric.Basic

/-!
# Simulated experiments

`test/random_generators.cpp` and `test/experiment_helpers.cpp`: the random points, rotations and
correspondences on which every test and benchmark of the repository runs. The outputs of `rand()` are
parameters. Division by zero is `none` in the value that becomes NaN; an access outside a vector is `none` in
the whole result.
-/

namespace OpenGV.Experiment

open Matrix

/-- `(((double) rand())/((double) RAND_MAX)-0.5)*2.0` (test/random_generators.cpp line 51) for the output `r`
of `rand()`. -/
noncomputable def symRand (randMax r : ℕ) : ℝ := ((r : ℝ) / randMax - 0.5) * 2.0

/-- `generateRandomPoint` (test/random_generators.cpp lines 47-58); `c` holds the three values of
lines 51-53. -/
noncomputable def randomPoint (maximumDepth minimumDepth : ℝ) (c : Vec3) : Option Vec3 :=
  (normalize3 c).map fun direction => (maximumDepth - minimumDepth) • c + minimumDepth • direction

/-- `normalVector1` of `addNoise` (test/random_generators.cpp lines 79-106). -/
noncomputable def noiseNormal (c : Vec3) : Option Vec3 :=
  open Classical in
  if |c 0| > |c 1| ∧ |c 0| > |c 2| then normalize3 ![-c 1 / c 0, 1, 0]
  else if |c 1| > |c 0| ∧ |c 1| > |c 2| then normalize3 ![0, -c 2 / c 1, 1]
  else if c 2 = 0 then none
  else normalize3 ![1, 0, -c 0 / c 2]

/-- `addNoise` (test/random_generators.cpp lines 75-118); `x` and `y` are the values
`(rand()/RAND_MAX - 0.5) * 2` of lines 109 and 111. -/
noncomputable def addNoise (noiseLevel x y : ℝ) (c : Vec3) : Option Vec3 :=
  (noiseNormal c).bind fun n1 =>
    normalize3 ((800 : ℝ) • c + (noiseLevel * x / 1.4142) • n1 +
      (noiseLevel * y / 1.4142) • crossProduct c n1)

/-- `generateRandomTranslation` (test/random_generators.cpp lines 120-128). -/
def randomTranslation (maximumParallax : ℝ) (c : Vec3) : Vec3 := maximumParallax • c

/-- `R1` (test/random_generators.cpp lines 153-162, 209-218). -/
noncomputable def rollMatrix (a : ℝ) : Mat3 :=
  !![1, 0, 0; 0, Real.cos a, -Real.sin a; 0, - -Real.sin a, Real.cos a]

/-- `R2` (test/random_generators.cpp lines 164-173, 220-229). -/
noncomputable def pitchMatrix (a : ℝ) : Mat3 :=
  !![Real.cos a, 0, Real.sin a; 0, 1, 0; -Real.sin a, 0, Real.cos a]

/-- `R3` (test/random_generators.cpp lines 175-184, 231-240). -/
noncomputable def yawMatrix (a : ℝ) : Mat3 :=
  !![Real.cos a, -Real.sin a, 0; - -Real.sin a, Real.cos a, 0; 0, 0, 1]

/-- The orthonormalisation (test/random_generators.cpp lines 188-192, 244-248), for a matrix `R`. -/
noncomputable def orthonormalise (R : Mat3) : Option Mat3 :=
  (normalize3 fun i => R i 0).bind fun c0 =>
    (normalize3 (crossProduct c0 fun i => R i 1)).bind fun c2 =>
      (normalize3 (crossProduct c2 c0)).map fun c1 => Matrix.of fun i => ![c0 i, c1 i, c2 i]

/-- The end of both overloads of `generateRandomRotation` (test/random_generators.cpp lines 153-194,
209-250). -/
noncomputable def rotationOfAngles (rpy : Vec3) : Option Mat3 :=
  orthonormalise (yawMatrix (rpy 2) * pitchMatrix (rpy 1) * rollMatrix (rpy 0))

/-- `generateRandomRotation(maxAngle)` (test/random_generators.cpp lines 141-195); `u` holds the values
`rand()/RAND_MAX`. -/
noncomputable def randomRotationMax (maxAngle : ℝ) (u : Vec3) : Option Mat3 :=
  rotationOfAngles fun i => maxAngle * 2.0 * (u i - 0.5)

/-- `generateRandomRotation()` (test/random_generators.cpp lines 197-251). -/
noncomputable def randomRotation (u : Vec3) : Option Mat3 :=
  rotationOfAngles ![2 * Real.pi * (u 0 - 0.5), Real.pi * (u 1 - 0.5), 2 * Real.pi * (u 2 - 0.5)]

/-- `generateRandomDirectionTranslation` (test/random_generators.cpp lines 130-139). -/
noncomputable def randomDirectionTranslation (parallax : ℝ) (u : Vec3) : Option Vec3 :=
  (randomRotation u).map fun R => parallax • (R *ᵥ ![1, 0, 0])

/-- `extractRelativePose` (test/experiment_helpers.cpp lines 65-79) with `normalize = false`. -/
def relativePose (P1 P2 : Pose) : Pose :=
  (P1.2.transpose *ᵥ (P2.1 - P1.1), P1.2.transpose * P2.2)

/-- `extractRelativePose` (test/experiment_helpers.cpp lines 65-79) with `normalize = true`; `none` is a NaN
position. -/
noncomputable def relativePoseUnit (P1 P2 : Pose) : Option Pose :=
  (normalize3 (relativePose P1 P2).1).map fun t => (t, (relativePose P1 P2).2)

/-- `getPerturbedPose` (test/experiment_helpers.cpp lines 162-181); `a` and `b` hold the values
`(rand()/RAND_MAX - 0.5) * 2` for position and Cayley parameters. -/
noncomputable def perturbedPose (P : Pose) (amplitude : ℝ) (a b : Vec3) : Vec3 × Option Mat3 :=
  (fun i => P.1 i + a i * amplitude,
    (rot2cayley P.2).map fun c => cayley2rot fun i => c i + b i * amplitude)

/-- The loop of `getNindices` (test/experiment_helpers.cpp lines 186-189) from `i` on, with `k` rounds
left. -/
def nIndicesLoop : (k i : ℕ) → (indices : List ℤ) → List ℤ
  | 0, _, indices => indices
  | k + 1, i, indices => nIndicesLoop k (i + 1) (indices ++ [(i : ℤ)])

/-- `getNindices` (test/experiment_helpers.cpp lines 183-190). -/
def nIndices (n : ℤ) : List ℤ := nIndicesLoop n.toNat 0 []

/-- A camera on the body: offset and rotation. -/
abbrev Cam := Vec3 × Mat3

/-- A point in a camera on the body (test/experiment_helpers.cpp lines 231 and 234, 263 and 266, 398-407,
439 and 443). -/
def project (P : Pose) (cam : Cam) (p : Vec3) : Vec3 :=
  cam.2.transpose *ᵥ (P.2.transpose *ᵥ (p - P.1) - cam.1)

/-- The bearing vector before the outliers (test/experiment_helpers.cpp lines 234-241, 404-418). `none` is
NaN; `addNoise` of a NaN vector is NaN. -/
noncomputable def bearing (P : Pose) (cam : Cam) (noise : ℝ) (xy : ℝ × ℝ) (p : Vec3) : Option Vec3 :=
  (normalize3 (project P cam p)).bind fun f =>
    open Classical in if noise > 0 then addNoise noise xy.1 xy.2 f else some f

/-- The loop over the points, cycling through the cameras (test/experiment_helpers.cpp lines 221-247,
391-425). `mk i cam c p` is what is stored for point `i`; the second component of the result is the value
of `camCorrespondence` after the loop. -/
def camLoop {α : Type} (cams : List Cam) (mk : ℕ → ℕ → Cam → Vec3 → α) :
    (points : List Vec3) → (i cam : ℕ) → Option (List α × ℕ)
  | [], _, cam => some ([], cam)
  | p :: ps, i, cam =>
    match cams[cam]? with
    | none => none
    | some c =>
      let cam' := cam + 1
      (camLoop cams mk ps (i + 1) (if cam' > cams.length - 1 then 0 else cam')).map fun r =>
        (mk i cam c p :: r.1, r.2)

/-- The outlier loops (test/experiment_helpers.cpp lines 253-270, 429-447, 487-495): entry `i` is replaced
with the help of the `i`-th of the new random points. `upd` is the body of the loop; an entry past the end
of the vector is out of bounds. -/
def outlierLoop {α : Type} (upd : α → Vec3 → Option α) : (q : List Vec3) → (i : ℕ) → List α → Option (List α)
  | [], _, l => some l
  | q :: qs, i, l =>
    match l[i]? with
    | none => none
    | some s => (upd s q).bind fun s' => outlierLoop upd qs (i + 1) (l.set i s')

/-- `numberOutliers` (test/experiment_helpers.cpp lines 251, 428, 486). A negative value does not fit into
`size_t`. -/
noncomputable def numberOutliers (outlierFraction : ℝ) (numberPoints : ℕ) : Option ℕ :=
  open Classical in
  if ⌊outlierFraction * numberPoints⌋ < 0 then none else some ⌊outlierFraction * numberPoints⌋.toNat

/-- One 2D-3D correspondence: bearing vector (`none` is NaN), point and camera index. -/
structure Obs23 where
  f : Option Vec3
  p : Vec3
  cam : ℕ

/-- `generateRandom2D3DCorrespondences` (test/experiment_helpers.cpp lines 196-271). `gt` is the content of the
matrix after line 215, `xy i` the random numbers of the noise of point `i`, `out i` the random point of outlier
`i` (line 260). The output vectors are empty before the call. -/
noncomputable def generate23 (P : Pose) (cams : List Cam) (numberPoints : ℕ) (noise outlierFraction : ℝ)
    (xy : ℕ → ℝ × ℝ) (gt : List Vec3) (out : ℕ → Vec3) : Option (List Obs23) :=
  (camLoop cams (fun i cam c p => (⟨bearing P c noise (xy i) p, p, cam⟩ : Obs23)) gt 0 0).bind fun r =>
    (numberOutliers outlierFraction numberPoints).bind fun k =>
      outlierLoop (fun s q => (cams[s.cam]?).map fun c => { s with f := normalize3 (project P c q) })
        ((List.range k).map out) 0 r.1

/-- One 2D-2D correspondence: the bearing vectors (`none` is NaN) and the two camera indices, which are
always the same. -/
structure Obs22 where
  f1 : Option Vec3
  f2 : Option Vec3
  cam : ℕ

/-- `generateRandom2D2DCorrespondences` (test/experiment_helpers.cpp lines 363-448). The outlier loop reads the
camera at `camCorrespondence`, the variable left over from the first loop (lines 432-433). -/
noncomputable def generate22 (P1 P2 : Pose) (cams : List Cam) (numberPoints : ℕ) (noise outlierFraction : ℝ)
    (xy1 xy2 : ℕ → ℝ × ℝ) (gt : List Vec3) (out : ℕ → Vec3) : Option (List Obs22) :=
  (camLoop cams (fun i cam c p =>
      (⟨bearing P1 c noise (xy1 i) p, bearing P2 c noise (xy2 i) p, cam⟩ : Obs22)) gt 0 0).bind fun r =>
    (numberOutliers outlierFraction numberPoints).bind fun k =>
      outlierLoop (fun s q => (cams[r.2]?).map fun c => { s with f2 := normalize3 (project P2 c q) })
        ((List.range k).map out) 0 r.1

/-- The first loop of `generateRandom3D3DCorrespondences` (test/experiment_helpers.cpp lines 471-482). -/
noncomputable def pointLoop33 (P1 P2 : Pose) (noise : ℝ) (c1 c2 : ℕ → Vec3) :
    List Vec3 → ℕ → List (Vec3 × Vec3)
  | [], _ => []
  | p :: ps, i =>
    let p1 := P1.2.transpose *ᵥ (p - P1.1)
    let p2 := P2.2.transpose *ᵥ (p - P2.1)
    (open Classical in
      if noise > 0 then (p1 + randomTranslation noise (c1 i), p2 + randomTranslation noise (c2 i))
      else (p1, p2)) :: pointLoop33 P1 P2 noise c1 c2 ps (i + 1)

/-- `generateRandom3D3DCorrespondences` (test/experiment_helpers.cpp lines 450-496). -/
noncomputable def generate33 (P1 P2 : Pose) (numberPoints : ℕ) (noise outlierFraction : ℝ) (c1 c2 : ℕ → Vec3)
    (gt : List Vec3) (out : ℕ → Vec3) : Option (List (Vec3 × Vec3)) :=
  (numberOutliers outlierFraction numberPoints).bind fun k =>
    outlierLoop (fun s q => some (s.1, P2.2.transpose *ᵥ (q - P2.1))) ((List.range k).map out) 0
      (pointLoop33 P1 P2 noise c1 c2 gt 0)

end OpenGV.Experiment
