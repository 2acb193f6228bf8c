import Verif.Model.Ransac
import Verif.Model.Arun
import Verif.Model.RelativePose
import Verif.Model.Ge
import Verif.Model.Cayley

/-!
# Model of complete problems without a state, and of `ge`

`PointCloudSacProblem`, `RotationOnlySacProblem` and `CentralRelativePoseSacProblem` as `Ransac` sees them.
The last one writes the candidates and the scored model into the adapter, but reads them only after it has
written them, so that the adapter is not part of the state here.
-/

namespace OpenGV.WholeSac

open Matrix Sac

/-- `PointCloudSacProblem` (PointCloudSacProblem.cpp lines 35-62, 74-80). `data i` are the points `i` in
the two frames. An empty sample (`none` of `arunComplete`) does not come from `getSamples`. -/
noncomputable def pointCloud (svd : Mat3 → Mat3 × Mat3) (data : ℤ → Vec3 × Vec3) :
    UserProblem Unit Pose where
  sampleSize := 3
  isSampleGood := fun _ _ => true
  compute := fun w s => (arunComplete svd (s.map data), w)
  dist := fun m is => is.map fun i => cloudScore m (data i).1 (data i).2
  distEffect := fun w _ => w

/-- `optimizeModelCoefficients` (PointCloudSacProblem.cpp lines 64-72): the old model is not used. `none`
is a division by zero. -/
noncomputable def pointCloudOptimize (svd : Mat3 → Mat3 × Mat3) (data : ℤ → Vec3 × Vec3)
    (inliers : List ℤ) : Option Pose :=
  arunComplete svd (inliers.map data)

/-- `RotationOnlySacProblem` (RotationOnlySacProblem.cpp lines 38-69, 81-87). A sample with fewer than two
entries (read outside) does not come from `getSamples`. -/
noncomputable def rotationProblem (svd : Mat3 → Mat3 × Mat3) (data : ℤ → Vec3 × Vec3) :
    UserProblem Unit Mat3 where
  sampleSize := 2
  isSampleGood := fun _ _ => true
  compute := fun w s =>
    match s with
    | a :: b :: _ => (some (twoptRotationOnly svd (data a) (data b)), w)
    | _ => (none, w)
  dist := fun R is => is.map fun i => rotScore R (data i).1 (data i).2
  distEffect := fun w _ => w

/-- `optimizeModelCoefficients` (RotationOnlySacProblem.cpp lines 71-79). -/
noncomputable def rotationOptimize (svd : Mat3 → Mat3 × Mat3) (data : ℤ → Vec3 × Vec3)
    (inliers : List ℤ) : Option Mat3 :=
  rotationOnly svd (inliers.map data)

/-- `CentralRelativePoseSacProblem` (CentralRelativePoseSacProblem.cpp lines 38-290, 307-335). `solver` are
the essential matrices found from the first entries of the sample (lines 45-91). A score that is NaN is not
below the threshold; `nan` stands for it. -/
noncomputable def centralRelative (sampleSize : ℕ) (solver : List (Vec3 × Vec3) → List Mat3)
    (svd : Mat3 → Mat3 × Mat3 × Vec3) (nan : ℝ) (data : ℤ → Vec3 × Vec3) : UserProblem Unit Pose where
  sampleSize := sampleSize
  isSampleGood := fun _ _ => true
  compute := fun w s => (centralModel svd (s.map data) (solver (s.map data)), w)
  dist := fun m is => is.map fun i => (relScore m.1 m.2 (data i).1 (data i).2).getD nan
  distEffect := fun w _ => w

/-- The starting rotation of `ge` (src/relative_pose/methods.cpp lines 777-805): `rotationOnly` on the
bearing vectors in the frames of the rig. -/
noncomputable def geStartRotation (svd : Mat3 → Mat3 × Mat3) (cs : List GeCorr) : Option Mat3 :=
  rotationOnly svd (cs.map fun d => (d.camRotation1 *ᵥ d.f1, d.camRotation2 *ᵥ d.f2))

/-- `ge` (src/relative_pose/methods.cpp lines 655-811). `D`, `V` and `sort` are Eigen's decomposition of
`composeG` and the order found by `std::sort`. The outer `none`: a loop has not finished within `fuel`
rounds; the inner `none`: the result has NaN entries. -/
noncomputable def ge (svd : Mat3 → Mat3 × Mat3) (D : Matrix (Fin 4) (Fin 4) ℝ → Fin 4 → ℂ)
    (V : Matrix (Fin 4) (Fin 4) ℝ → Matrix (Fin 4) (Fin 4) ℂ) (sort : (Fin 4 → ℂ) → Equiv.Perm (Fin 4))
    (step : Vec3 → ℝ → Vec3 → Vec3) (fuel : ℕ) (rnd : ℕ → Vec3) (cs : List GeCorr) :
    Option (Option GeOutput) :=
  match (geStartRotation svd cs).bind rot2cayley with
  | none => some none
  | some c =>
    (geSearch (geSums cs) step fuel c rnd).map fun r => r.bind fun x =>
      let G := composeG (geSums cs) x
      geFinish x (D G) (V G) (sort (D G))

end OpenGV.WholeSac
