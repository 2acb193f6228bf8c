import Verif.Model.Adapters
import Verif.Model.SacProblems
import Verif.Model.Cayley

/-!
# Model of `optimize_nonlinear` (absolute pose, relative pose, point clouds)

The six unknowns are a pair: translation and Cayley parameters. A residual is `none` when it is NaN
or infinite. `Eigen::LevenbergMarquardt` is a parameter `lm`: given the residual function and the
start it returns the points at which it evaluated the residuals, in order, and the final point.
-/

namespace OpenGV.Refine

open Matrix Adapters

/-- The vector `x` of the optimisers, `x.block<3,1>(0,0)` and `x.block<3,1>(3,0)`. -/
abbrev Params := Vec3 × Vec3

/-- `translation`, `math::cayley2rot(cayley)` (absolute_pose/methods.cpp lines 735-737,
relative_pose/methods.cpp lines 1105-1107, point_cloud/methods.cpp lines 131-134). -/
noncomputable def poseOf (x : Params) : Pose := (x.1, cayley2rot x.2)

/-- `OptimizeNonlinearFunctor1::operator()` of the absolute problem
(absolute_pose/methods.cpp lines 729-766). -/
noncomputable def absResiduals (obs : List AbsObs) (x : Params) : List (Option ℝ) :=
  obs.map fun o => absScore (poseOf x) o.off o.rot o.p o.f

/-- `OptimizeNonlinearFunctor1::operator()` of the point cloud problem
(point_cloud/methods.cpp lines 125-149). -/
noncomputable def cloudResiduals (obs : List (Vec3 × Vec3)) (x : Params) : List (Option ℝ) :=
  obs.map fun o => some (cloudScore (poseOf x) o.1 o.2)

/-- One round of the loop of the relative functor (relative_pose/methods.cpp lines 1112-1148). The
adapter is part of the state: `sett12` and `setR12` replace its prior `prior`, `triangulate2` then
reads it. Returns the residual and the adapter's new prior. -/
noncomputable def relStep (x : Params) (prior : Pose) (o : RelObs) : Option ℝ × Pose :=
  let P := poseOf x
  let t := directTranslation P.1 P.2 o.off1 o.off2 o.rot1
  let R := directRotation P.2 o.rot1 o.rot2
  let prior1 : Pose := (t, prior.2)
  let prior2 : Pose := (prior1.1, R)
  (match triangulate2 prior2.1 prior2.2 o.f1 o.f2 with
    | none => none
    | some p => reprojScore t R p o.f1 o.f2, prior2)

/-- The loop of the relative functor (lines 1112-1148). -/
noncomputable def relLoop (x : Params) : List RelObs → Pose → List (Option ℝ) × Pose
  | [], prior => ([], prior)
  | o :: os, prior =>
    let (r, prior1) := relStep x prior o
    let (rs, prior2) := relLoop x os prior1
    (r :: rs, prior2)

/-- The adapter's prior after the residuals were evaluated at all the points `xs`. -/
noncomputable def relPrior (obs : List RelObs) (prior : Pose) (xs : List Params) : Pose :=
  xs.foldl (fun s x => (relLoop x obs s).2) prior

/-- `Eigen::LevenbergMarquardt`: evaluated points and result. -/
abbrev Lm := (Params → List (Option ℝ)) → Params → List Params × Params

/-- The common part of the three functions: start from the prior, minimise, convert back
(absolute_pose/methods.cpp lines 773-791, relative_pose/methods.cpp lines 1157-1177,
point_cloud/methods.cpp lines 157-175). `none`: the Cayley parameters of the prior are not finite,
hence neither is the result. -/
noncomputable def optimize (lm : Lm) (res : Params → List (Option ℝ)) (prior : Pose) :
    Option Pose :=
  match rot2cayley prior.2 with
  | none => none
  | some c => some (poseOf (lm res (prior.1, c)).2)

/-- `absolute_pose::optimize_nonlinear`. -/
noncomputable def optimizeAbs (lm : Lm) (obs : List AbsObs) (prior : Pose) : Option Pose :=
  optimize lm (absResiduals obs) prior

/-- `point_cloud::optimize_nonlinear`. -/
noncomputable def optimizeCloud (lm : Lm) (obs : List (Vec3 × Vec3)) (prior : Pose) : Option Pose :=
  optimize lm (cloudResiduals obs) prior

/-- `relative_pose::optimize_nonlinear`: the result and the prior the adapter holds afterwards. The
minimiser gets the residuals as a function of `x` alone; that they do not depend on the adapter's
changing prior is part of C61. -/
noncomputable def optimizeRel (lm : Lm) (obs : List RelObs) (prior : Pose) :
    Option (Pose × Pose) :=
  match rot2cayley prior.2 with
  | none => none
  | some c =>
    let run := lm (fun x => (relLoop x obs prior).1) (prior.1, c)
    some (poseOf run.2, relPrior obs prior run.1)

end OpenGV.Refine
