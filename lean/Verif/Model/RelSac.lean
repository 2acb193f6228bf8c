import Verif.Model.Refine
import Verif.Model.Eigensolver
import Verif.Model.MultiRansac
import Verif.Model.MultiAdapter

/-!
# Model of the relative problems with a state

`TranslationOnlySacProblem`, `EigensolverSacProblem` and `MultiCentralRelativePoseSacProblem` as the
drivers of `Model/Ransac` and `Model/Lmeds` see them. The state is the prior of the adapter, which the
first two read and write. The correspondences are a function of the index; what the function gives
outside the vectors of the adapter is not specified.
-/

namespace OpenGV.RelSac

open Matrix Sac

/-- A pose whose translation can have NaN entries (`none`): the columns of a 3x4 model, or the fields
`_t12` and `_R12` of the adapter. -/
abbrev NanPose := Option Vec3 × Mat3

/-! ## Known rotation -/

/-- `TranslationOnlySacProblem` (TranslationOnlySacProblem.cpp lines 36-47, 49-59, 102-108). The state is
the prior of the adapter. `compute` is `computeModelCoefficients`; a sample with fewer than two entries
(read outside) does not come from `getSamples`. The first statements of `getSelectedDistancesToModel`
store the model in the adapter. The scores are a parameter: the theorems hold for all of them. -/
noncomputable def translationOnly (data : ℤ → Vec3 × Vec3) (dist : NanPose → List ℤ → List ℝ) :
    UserProblem NanPose NanPose where
  sampleSize := 2
  isSampleGood := fun _ _ => true
  compute := fun prior s =>
    match s with
    | a :: b :: _ => (some (twopt prior.2 true (data a) (data b), prior.2), prior)
    | _ => (none, prior)
  dist := dist
  distEffect := fun prior m =>
    let prior1 : NanPose := (m.1, prior.2)
    (prior1.1, m.2)

/-- The correspondences of a central adapter. -/
def centralObs (c : Vec3 × Vec3) : Adapters.RelObs := ⟨c.1, c.2, 0, 1, 0, 1⟩

/-- `optimizeModelCoefficients` (TranslationOnlySacProblem.cpp lines 87-100) for a finite model: it becomes
the prior, then `optimize_nonlinear`. The refined model and the prior that the adapter holds
afterwards. -/
noncomputable def translationOptimize (lm : Refine.Lm) (cs : List (Vec3 × Vec3)) (m : Pose) :
    Option (Pose × Pose) :=
  Refine.optimizeRel lm (cs.map centralObs) m

/-! ## Eigensolver -/

/-- The parts of Eigen and of the C++ library that `eigensolver_main` calls: Levenberg-Marquardt from a
start, `EigenSolver`, and the order found by `std::sort`. -/
structure EigSolvers where
  lm : FSums → Vec3 → Vec3
  D : Mat3 → Fin 3 → ℂ
  V : Mat3 → Matrix (Fin 3) (Fin 3) ℂ
  sort : (Fin 3 → ℂ) → Equiv.Perm (Fin 3)

/-- `eigensolver` (src/relative_pose/methods.cpp lines 496-549, modules/main.cpp lines 632-687) from the
rotation stored in `output`. A correspondence is `(weight, f1, f2)`; `none` is a NaN: the start is a half
turn, or all weights are zero. An empty list (read outside) does not come from `getSamples`. -/
noncomputable def eigensolver (E : EigSolvers) (useWeights : Bool) (cs : List (ℝ × Vec3 × Vec3))
    (start : Mat3) : Option EigensolverOutput :=
  match usedWeights useWeights cs, cs with
  | some ds, c :: _ =>
    let s := eigenSums ds
    (rot2cayley start).map fun x =>
      let cayley := E.lm s x
      let M := composeM s cayley
      fixTranslation c.2.1 c.2.2 (eigensolverMain cayley (E.D M) (E.V M) (E.sort (E.D M)))
  | _, _ => none

/-- `cayley[i] + (((double) rand()) / ((double) RAND_MAX) - 0.5) * 2.0 * maxVariation`
(EigensolverSacProblem.cpp lines 44-51, 143-147). `rand k` is the result of call `k` of `rand`. -/
noncomputable def randomStart (rand : ℕ → ℕ) (randMax pos : ℕ) (maxVariation : ℝ) (R : Mat3) :
    Option Mat3 :=
  (rot2cayley R).map fun cayley => cayley2rot fun i =>
    cayley i + ((rand (pos + i) : ℝ) / randMax - 0.5) * 2 * maxVariation

/-- What scoring leaves in the adapter (EigensolverSacProblem.cpp lines 89-95, 122-123). -/
def eigScoreEffect (prior : NanPose) (m : NanPose) : NanPose :=
  let tempTranslation := prior.1
  let tempRotation := prior.2
  let prior1 : NanPose := (m.1, prior.2)
  let prior2 : NanPose := (prior1.1, m.2)
  let prior3 : NanPose := (tempTranslation, prior2.2)
  (prior3.1, tempRotation)

/-- `EigensolverSacProblem` (EigensolverSacProblem.cpp lines 38-56, 58-124, 163-168). The state is the
prior of the adapter and the number of calls of `rand`; a model is `none` if it has NaN entries. -/
noncomputable def eigenProblem (E : EigSolvers) (rand : ℕ → ℕ) (randMax sampleSize : ℕ)
    (data : ℤ → Vec3 × Vec3) (dist : Option EigensolverOutput → List ℤ → List ℝ) :
    UserProblem (NanPose × ℕ) (Option EigensolverOutput) where
  sampleSize := sampleSize
  isSampleGood := fun _ _ => true
  compute := fun (prior, pos) s =>
    (some ((randomStart rand randMax pos 0.1 prior.2).bind
      (eigensolver E false (s.map fun i => (1, data i)))), prior, pos + 3)
  dist := dist
  distEffect := fun (prior, pos) m =>
    (match m with
      | some m => eigScoreEffect prior (some m.translation, m.rotation)
      | none => eigScoreEffect prior (none, 0), pos)

/-- `optimizeModelCoefficients` (EigensolverSacProblem.cpp lines 126-161): one round without variation,
with weights. -/
noncomputable def eigenOptimize (E : EigSolvers) (rand : ℕ → ℕ) (randMax pos : ℕ)
    (cs : List (ℝ × Vec3 × Vec3)) (m : EigensolverOutput) : Option EigensolverOutput :=
  (randomStart rand randMax pos 0 m.rotation).bind (eigensolver E true cs)

/-! ## Several central pairs -/

/-- `MultiCentralRelativePoseSacProblem::computeModelCoefficients`
(MultiCentralRelativePoseSacProblem.cpp lines 39-113): the essential matrices of the pairs are
decomposed, but the loop that should fill `outModel` (lines 102-110) is empty. What is decomposed is not
used and left out here. The return value and `outModel`. -/
def multiCentralCompute (outModel : List Pose) : Bool × List Pose := (true, outModel)

/-- `MultiCentralRelativePoseSacProblem::getSelectedDistancesToModel` (lines 116-164): `none` is an access
outside a vector; `model[pairIndex]` is read for every entry of `indices`. -/
noncomputable def multiCentralScores (data1 data2 : List (List Vec3)) (model : List Pose)
    (indices : List (List ℕ)) : Option (List (List ℝ)) :=
  if indices.length ≤ model.length then
    multiScores data1 data2 (fun k => (model[k]?).getD (0, 0)) indices
  else none

/-- The problem as `MultiRansac` sees it. The state is the local variable `model_coefficients`
(MultiRansac.hpp line 56), which is empty at the start and handed to `computeModelCoefficients`. The
number of inliers that is counted if the scores are undefined is `bad`; the program is undefined then
already. -/
noncomputable def multiCentral (data1 data2 : List (List Vec3)) (sizes : List ℕ) (bad : ℕ)
    (rng : ℕ → ℕ) (indices : List (List ℤ)) :
    Problem (List Pose × List (List ℤ) × ℕ) (List (List ℤ)) (List Pose) (List (List ℤ)) :=
  let U : MultiUserProblem (List Pose) (List Pose) :=
    { sampleSizes := fun w => (sizes, w)
      isSampleGood := fun _ _ => true
      compute := fun w _ =>
        match multiCentralCompute w with
        | (true, m) => (some m, m)
        | (false, m) => (none, m)
      dist := fun _ _ => []
      distEffect := fun w _ => w }
  let scores := fun m => multiCentralScores data1 data2 m (indices.map fun l => l.map Int.toNat)
  { multi U rng indices with
    count := fun m thr =>
      match scores m with
      | none => bad
      | some d => multiCount indices d thr
    select := fun m thr =>
      match scores m with
      | none => none
      | some d => multiSelect indices d thr }

end OpenGV.RelSac
