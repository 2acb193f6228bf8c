import Verif.Model.Python
import Verif.Model.RelativePose
import Verif.Model.Arun

/-!
# Model of some solvers as called from Python (python/pyopengv.cpp)

`none` in a result is an array with NaN (or, for `p2p`, a value that its model leaves open).
-/

namespace OpenGV.Python

/-- The two vectors of correspondence `i`, with the exceptions of the accessors. -/
def readBoth (A : PyAdapter) (i : ℕ) : Except PyErr (Vec3 × Vec3) :=
  match vectorFromArray A.first i with
  | .error e => .error e
  | .ok f =>
    match vectorFromArray A.second i with
    | .error e => .error e
    | .ok g => .ok (f, g)

/-- The correspondences 0 and 1. -/
def readTwo (A : PyAdapter) : Except PyErr ((Vec3 × Vec3) × (Vec3 × Vec3)) :=
  match readBoth A 0 with
  | .error e => .error e
  | .ok c =>
    match readBoth A 1 with
    | .error e => .error e
    | .ok d => .ok (c, d)

/-- `p2p` of the absolute pose (lines 195-200). -/
noncomputable def pyP2p (v p R : NdArray ℝ) : Except PyErr (Option (NdArray ℝ)) :=
  match newAdapterR v p R with
  | .error e => .error e
  | .ok A =>
    match readTwo A with
    | .error e => .error e
    | .ok (c, d) => .ok ((OpenGV.p2p A.R c.1 d.1 c.2 d.2).map arrayFromTranslation)

/-- `twopt` of the relative pose (lines 424-429), which unrotates with the given rotation. -/
noncomputable def pyTwopt (b1 b2 R : NdArray ℝ) : Except PyErr (Option (NdArray ℝ)) :=
  match newAdapterR b1 b2 R with
  | .error e => .error e
  | .ok A =>
    match readTwo A with
    | .error e => .error e
    | .ok (c, d) => .ok ((OpenGV.twopt A.R true c d).map arrayFromTranslation)

/-- `twopt_rotationOnly` (lines 431-436). -/
noncomputable def pyTwoptRotationOnly (svd : Mat3 → Mat3 × Mat3) (b1 b2 : NdArray ℝ) :
    Except PyErr (NdArray ℝ) :=
  match readTwo (newAdapter b1 b2) with
  | .error e => .error e
  | .ok (c, d) => .ok (arrayFromMatrix (twoptRotationOnly svd c d))

/-- `rotationOnly` (lines 438-443) for all correspondences of the adapter. -/
noncomputable def pyRotationOnly (svd : Mat3 → Mat3 × Mat3) (b1 b2 : NdArray ℝ) :
    Except PyErr (Option (NdArray ℝ)) :=
  match shape0 (newAdapter b1 b2).first with
  | .error e => .error e
  | .ok n =>
    match triangulateLoop (newAdapter b1 b2) (fun f g => (f, g)) n 0 [] with
    | .error e => .error e
    | .ok ps => .ok ((rotationOnly svd ps).map arrayFromMatrix)

end OpenGV.Python
