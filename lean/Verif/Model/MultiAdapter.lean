import Mathlib.Data.Real.Basic
import Mathlib.Algebra.Order.Floor.Ring
import Mathlib.Algebra.Order.Archimedean.Real.Basic

/-!
# Model of the multi-camera adapters

The constructors of
* `src/absolute_pose/NoncentralAbsoluteMultiAdapter.cpp` (lines 34-61),
* `src/relative_pose/NoncentralRelativeMultiAdapter.cpp` (lines 34-61),
* `src/relative_pose/CentralRelativeMultiAdapter.cpp` (lines 34-56),
* `src/relative_pose/MANoncentralRelativeMulti.cpp` (lines 34-60)

all build the same three tables from the numbers of correspondences per camera.
`none` is an access outside a vector (the asserts are inactive in release builds).
-/

namespace OpenGV.MultiAdapter

/-- `singleIndexOffsets`, `multiFrameIndices`/`multiPairIndices`, `multiKeypointIndices`. -/
structure Tables where
  offsets : List ℕ
  frames : List ℕ
  keys : List ℕ

/-- The inner loop of the constructor (NoncentralAbsoluteMultiAdapter.cpp lines 51-58). -/
def innerLoop (frame n : ℕ) (t : Tables) : Tables :=
  (List.range n).foldl
    (fun t j => { t with frames := t.frames ++ [frame], keys := t.keys ++ [j] }) t

/-- The outer loop (lines 48-60); `counts` are the remaining sizes. -/
def tablesLoop : (counts : List ℕ) → (frame offset : ℕ) → Tables → Tables
  | [], _, _, t => t
  | n :: ns, frame, offset, t =>
    tablesLoop ns (frame + 1) (offset + n)
      (innerLoop frame n { t with offsets := t.offsets ++ [offset] })

/-- The constructor. -/
def tables (counts : List ℕ) : Tables := tablesLoop counts 0 0 ⟨[], [], []⟩

/-- `convertMultiIndex` (NoncentralAbsoluteMultiAdapter.cpp lines 146-151). -/
def convertMultiIndex (t : Tables) (frame key : ℕ) : Option ℕ :=
  match t.offsets[frame]? with
  | none => none
  | some o => some (o + key)

/-- `multiFrameIndex`/`multiPairIndex` (lines 153-158). -/
def multiFrameIndex (t : Tables) (i : ℕ) : Option ℕ := t.frames[i]?

/-- `multiCorrespondenceIndex` (lines 160-165). -/
def multiCorrespondenceIndex (t : Tables) (i : ℕ) : Option ℕ := t.keys[i]?

/-- Inner loop of `convertMultiIndices` (lines 133-140). -/
def convertInner (t : Tables) (frame : ℕ) : List ℕ → List ℕ → Option (List ℕ)
  | [], acc => some acc
  | k :: ks, acc =>
    match convertMultiIndex t frame k with
    | none => none
    | some i => convertInner t frame ks (acc ++ [i])

/-- Outer loop of `convertMultiIndices` (lines 126-144). Correspondence indices are non-negative. -/
def convertOuter (t : Tables) : (frame : ℕ) → List (List ℕ) → List ℕ → Option (List ℕ)
  | _, [], acc => some acc
  | frame, ks :: kss, acc =>
    match convertInner t frame ks acc with
    | none => none
    | some acc' => convertOuter t (frame + 1) kss acc'

def convertMultiIndices (t : Tables) (m : List (List ℕ)) : Option (List ℕ) :=
  convertOuter t 0 m []

/-- The multi accessors, e.g. `getBearingVector(frameIndex, correspondenceIndex)`
(NoncentralAbsoluteMultiAdapter.cpp lines 66-84). -/
def getMulti {α : Type} (data : List (List α)) (frame key : ℕ) : Option α :=
  match data[frame]? with
  | none => none
  | some l => l[key]?

/-- The serial accessors, e.g. `getBearingVector1(index)`
(RelativeMultiAdapterBase.hpp lines 180-197, same in AbsoluteMultiAdapterBase.hpp). -/
def getSerial {α : Type} (t : Tables) (data : List (List α)) (i : ℕ) : Option α :=
  match multiFrameIndex t i, multiCorrespondenceIndex t i with
  | some f, some k => getMulti data f k
  | _, _ => none

/-- Serial access to per-camera data, e.g. `getCamOffset1(index)`
(RelativeMultiAdapterBase.hpp lines 198-208). -/
def getSerialCam {α : Type} (t : Tables) (cams : List α) (i : ℕ) : Option α :=
  match multiFrameIndex t i with
  | some f => cams[f]?
  | none => none

/-- `getNumberCorrespondences()` (RelativeMultiAdapterBase.hpp lines 210-216). `numFrames` is
`getNumberFrames()`, which is `_camOffsets.size()` in the non-central adapters (and so can differ
from the number of bearing vector lists). -/
def numberCorrespondences (numFrames : ℕ) (counts : List ℕ) : Option ℕ :=
  (List.range numFrames).foldl
    (fun acc f => match acc, counts[f]? with
      | some s, some n => some (s + n)
      | _, _ => none) (some 0)

/-! ## Sample sizes -/

/-- `std::vector<int>` increment `sampleSizes[binIndex]++`. -/
def bump (v : List ℕ) (i : ℕ) : Option (List ℕ) :=
  match v[i]? with
  | none => none
  | some x => some (v.set i (x + 1))

/-- The loop of `getSampleSizes`
(MultiNoncentralAbsolutePoseSacProblem.cpp lines 179-185,
MultiNoncentralRelativePoseSacProblem.cpp lines 383-389). -/
def roundRobin : (steps bin : ℕ) → List ℕ → Option (List ℕ)
  | 0, _, v => some v
  | n + 1, bin, v =>
    match bump v bin with
    | none => none
    | some v' => roundRobin n (if bin + 1 ≥ v'.length then 0 else bin + 1) v'

/-- `floor(((double) frames) * ((double) rand()) / ((double) RAND_MAX))` (line 177 resp. 381), in
exact arithmetic. -/
noncomputable def startBin (frames r randMax : ℕ) : ℕ := ⌊((frames : ℝ) * r) / randMax⌋₊

/-- `getSampleSizes` (MultiNoncentralAbsolutePoseSacProblem.cpp lines 166-188 with
`sampleSize = 4`; MultiNoncentralRelativePoseSacProblem.cpp lines 349-392 with 8, 17, 8 or 9). -/
noncomputable def getSampleSizes (frames sampleSize r randMax : ℕ) : Option (List ℕ) :=
  roundRobin sampleSize (startBin frames r randMax) (List.replicate frames 0)

/-! ## The round robin of the six-point case -/

/-- Outcome of a loop run with fuel: `timeout` when the fuel is used up, `undef` for undefined
behaviour (access outside a vector). -/
inductive Run (α : Type) where
  | ok (a : α)
  | undef
  | timeout

/-- The check whether all lists are used up
(MultiNoncentralRelativePoseSacProblem.cpp lines 79-87, lines 105-113). `none` is an access
outside `indices` (cannot happen, both vectors have the same length). -/
def allDone : List ℕ → List (List ℕ) → Option Bool
  | [], _ => some true
  | _ :: _, [] => none
  | t :: ts, ix :: ixs => if t < ix.length then some false else allDone ts ixs

/-- The inner `while`: advance `binIndex` to a camera with remaining indices (lines 91-96). -/
def seekBin (temp : List ℕ) (indices : List (List ℕ)) : (fuel bin : ℕ) → Run ℕ
  | 0, _ => .timeout
  | fuel + 1, bin =>
    match temp[bin]?, indices[bin]? with
    | some t, some ix =>
      if t ≥ ix.length then
        seekBin temp indices fuel (if bin + 1 ≥ indices.length then 0 else bin + 1)
      else .ok bin
    | _, _ => .undef

/-- The outer `while` (lines 89-114). -/
def sixptLoop (tb : Tables) (indices : List (List ℕ)) :
    (fuel bin : ℕ) → (temp acc : List ℕ) → Run (List ℕ)
  | 0, _, _, _ => .timeout
  | fuel + 1, bin, temp, acc =>
    match allDone temp indices with
    | none => .undef
    | some true => .ok acc
    | some false =>
      match seekBin temp indices (fuel + 1) bin with
      | .timeout => .timeout
      | .undef => .undef
      | .ok b =>
        match temp[b]?, getMulti indices b (temp.getD b 0), bump temp b with
        | some _, some c, some temp' =>
          match convertMultiIndex tb b c with
          | none => .undef
          | some s =>
            sixptLoop tb indices fuel (if b + 1 ≥ indices.length then 0 else b + 1) temp'
              (acc ++ [s])
        | _, _, _ => .undef

/-- The serialisation of the sample before the call of `sixpt` (lines 68-114), with `r` the value
of `rand()`. -/
noncomputable def sixptSerialise (tb : Tables) (indices : List (List ℕ)) (fuel pairs r randMax : ℕ) :
    Run (List ℕ) :=
  sixptLoop tb indices fuel (startBin pairs r randMax) (List.replicate indices.length 0) []

end OpenGV.MultiAdapter
