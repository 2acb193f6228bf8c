import Verif.Model.MultiAdapter
import Verif.Model.Geometry

/-!
# Model of the single-camera adapters and the array adapters

The array ("MA") adapters read `double` arrays handed over by Matlab. An array is a list of numbers,
its length is the size of the memory block; `none` is a read outside the block (or outside a
`std::vector`). The asserts are inactive in release builds, so that the numbers of vectors passed to
the constructors only matter through `getNumberCorrespondences`. They are `int`s; here non-negative.
-/

namespace OpenGV.Adapters

/-- Three consecutive reads `a[base]`, `a[base + 1]`, `a[base + 2]` into a vector, as in
MACentralAbsolute.cpp lines 54-58. -/
def read3 (a : List ℝ) (base : ℕ) : Option Vec3 :=
  match a[base]?, a[base + 1]?, a[base + 2]? with
  | some x, some y, some z => some ![x, y, z]
  | _, _, _ => none

/-- A correspondence of the absolute problem as the algorithms see it: bearing vector, world point,
camera offset, camera rotation. -/
structure AbsObs where
  f : Vec3
  p : Vec3
  off : Vec3
  rot : Mat3

/-- A correspondence of the relative problem. -/
structure RelObs where
  f1 : Vec3
  f2 : Vec3
  off1 : Vec3
  rot1 : Mat3
  off2 : Vec3
  rot2 : Mat3

/-- `AbsoluteAdapterBase` (AbsoluteAdapterBase.hpp lines 60-153), the accessors. -/
structure AbsAdapter where
  getBearingVector : ℕ → Option Vec3
  getWeight : ℕ → Option ℝ
  getPoint : ℕ → Option Vec3
  getCamOffset : ℕ → Option Vec3
  getCamRotation : ℕ → Option Mat3
  getNumberCorrespondences : ℕ

/-- `RelativeAdapterBase` (RelativeAdapterBase.hpp lines 60-192), the accessors. -/
structure RelAdapter where
  getBearingVector1 : ℕ → Option Vec3
  getBearingVector2 : ℕ → Option Vec3
  getWeight : ℕ → Option ℝ
  getCamOffset1 : ℕ → Option Vec3
  getCamRotation1 : ℕ → Option Mat3
  getCamOffset2 : ℕ → Option Vec3
  getCamRotation2 : ℕ → Option Mat3
  getNumberCorrespondences : ℕ

/-- `PointCloudAdapterBase` (PointCloudAdapterBase.hpp lines 60-140), the accessors. -/
structure CloudAdapter where
  getPoint1 : ℕ → Option Vec3
  getPoint2 : ℕ → Option Vec3
  getWeight : ℕ → Option ℝ
  getNumberCorrespondences : ℕ

/-! ## The adapters over vectors -/

/-- CentralAbsoluteAdapter.cpp lines 64-111. -/
def centralAbs (bearings points : List Vec3) : AbsAdapter where
  getBearingVector i := bearings[i]?
  getWeight _ := some 1
  getPoint i := points[i]?
  getCamOffset _ := some 0
  getCamRotation _ := some 1
  getNumberCorrespondences := bearings.length

/-- NoncentralAbsoluteAdapter.cpp lines 81-126. -/
def noncentralAbs (bearings : List Vec3) (cams : List ℕ) (points : List Vec3)
    (offsets : List Vec3) (rotations : List Mat3) : AbsAdapter where
  getBearingVector i := bearings[i]?
  getWeight _ := some 1
  getPoint i := points[i]?
  getCamOffset i := match cams[i]? with | none => none | some c => offsets[c]?
  getCamRotation i := match cams[i]? with | none => none | some c => rotations[c]?
  getNumberCorrespondences := bearings.length

/-- CentralRelativeAdapter.cpp lines 63-128. -/
def centralRel (bearings1 bearings2 : List Vec3) : RelAdapter where
  getBearingVector1 i := bearings1[i]?
  getBearingVector2 i := bearings2[i]?
  getWeight _ := some 1
  getCamOffset1 _ := some 0
  getCamRotation1 _ := some 1
  getCamOffset2 _ := some 0
  getCamRotation2 _ := some 1
  getNumberCorrespondences := bearings2.length

/-- CentralRelativeWeightingAdapter.cpp lines 69-135. -/
def centralRelWeighting (bearings1 bearings2 : List Vec3) (weights : List ℝ) : RelAdapter where
  getBearingVector1 i := bearings1[i]?
  getBearingVector2 i := bearings2[i]?
  getWeight i := weights[i]?
  getCamOffset1 _ := some 0
  getCamRotation1 _ := some 1
  getCamOffset2 _ := some 0
  getCamRotation2 _ := some 1
  getNumberCorrespondences := bearings2.length

/-- NoncentralRelativeAdapter.cpp lines 87-148. -/
def noncentralRel (bearings1 bearings2 : List Vec3) (cams1 cams2 : List ℕ) (offsets : List Vec3)
    (rotations : List Mat3) : RelAdapter where
  getBearingVector1 i := bearings1[i]?
  getBearingVector2 i := bearings2[i]?
  getWeight _ := some 1
  getCamOffset1 i := match cams1[i]? with | none => none | some c => offsets[c]?
  getCamRotation1 i := match cams1[i]? with | none => none | some c => rotations[c]?
  getCamOffset2 i := match cams2[i]? with | none => none | some c => offsets[c]?
  getCamRotation2 i := match cams2[i]? with | none => none | some c => rotations[c]?
  getNumberCorrespondences := bearings2.length

/-- PointCloudAdapter.cpp lines 63-92. -/
def cloud (points1 points2 : List Vec3) : CloudAdapter where
  getPoint1 i := points1[i]?
  getPoint2 i := points2[i]?
  getWeight _ := some 1
  getNumberCorrespondences := points2.length

/-! ## The adapters over arrays -/

/-- MACentralAbsolute.cpp lines 48-103. The number of points is stored but only used by an assert. -/
def maCentralAbs (points bearings : List ℝ) (_numPoints numBearings : ℕ) : AbsAdapter where
  getBearingVector i := read3 bearings (i * 3)
  getWeight _ := some 1
  getPoint i := read3 points (i * 3)
  getCamOffset _ := some 0
  getCamRotation _ := some 1
  getNumberCorrespondences := numBearings

/-- MANoncentralAbsolute.cpp lines 48-103: six numbers per bearing vector, the vector and then the
camera offset. -/
def maNoncentralAbs (points bearings : List ℝ) (_numPoints numBearings : ℕ) : AbsAdapter where
  getBearingVector i := read3 bearings (i * 6)
  getWeight _ := some 1
  getPoint i := read3 points (i * 3)
  getCamOffset i := read3 bearings (i * 6 + 3)
  getCamRotation _ := some 1
  getNumberCorrespondences := numBearings

/-- MACentralRelative.cpp lines 48-120. -/
def maCentralRel (bearings1 bearings2 : List ℝ) (_num1 num2 : ℕ) : RelAdapter where
  getBearingVector1 i := read3 bearings1 (i * 3)
  getBearingVector2 i := read3 bearings2 (i * 3)
  getWeight _ := some 1
  getCamOffset1 _ := some 0
  getCamRotation1 _ := some 1
  getCamOffset2 _ := some 0
  getCamRotation2 _ := some 1
  getNumberCorrespondences := num2

/-- MANoncentralRelative.cpp lines 48-126. -/
def maNoncentralRel (bearings1 bearings2 : List ℝ) (_num1 num2 : ℕ) : RelAdapter where
  getBearingVector1 i := read3 bearings1 (i * 6)
  getBearingVector2 i := read3 bearings2 (i * 6)
  getWeight _ := some 1
  getCamOffset1 i := read3 bearings1 (i * 6 + 3)
  getCamRotation1 _ := some 1
  getCamOffset2 i := read3 bearings2 (i * 6 + 3)
  getCamRotation2 _ := some 1
  getNumberCorrespondences := num2

/-- MAPointCloud.cpp lines 49-88. -/
def maCloud (points1 points2 : List ℝ) (_num1 num2 : ℕ) : CloudAdapter where
  getPoint1 i := read3 points1 (3 * i)
  getPoint2 i := read3 points2 (i * 3)
  getWeight _ := some 1
  getNumberCorrespondences := num2

/-- The multi accessor of MANoncentralRelativeMulti.cpp (lines 66-96): one array per camera pair. -/
def maGetMulti (bearings : List (List ℝ)) (pair k : ℕ) : Option Vec3 :=
  match bearings[pair]? with
  | none => none
  | some a => read3 a (k * 3)

open MultiAdapter in
/-- The serial view of MANoncentralRelativeMulti.cpp (lines 34-60, 66-174) through
RelativeMultiAdapterBase.hpp (lines 140-216): both frames of a pair share the camera of the pair,
rotations are the identity. `nums` is `_numberBearingVectors`, also the number of pairs. -/
def maMultiRel (bearings1 bearings2 : List (List ℝ)) (camOffsets : List ℝ) (nums : List ℕ) :
    RelAdapter :=
  let tb := tables nums
  let get (b : List (List ℝ)) (i : ℕ) : Option Vec3 :=
    match multiFrameIndex tb i, multiCorrespondenceIndex tb i with
    | some c, some k => maGetMulti b c k
    | _, _ => none
  let offset (i : ℕ) : Option Vec3 :=
    match multiFrameIndex tb i with
    | some c => read3 camOffsets (c * 3)
    | none => none
  { getBearingVector1 := get bearings1
    getBearingVector2 := get bearings2
    getWeight := fun _ => some 1
    getCamOffset1 := offset
    getCamRotation1 := fun _ => some 1
    getCamOffset2 := offset
    getCamRotation2 := fun _ => some 1
    getNumberCorrespondences := (numberCorrespondences nums.length nums).getD 0 }

/-! ## Reading all correspondences -/

/-- One correspondence read by an absolute pose algorithm. -/
def AbsAdapter.read (A : AbsAdapter) (i : ℕ) : Option AbsObs :=
  match A.getBearingVector i, A.getPoint i, A.getCamOffset i, A.getCamRotation i with
  | some f, some p, some o, some C => some ⟨f, p, o, C⟩
  | _, _, _, _ => none

def RelAdapter.read (A : RelAdapter) (i : ℕ) : Option RelObs :=
  match A.getBearingVector1 i, A.getBearingVector2 i, A.getCamOffset1 i, A.getCamRotation1 i,
    A.getCamOffset2 i, A.getCamRotation2 i with
  | some f1, some f2, some o1, some C1, some o2, some C2 => some ⟨f1, f2, o1, C1, o2, C2⟩
  | _, _, _, _, _, _ => none

def CloudAdapter.read (A : CloudAdapter) (i : ℕ) : Option (Vec3 × Vec3) :=
  match A.getPoint1 i, A.getPoint2 i with
  | some p, some q => some (p, q)
  | _, _ => none

/-- `Indices` (Indices.hpp lines 57-108): all correspondences, or those of an index vector. -/
inductive Indices where
  | all (n : ℕ)
  | sub (ix : List ℕ)

def Indices.size : Indices → ℕ
  | .all n => n
  | .sub ix => ix.length

/-- `operator[]` (Indices.hpp lines 98-106); `none` is an access outside the index vector. -/
def Indices.get : Indices → ℕ → Option ℕ
  | .all _, i => some i
  | .sub ix, i => ix[i]?

/-- The loop `for( size_t i = 0; i < indices.size(); i++ )` of the algorithms with reads at
`indices[i]`, from `i` on with `todo` rounds left; `none` when one read is out of range. -/
def readLoop {α : Type} (get : ℕ → Option α) (idx : Indices) : (todo i : ℕ) → List α →
    Option (List α)
  | 0, _, acc => some acc
  | todo + 1, i, acc =>
    match idx.get i with
    | none => none
    | some j =>
      match get j with
      | none => none
      | some a => readLoop get idx todo (i + 1) (acc ++ [a])

/-- All data an algorithm reads. -/
def readData {α : Type} (get : ℕ → Option α) (idx : Indices) : Option (List α) :=
  readLoop get idx idx.size 0 []

/-- An algorithm called without indices uses `Indices idx(adapter.getNumberCorrespondences())`,
e.g. absolute_pose/methods.cpp line 795. -/
def AbsAdapter.readAll (A : AbsAdapter) : Option (List AbsObs) :=
  readData A.read (.all A.getNumberCorrespondences)

def RelAdapter.readAll (A : RelAdapter) : Option (List RelObs) :=
  readData A.read (.all A.getNumberCorrespondences)

def CloudAdapter.readAll (A : CloudAdapter) : Option (List (Vec3 × Vec3)) :=
  readData A.read (.all A.getNumberCorrespondences)

end OpenGV.Adapters
