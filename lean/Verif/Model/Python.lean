import Verif.Model.AbsSac
import Verif.Model.Triangulation

/-!
# Model of the Python interface (python/pyopengv.cpp, python/types.hpp)

A numpy array of the type `pyarray_d` (types.hpp line 15: `c_style | forcecast`) has its entries in
row-major order. `array.data(i, j)` and `array.shape(0)` are functions of pybind11 (not part of the
repository): too many indices for the dimensions, or an index outside, raise an `IndexError`; the
address is computed from the strides. The dimension and the size of the memory block are kept apart,
so that a read outside the block is a distinct outcome.
-/

namespace OpenGV.Python

open Adapters Matrix

/-- A numpy array: shape and memory block. -/
structure NdArray (α : Type) where
  shape : List ℕ
  data : List α

/-- What goes wrong: an exception, or something undefined. -/
inductive PyErr where
  | indexError
  | undefined
  deriving DecidableEq

/-- `*array.data(i, j)`. -/
def at2 {α : Type} (a : NdArray α) (i j : ℕ) : Except PyErr α :=
  match a.shape with
  | s0 :: s1 :: rest =>
    if i < s0 ∧ j < s1 then
      match a.data[i * (s1 * rest.prod) + j * rest.prod]? with
      | some x => .ok x
      | none => .error .undefined
    else .error .indexError
  | _ => .error .indexError

/-- `*array.data(i)`. -/
def at1 {α : Type} (a : NdArray α) (i : ℕ) : Except PyErr α :=
  match a.shape with
  | s0 :: rest =>
    if i < s0 then
      match a.data[i * rest.prod]? with
      | some x => .ok x
      | none => .error .undefined
    else .error .indexError
  | _ => .error .indexError

/-- `array.shape(0)`. -/
def shape0 {α : Type} (a : NdArray α) : Except PyErr ℕ :=
  match a.shape with
  | s0 :: _ => .ok s0
  | [] => .error .indexError

/-- Three reads into a vector; an error of an earlier one comes first. -/
def three {α : Type} (x y z : Except PyErr α) : Except PyErr (Fin 3 → α) :=
  match x, y, z with
  | .error e, _, _ => .error e
  | .ok _, .error e, _ => .error e
  | .ok _, .ok _, .error e => .error e
  | .ok x, .ok y, .ok z => .ok ![x, y, z]

/-- `bearingVectorFromArray` and `pointFromArray` (pyopengv.cpp lines 20-40). -/
def vectorFromArray (a : NdArray ℝ) (i : ℕ) : Except PyErr Vec3 :=
  three (at2 a i 0) (at2 a i 1) (at2 a i 2)

/-- The loops of lines 137-141 (155-159, 359-363, 377-381): `_R(i, j) = *R.data(i, j)`. -/
def rotationFromArray (a : NdArray ℝ) : Except PyErr Mat3 :=
  match three (vectorFromArray a 0) (vectorFromArray a 1) (vectorFromArray a 2) with
  | .error e => .error e
  | .ok rows => .ok (Matrix.of rows)

/-- The loop of lines 152-154 (374-376). -/
def translationFromArray (a : NdArray ℝ) : Except PyErr Vec3 :=
  three (at1 a 0) (at1 a 1) (at1 a 2)

/-- The two arrays and the pose of an adapter: `CentralAbsoluteAdapter` (lines 114-193, bearing vectors
and points) or `CentralRelativeAdapter` (lines 336-421, bearing vectors in both frames). -/
structure PyAdapter where
  first : NdArray ℝ
  second : NdArray ℝ
  t : Vec3
  R : Mat3

/-- The constructors of lines 123-128 and 345-350; the base class sets zero and the identity
(AbsoluteAdapterBase.hpp lines 71-73). -/
def newAdapter (a b : NdArray ℝ) : PyAdapter := ⟨a, b, 0, 1⟩

/-- The constructors of lines 130-142 and 352-364. -/
def newAdapterR (a b R : NdArray ℝ) : Except PyErr PyAdapter :=
  match rotationFromArray R with
  | .error e => .error e
  | .ok R => .ok ⟨a, b, 0, R⟩

/-- The constructors of lines 144-160 and 366-382. -/
def newAdapterTR (a b t R : NdArray ℝ) : Except PyErr PyAdapter :=
  match translationFromArray t with
  | .error e => .error e
  | .ok t =>
    match rotationFromArray R with
    | .error e => .error e
    | .ok R => .ok ⟨a, b, t, R⟩

/-- The accessors of lines 166-188, as the algorithms see them: an exception ends the algorithm. -/
def PyAdapter.toAbs (A : PyAdapter) : AbsAdapter where
  getBearingVector i := (vectorFromArray A.first i).toOption
  getWeight _ := some 1
  getPoint i := (vectorFromArray A.second i).toOption
  getCamOffset _ := some 0
  getCamRotation _ := some 1
  getNumberCorrespondences := (shape0 A.first).toOption.getD 0

/-- The accessors of lines 386-416. -/
def PyAdapter.toRel (A : PyAdapter) : RelAdapter where
  getBearingVector1 i := (vectorFromArray A.first i).toOption
  getBearingVector2 i := (vectorFromArray A.second i).toOption
  getWeight _ := some 1
  getCamOffset1 _ := some 0
  getCamRotation1 _ := some 1
  getCamOffset2 _ := some 0
  getCamRotation2 _ := some 1
  getNumberCorrespondences := (shape0 A.first).toOption.getD 0

/-! ## Results -/

/-- `arrayFromRotation`, `arrayFromEssential`, `arrayFromTransformation` (lines 58-62, 73-77, 88-92) with
`py_array_from_data` (types.hpp lines 24-29): a row-major copy is copied. -/
def arrayFromMatrix {c : ℕ} (M : Matrix (Fin 3) (Fin c) ℝ) : NdArray ℝ :=
  ⟨[3, c], List.ofFn (M 0) ++ List.ofFn (M 1) ++ List.ofFn (M 2)⟩

/-- `arrayFromTranslation` (lines 53-56). -/
def arrayFromTranslation (t : Vec3) : NdArray ℝ := ⟨[3], List.ofFn t⟩

/-- The loop of lines 45-49 from `i` on. -/
def fillPoints {α : Type} : List (Fin 3 → α) → (i : ℕ) → List α → List α
  | [], _, data => data
  | p :: ps, i, data =>
    fillPoints ps (i + 1)
      (((data.set (3 * i + 0) (p 0)).set (3 * i + 1) (p 1)).set (3 * i + 2) (p 2))

/-- `arrayFromPoints` (lines 42-51). `&data[0]` of an empty vector is undefined. -/
def arrayFromPoints {α : Type} (zero : α) (points : List (Fin 3 → α)) : Except PyErr (NdArray α) :=
  if points.length * 3 = 0 then .error .undefined
  else .ok ⟨[points.length, 3], fillPoints points 0 (List.replicate (points.length * 3) zero)⟩

/-- The loop of lines 654-658 (638-642) from `i` on with `todo` rounds left; `tri` is the
triangulation of two bearing vectors. -/
def triangulateLoop {α : Type} (A : PyAdapter) (tri : Vec3 → Vec3 → α) :
    (todo i : ℕ) → List α → Except PyErr (List α)
  | 0, _, points => .ok points
  | todo + 1, i, points =>
    match vectorFromArray A.first i with
    | .error e => .error e
    | .ok f1 =>
      match vectorFromArray A.second i with
      | .error e => .error e
      | .ok f2 => triangulateLoop A tri todo (i + 1) (points ++ [tri f1 f2])

/-- `triangulate2` (lines 646-660). Entries of the result are `none` for NaN. -/
noncomputable def pyTriangulate2 (b1 b2 t12 R12 : NdArray ℝ) :
    Except PyErr (NdArray (Option ℝ)) :=
  match newAdapterTR b1 b2 t12 R12 with
  | .error e => .error e
  | .ok A =>
    match shape0 A.first with
    | .error e => .error e
    | .ok n =>
      match triangulateLoop A (triangulate2 A.t A.R) n 0 [] with
      | .error e => .error e
      | .ok points => arrayFromPoints (some 0) (points.map fun p k => p.map fun p => p k)

/-! ## Names of algorithms -/

/-- Lines 269-274 (306-311). -/
def absAlgorithm (name : List Char) : AbsAlg :=
  if name = "TWOPT".toList then .twopt
  else if name = "KNEIP".toList then .kneip
  else if name = "GAO".toList then .gao
  else if name = "EPNP".toList then .epnp
  else if name = "GP3P".toList then .gp3p
  else .kneip

/-- `algorithm_t` (CentralRelativePoseSacProblem.hpp lines 77-83). -/
inductive RelAlg where
  | stewenius
  | nister
  | sevenpt
  | eightpt
  deriving DecidableEq

/-- Lines 510-514 (546-550). -/
def relAlgorithm (name : List Char) : RelAlg :=
  if name = "STEWENIUS".toList then .stewenius
  else if name = "NISTER".toList then .nister
  else if name = "SEVENPT".toList then .sevenpt
  else if name = "EIGHTPT".toList then .eightpt
  else .nister

/-- A hypothesis of `ransac` and `lmeds` of the absolute pose (lines 256-328) for a sample: the adapter
is made without a prior. -/
noncomputable def pyAbsHypothesis (S : AbsSolvers) (v p : NdArray ℝ) (name : List Char)
    (idx : List ℕ) : AbsResult :=
  let A := newAdapter v p
  absSac (absAlgorithm name) S A.toAbs A.R idx

end OpenGV.Python
