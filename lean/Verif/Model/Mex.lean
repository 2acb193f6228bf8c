import Verif.Model.Adapters
import Mathlib.Algebra.Order.Archimedean.Real.Basic

/-!
# Model of the Matlab interface (matlab/opengv.cpp)

`mexFunction` up to the call of the algorithm: which method is meant, which of the arguments are
accepted, what the adapter and the index vector are. The algorithms themselves are elsewhere.

A Matlab array is the list of its dimensions and the memory block behind `mxGetData`, seen as
`double`s (the code casts without looking at the class of the array). The method argument is a `char`
array: its number of rows and, if that is one, its characters.
-/

namespace OpenGV.Mex

open Adapters

/-- matlab/opengv.cpp lines 85-130. -/
def methods : List (List Char) :=
  ["p2p".toList, "p3p_kneip".toList, "p3p_gao".toList, "epnp".toList, "p3p_kneip_ransac".toList,
   "p3p_gao_ransac".toList, "epnp_ransac".toList, "abs_nonlin_central".toList, "gp3p".toList,
   "gp3p_ransac".toList, "gpnp".toList, "abs_nonlin_noncentral".toList, "upnp".toList,
   "twopt".toList, "twopt_rotationOnly".toList, "rotationOnly".toList, "fivept_stewenius".toList,
   "fivept_nister".toList, "fivept_kneip".toList, "sevenpt".toList, "eightpt".toList,
   "eigensolver".toList, "rotationOnly_ransac".toList, "fivept_stewenius_ransac".toList,
   "fivept_nister_ransac".toList, "sevenpt_ransac".toList, "eightpt_ransac".toList,
   "eigensolver_ransac".toList, "rel_nonlin_central".toList, "sixpt".toList, "seventeenpt".toList,
   "ge".toList, "sixpt_ransac".toList, "seventeenpt_ransac".toList, "ge_ransac".toList,
   "rel_nonlin_noncentral".toList, "threept_arun".toList, "threept_arun_ransac".toList]

/-- matlab/opengv.cpp lines 133-135. -/
def methodsLengths : List ℕ :=
  [3, 9, 7, 4, 16, 14, 11, 18, 4, 11, 4, 21, 4, 5, 18, 12, 16, 13, 12,
   7, 7, 11, 19, 23, 20, 14, 14, 18, 18, 5, 11, 2, 12, 18, 9, 21, 12, 19]

/-- matlab/opengv.cpp line 150: `pointCloudLast + 1`. -/
def numberMethods : ℕ := 37 + 1

/-- The loop of lines 205-212 from `i` on with `todo` rounds left: are the characters of the two
strings the same? `none` is a read outside one of them (a read of the closing zero of a string counts
as outside). -/
def allSame (input name : List Char) : (todo i : ℕ) → Option Bool
  | 0, _ => some true
  | todo + 1, i =>
    match input[i]?, name[i]? with
    | some a, some b => if a ≠ b then some false else allSame input name todo (i + 1)
    | _, _ => none

/-- The loop of lines 198-222 from `n` on with `todo` methods left. The outer `none` is a read outside
an array, the inner one the value -1. -/
def findLoop (input : List Char) : (todo n : ℕ) → Option (Option ℕ)
  | 0, _ => some none
  | todo + 1, n =>
    match methodsLengths[n]?, methods[n]? with
    | some l, some name =>
      if input.length = l then
        match allSame input name input.length 0 with
        | none => none
        | some true => some (some n)
        | some false => findLoop input todo (n + 1)
      else findLoop input todo (n + 1)
    | _, _ => none

/-- `findCase`, matlab/opengv.cpp lines 195-226. -/
def findCase (input : List Char) : Option (Option ℕ) := findLoop input numberMethods 0

/-- A Matlab array: dimensions and memory block. -/
structure MxArray where
  dims : List ℕ
  data : List ℝ

/-- The method argument: the number of rows and the characters. -/
structure MxText where
  rows : ℕ
  chars : List Char

/-- The arguments after the checks of lines 301-405: `indices` and `prior` are there or not
(`callCharacter` 0, 1, 2), the dimensions are those read. -/
structure Checked where
  data1 : MxArray
  data2 : MxArray
  rows1 : ℕ
  rows2 : ℕ
  cols1 : ℕ
  cols2 : ℕ
  indices : Option (MxArray × ℕ)
  prior : Option (MxArray × ℕ)

/-- The condition on `data1` and `data2`, lines 314-318, negated. -/
def goodData (r1 c1 r2 c2 : ℕ) : Prop :=
  (r1 = 3 ∨ r1 = 6) ∧ (r2 = 3 ∨ r2 = 6) ∧ c1 = c2 ∧ 1 ≤ c1 ∧ 1 ≤ c2

instance (r1 c1 r2 c2 : ℕ) : Decidable (goodData r1 c1 r2 c2) := by
  unfold goodData; infer_instance

/-- Lines 259-267 and 301-405, `args` are the arguments after the method; `none` is an early return.
Of an array with two dimensions both are read. -/
def checkArgs : List MxArray → Option Checked
  | [data1, data2] =>
    match data1.dims, data2.dims with
    | [r1, c1], [r2, c2] =>
      if goodData r1 c1 r2 c2 then some ⟨data1, data2, r1, r2, c1, c2, none, none⟩ else none
    | _, _ => none
  | [ix, data1, data2] =>
    match data1.dims, data2.dims, ix.dims with
    | [r1, c1], [r2, c2], [ir, ic] =>
      if goodData r1 c1 r2 c2 ∧ ir = 1 ∧ ic ≤ c2 then
        some ⟨data1, data2, r1, r2, c1, c2, some (ix, ic), none⟩
      else none
    | _, _, _ => none
  | [ix, data1, data2, prior] =>
    match data1.dims, data2.dims, ix.dims, prior.dims with
    | [r1, c1], [r2, c2], [ir, ic], [pr, pc] =>
      if goodData r1 c1 r2 c2 ∧ ir = 1 ∧ ic ≤ c2 ∧ pr = 3 ∧ (pc = 1 ∨ pc = 3 ∨ pc = 4) then
        some ⟨data1, data2, r1, r2, c1, c2, some (ix, ic), some (prior, pc)⟩
      else none
    | _, _, _, _ => none
  | _ => none

/-- The nine reads of lines 440-448: a rotation stored column by column. -/
def readRot (a : List ℝ) : Option Mat3 :=
  match read3 a 0, read3 a 3, read3 a 6 with
  | some x, some y, some z => some !![x 0, y 0, z 0; x 1, y 1, z 1; x 2, y 2, z 2]
  | _, _, _ => none

/-- Lines 412-468: the prior translation and rotation. The outer `none` is a read outside the array. -/
def readPrior : Option (MxArray × ℕ) → Option (Option Vec3 × Option Mat3)
  | none => some (none, none)
  | some (p, c) =>
    if c = 1 then (read3 p.data 0).map fun t => (some t, none)
    else if c = 3 then (readRot p.data).map fun R => (none, some R)
    else if c = 4 then
      match readRot p.data, read3 p.data 9 with
      | some R, some t => some (some t, some R)
      | _, _ => none
    else some (none, none)

/-- The three adapter pointers of lines 408-410; `none` is an uninitialised pointer. -/
structure Pointers where
  absolute : Option AbsAdapter := none
  relative : Option RelAdapter := none
  cloud : Option CloudAdapter := none

/-- Lines 470-494 (without the priors, which go to all adapters alike); `none` is an early return. -/
def stepAbsCentral (n : ℕ) (k : Checked) (p : Pointers) : Option Pointers :=
  if 0 ≤ n ∧ n ≤ 7 then
    if k.rows1 ≠ 3 ∨ k.rows2 ≠ 3 then none
    else some { p with absolute := some (maCentralAbs k.data1.data k.data2.data k.cols1 k.cols2) }
  else some p

/-- Lines 496-520. -/
def stepAbsNoncentral (n : ℕ) (k : Checked) (p : Pointers) : Option Pointers :=
  if 8 ≤ n ∧ n ≤ 11 then
    if k.rows1 ≠ 3 ∨ k.rows2 ≠ 6 then none
    else some { p with absolute := some (maNoncentralAbs k.data1.data k.data2.data k.cols1 k.cols2) }
  else some p

/-- Lines 522-556. -/
def stepUpnp (n : ℕ) (k : Checked) (p : Pointers) : Option Pointers :=
  if n = 12 then
    if k.rows1 ≠ 3 ∨ (k.rows2 ≠ 3 ∧ k.rows2 ≠ 6) then none
    else if k.rows2 = 3 then
      some { p with absolute := some (maCentralAbs k.data1.data k.data2.data k.cols1 k.cols2) }
    else
      some { p with absolute := some (maNoncentralAbs k.data1.data k.data2.data k.cols1 k.cols2) }
  else some p

/-- Lines 558-582. -/
def stepRelCentral (n : ℕ) (k : Checked) (p : Pointers) : Option Pointers :=
  if 13 ≤ n ∧ n ≤ 28 then
    if k.rows1 ≠ 3 ∨ k.rows2 ≠ 3 then none
    else some { p with relative := some (maCentralRel k.data1.data k.data2.data k.cols1 k.cols2) }
  else some p

/-- Lines 584-608. -/
def stepRelNoncentral (n : ℕ) (k : Checked) (p : Pointers) : Option Pointers :=
  if 29 ≤ n ∧ n ≤ 35 then
    if k.rows1 ≠ 6 ∨ k.rows2 ≠ 6 then none
    else some { p with relative := some (maNoncentralRel k.data1.data k.data2.data k.cols1 k.cols2) }
  else some p

/-- Lines 610-634. -/
def stepCloud (n : ℕ) (k : Checked) (p : Pointers) : Option Pointers :=
  if 36 ≤ n ∧ n ≤ 37 then
    if k.rows1 ≠ 3 ∨ k.rows2 ≠ 3 then none
    else some { p with cloud := some (maCloud k.data1.data k.data2.data k.cols1 k.cols2) }
  else some p

/-- Lines 470-634. -/
def createAdapters (n : ℕ) (k : Checked) : Option Pointers :=
  (stepAbsCentral n k {}).bind fun p =>
  (stepAbsNoncentral n k p).bind fun p =>
  (stepUpnp n k p).bind fun p =>
  (stepRelCentral n k p).bind fun p =>
  (stepRelNoncentral n k p).bind fun p =>
  stepCloud n k p

/-- An adapter as the algorithms get it. -/
inductive MexAdapter where
  | absolute (A : AbsAdapter)
  | relative (A : RelAdapter)
  | cloud (A : CloudAdapter)

/-- Which pointer the branch of the switch dereferences (lines 666-1722): `absoluteAdapter` in the
cases P2P to UPNP (lines 668-1015), `relativeAdapter` in TWOPT to REL_NONLIN_NONCENTRAL (lines
1016-1664), `pointCloudAdapter` in the last two. `none` is an uninitialised pointer. -/
def used (n : ℕ) (p : Pointers) : Option MexAdapter :=
  if n ≤ 12 then p.absolute.map .absolute
  else if n ≤ 35 then p.relative.map .relative
  else p.cloud.map .cloud

/-- The cases of the switch with a sample consensus run; they can return two variables, the others
return when `nlhs > 1` (e.g. lines 670-676). -/
def isRansac (n : ℕ) : Bool :=
  n ∈ [4, 5, 6, 9, 22, 23, 24, 25, 26, 27, 32, 33, 34, 37]

/-- What the branches of the switch call, in the order of the enumeration (lines 152-192): a function
of the library (e.g. line 680), or a sample consensus problem with its algorithm (e.g. line 770), in
lines 680, 702, 729, 756, 770, 803, 835, 875, 897, 916, 956, 978, 1000, 1028, 1050, 1072, 1094, 1132,
1159, 1193, 1220, 1242, 1256, 1288, 1325, 1357, 1389, 1421, 1464, 1486, 1513, 1537, 1551, 1583, 1615,
1655, 1677, 1691. -/
def callees : List (List Char) :=
  ["p2p".toList, "p3p_kneip".toList, "p3p_gao".toList, "epnp".toList, "absRansac::KNEIP".toList,
   "absRansac::GAO".toList, "absRansac::EPNP".toList, "optimize_nonlinear".toList, "gp3p".toList,
   "absRansac::GP3P".toList, "gpnp".toList, "optimize_nonlinear".toList, "upnp".toList,
   "twopt".toList, "twopt_rotationOnly".toList, "rotationOnly".toList, "fivept_stewenius".toList,
   "fivept_nister".toList, "fivept_kneip".toList, "sevenpt".toList, "eightpt".toList,
   "eigensolver".toList, "rotRansac".toList, "relRansac::STEWENIUS".toList,
   "relRansac::NISTER".toList, "relRansac::SEVENPT".toList, "relRansac::EIGHTPT".toList,
   "eigRansac".toList, "optimize_nonlinear".toList, "sixpt".toList, "seventeenpt".toList,
   "ge".toList, "nrelRansac::SIXPT".toList, "nrelRansac::SEVENTEENPT".toList,
   "nrelRansac::GE".toList, "optimize_nonlinear".toList, "threept_arun".toList, "ptRansac".toList]

/-- `floor(x + 0.01) - 1` pushed into a `std::vector<int>` (line 655); the conversion of a `double`
outside the range of `int` is undefined (`none`). -/
noncomputable def toIndex (x : ℝ) : Option ℤ :=
  let v := ⌊x + 0.01⌋ - 1
  if -2 ^ 31 ≤ v ∧ v < 2 ^ 31 then some v else none

/-- The loop of lines 654-655 from `i` on with `todo` rounds left. -/
noncomputable def readIndices (a : List ℝ) : (todo i : ℕ) → List ℤ → Option (List ℤ)
  | 0, _, acc => some acc
  | todo + 1, i, acc =>
    match a[i]? with
    | none => none
    | some x =>
      match toIndex x with
      | none => none
      | some v => readIndices a todo (i + 1) (acc ++ [v])

/-- Lines 644-656; the outer `none` is something undefined, the inner one `useIndices = 0`. -/
noncomputable def convertIndices : Option (MxArray × ℕ) → Option (Option (List ℤ))
  | none => some none
  | some (a, m) => (readIndices a.data m 0 []).map some

/-- The call of an algorithm. -/
structure Call where
  method : ℕ
  adapter : MexAdapter
  t : Option Vec3
  R : Option Mat3
  indices : Option (List ℤ)

/-- What a call of `mexFunction` comes to: it returns without computing anything, it does something
undefined, or it calls an algorithm. -/
inductive Outcome where
  | returned
  | undefined
  | run (c : Call)

/-- Lines 644-666 and the first lines of the branches: the indices and the choice of the branch.
`FIVEPT_KNEIP` (case 18, lines 1157-1168) computes nothing without indices. -/
noncomputable def dispatch (nlhs n : ℕ) (k : Checked) (prior : Option Vec3 × Option Mat3)
    (p : Pointers) : Outcome :=
  match convertIndices k.indices with
  | none => .undefined
  | some idx =>
    if 1 < nlhs ∧ isRansac n = false then .returned
    else if n = 18 ∧ idx = none then .returned
    else
      match used n p with
      | none => .undefined
      | some A => .run ⟨n, A, prior.1, prior.2, idx⟩

/-- `mexFunction`, matlab/opengv.cpp lines 257-666. -/
noncomputable def mexFunction (nlhs : ℕ) (method : MxText) (args : List MxArray) : Outcome :=
  if args.length + 1 < 3 ∨ 5 < args.length + 1 then .returned
  else if method.rows ≠ 1 then .returned
  else
    match findCase method.chars with
    | none => .undefined
    | some none => .returned
    | some (some n) =>
      match checkArgs args with
      | none => .returned
      | some k =>
        match readPrior k.prior with
        | none => .undefined
        | some prior =>
          match createAdapters n k with
          | none => .returned
          | some p =>
            if nlhs ≠ 1 ∧ nlhs ≠ 2 then .returned
            else dispatch nlhs n k prior p

/-! ## The results -/

/-- `memcpy` of a block to an offset (in `double`s) of an array; `none` is a write outside. -/
def memcpyAt (mem : List ℝ) (off : ℕ) (src : List ℝ) : Option (List ℝ) :=
  if off + src.length ≤ mem.length then
    some (mem.take off ++ src ++ mem.drop (off + src.length))
  else none

/-- The loop of lines 710-714 (1112-1116 with 9): solution `i` goes to the address `i * size`. -/
def copyLoop (size : ℕ) : List (List ℝ) → (i : ℕ) → List ℝ → Option (List ℝ)
  | [], _, mem => some mem
  | s :: rest, i, mem =>
    match memcpyAt mem (i * size) s with
    | none => none
    | some mem' => copyLoop size rest (i + 1) mem'

/-- The data of a matrix with three rows as Eigen stores it, column by column. -/
def colMajor {c : ℕ} (M : Matrix (Fin 3) (Fin c) ℝ) : List ℝ :=
  (List.ofFn fun j => [M 0 j, M 1 j, M 2 j]).flatten

/-- Lines 705-714: a new (zero) array of the dimensions 3, `c` and the number of solutions, filled
with the solutions. -/
def returnSolutions {c : ℕ} (sols : List (Matrix (Fin 3) (Fin c) ℝ)) : Option MxArray :=
  (copyLoop (3 * c) (sols.map colMajor) 0 (List.replicate (3 * c * sols.length) 0)).map
    fun mem => ⟨[3, c, sols.length], mem⟩

/-- Lines 786-793: the inliers as Matlab indices. -/
def returnInliers (inliers : List ℤ) : List ℤ := inliers.map (· + 1)

end OpenGV.Mex
