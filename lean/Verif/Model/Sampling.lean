import Mathlib.Data.Real.Basic
import Mathlib.Data.List.Basic

/-!
# Model of `opengv::sac::SampleConsensusProblem`

`include/opengv/sac/implementation/SampleConsensusProblem.hpp`.

Outcome `none` of a function in this file means *undefined behaviour of the C++ code*
(access outside a vector, or an integer modulo by zero).
The random generator `rnd()` (lines 158-163) is an arbitrary stream `rng : ℕ → ℕ` together
with the position of the next value; `rnd()` returns values in `[0, INT_MAX]`
(line 41), here any natural number is allowed.
-/

namespace OpenGV.Sac

/-- `std::numeric_limits<int>::max()`. -/
def intMax : ℤ := 2147483647

/-- `std::swap(v[i], v[j])` on a `std::vector<int>`;
undefined if one of the positions is outside the vector. -/
def vecSwap (v : List ℤ) (i j : ℕ) : Option (List ℤ) :=
  match v[i]?, v[j]? with
  | some a, some b => some ((v.set i b).set j a)
  | _, _ => none

/-- One round of the loop of `drawIndexSample`
(SampleConsensusProblem.hpp lines 70-79): swap position `i` of the pool
with position `i + rnd() % (index_size - i)`.  `index_size - i` is a `size_t` subtraction; it is
zero (undefined modulo) for `i = index_size`, and for `i > index_size` the access to position `i`
is out of range, so all `i ≥ index_size` are undefined. -/
def drawStep (r : ℕ) (pool : List ℤ) (i : ℕ) : Option (List ℤ) :=
  if pool.length ≤ i then none
  else vecSwap pool i (i + r % (pool.length - i))

/-- The loop of `drawIndexSample` (lines 70-79): `n` rounds are left, the next round is `i`,
`pos` is the position in the random stream. Returns the pool after the loop. -/
def drawLoop (rng : ℕ → ℕ) : (n i pos : ℕ) → List ℤ → Option (List ℤ)
  | 0, _, _, pool => some pool
  | n + 1, i, pos, pool =>
    match drawStep (rng pos) pool i with
    | none => none
    | some pool' => drawLoop rng n (i + 1) (pos + 1) pool'

/-- `drawIndexSample` (lines 63-84). Argument `sampleSize` is `sample.size()`.
Returns the drawn sample (lines 80-83: a copy of the first `sampleSize` entries of the
shuffled pool), the new pool and the new position in the random stream. -/
def drawIndexSample (rng : ℕ → ℕ) (sampleSize pos : ℕ) (pool : List ℤ) :
    Option (List ℤ × List ℤ × ℕ) :=
  match drawLoop rng sampleSize 0 pos pool with
  | none => none
  | some pool' => some (pool'.take sampleSize, pool', pos + sampleSize)

/-- The result of `getSamples` as seen by the caller. `tooFew`: `samples` is empty and the
caller's iteration counter has been set to `INT_MAX` (lines 93-102); `empty`: `samples` is empty
(line 118); `sample s`: `samples = s` (line 113). -/
inductive SampleResult (S : Type) where
  | tooFew : SampleResult S
  | empty : SampleResult S
  | sample : S → SampleResult S

/-- The loop over `iter < max_sample_checks_` in `getSamples` (lines 107-118),
`n` attempts are left. -/
def getSamplesLoop (rng : ℕ → ℕ) (isSampleGood : List ℤ → Bool) (sampleSize : ℕ) :
    (n pos : ℕ) → List ℤ → Option (SampleResult (List ℤ) × List ℤ × ℕ)
  | 0, pos, pool => some (.empty, pool, pos)
  | n + 1, pos, pool =>
    match drawIndexSample rng sampleSize pos pool with
    | none => none
    | some (s, pool', pos') =>
      if isSampleGood s then some (.sample s, pool', pos')
      else getSamplesLoop rng isSampleGood sampleSize n pos' pool'

/-- `max_sample_checks_` (line 39). -/
def maxSampleChecks : ℕ := 10

/-- `getSamples` (lines 87-120). The parameter `indices` is `*indices_`, `pool` is
`shuffled_indices_`. The sample size is non-negative (`getSampleSize()` is an `int` converted to
`size_t`). -/
def getSamples (rng : ℕ → ℕ) (isSampleGood : List ℤ → Bool) (sampleSize : ℕ)
    (indices : List ℤ) (pos : ℕ) (pool : List ℤ) :
    Option (SampleResult (List ℤ) × List ℤ × ℕ) :=
  if indices.length < sampleSize then some (.tooFew, pool, pos)
  else getSamplesLoop rng isSampleGood sampleSize maxSampleChecks pos pool

/-- The index state of a problem object: `indices_`, `shuffled_indices_`, and the position in the
random stream. -/
structure IndexState where
  indices : List ℤ
  pool : List ℤ
  pos : ℕ

/-- `setUniformIndices` (lines 137-146) for `N ≥ 0`. -/
def setUniformIndices (N : ℕ) (st : IndexState) : IndexState :=
  let ix := (List.range N).map Int.ofNat
  { st with indices := ix, pool := ix }

/-- `setIndices` (lines 148-155). -/
def setIndices (ix : List ℤ) (st : IndexState) : IndexState :=
  { st with indices := ix, pool := ix }

/-- `selectWithinDistance` (lines 166-184), with `dist` the vector filled by
`getDistancesToModel`. `(*indices_)[i]` is undefined if there are more distances than indices. -/
noncomputable def selectWithinDistance : (indices : List ℤ) → (dist : List ℝ) → (threshold : ℝ) →
    Option (List ℤ)
  | _, [], _ => some []
  | [], d :: ds, thr => if d < thr then none else selectWithinDistance [] ds thr
  | ix :: ixs, d :: ds, thr =>
    match selectWithinDistance ixs ds thr with
    | none => none
    | some rest => some (if d < thr then ix :: rest else rest)

/-- `countWithinDistance` (lines 186-203). The counter is an `int`; overflow is not modelled. -/
noncomputable def countWithinDistance (dist : List ℝ) (threshold : ℝ) : ℕ :=
  dist.foldl (fun count d => if d < threshold then count + 1 else count) 0

end OpenGV.Sac
