import Verif.Model.Ransac

/-!
# Model of `MultiSampleConsensusProblem` and its use by `MultiRansac`

`include/opengv/sac/implementation/MultiSampleConsensusProblem.hpp`; the driver
`MultiRansac::computeModel` is `computeModel` of `Verif/Model/Ransac.lean` on the `Problem`
`multi` below. Groups (cameras) are entries of the outer lists. `none` is undefined behaviour.
-/

namespace OpenGV.Sac

variable {σ M : Type}

/-- Loop over the groups in `drawIndexSample` (lines 68-86). `sizes` are the sizes of the
entries of `sample`; accessing a missing group of `shuffled_indices_` is undefined. -/
def multiDraw (rng : ℕ → ℕ) : (sizes : List ℕ) → (pos : ℕ) → (pools : List (List ℤ)) →
    Option (List (List ℤ) × List (List ℤ) × ℕ)
  | [], pos, pools => some ([], pools, pos)
  | _ :: _, _, [] => none
  | k :: ks, pos, pool :: pools =>
    match drawIndexSample rng k pos pool with
    | none => none
    | some (s, pool', pos') =>
      match multiDraw rng ks pos' pools with
      | none => none
      | some (ss, pools', pos'') => some (s :: ss, pool' :: pools', pos'')

/-- The size check of `getSamples` (lines 97-113): `some true` if all groups have enough indices,
`some false` if the first group that fails is an existing one, `none` if `(*indices_)[subIter]` is
out of range. -/
def multiCheck : (sizes : List ℕ) → (indices : List (List ℤ)) → Option Bool
  | [], _ => some true
  | _ :: _, [] => none
  | k :: ks, ix :: ixs => if ix.length < k then some false else multiCheck ks ixs

/-- The attempts of `getSamples` (lines 115-130). -/
def multiGetSamplesLoop (rng : ℕ → ℕ) (isSampleGood : List (List ℤ) → Bool) (sizes : List ℕ) :
    (n pos : ℕ) → List (List ℤ) → Option (SampleResult (List (List ℤ)) × List (List ℤ) × ℕ)
  | 0, pos, pools => some (.empty, pools, pos)
  | n + 1, pos, pools =>
    match multiDraw rng sizes pos pools with
    | none => none
    | some (s, pools', pos') =>
      if isSampleGood s then some (.sample s, pools', pos')
      else multiGetSamplesLoop rng isSampleGood sizes n pos' pools'

/-- `getSamples` (lines 89-131). -/
def multiGetSamples (rng : ℕ → ℕ) (isSampleGood : List (List ℤ) → Bool) (sizes : List ℕ)
    (indices : List (List ℤ)) (pos : ℕ) (pools : List (List ℤ)) :
    Option (SampleResult (List (List ℤ)) × List (List ℤ) × ℕ) :=
  match multiCheck sizes indices with
  | none => none
  | some false => some (.tooFew, pools, pos)
  | some true => multiGetSamplesLoop rng isSampleGood sizes maxSampleChecks pos pools

/-- `selectWithinDistance` (lines 183-210), group by group. A missing `dist[j]` is out of range. -/
noncomputable def multiSelect : (indices : List (List ℤ)) → (dist : List (List ℝ)) → (thr : ℝ) →
    Option (List (List ℤ))
  | [], _, _ => some []
  | _ :: _, [], _ => none
  | ix :: ixs, d :: ds, thr =>
    match selectWithinDistance ix d thr, multiSelect ixs ds thr with
    | some a, some b => some (a :: b)
    | _, _ => none

/-- `countWithinDistance` (lines 212-236). Simplification: a missing `dist[j]` counts as zero instead
of being undefined (the theorems assume one distance list per group). -/
noncomputable def multiCount : (indices : List (List ℤ)) → (dist : List (List ℝ)) → (thr : ℝ) → ℕ
  | _ :: ixs, d :: ds, thr => countWithinDistance d thr + multiCount ixs ds thr
  | _, _, _ => 0

/-- A class derived from `MultiSampleConsensusProblem`. `sampleSizes` is `getSampleSizes()`, which
may use and change the state (it calls `rand()` in OpenGV). -/
structure MultiUserProblem (σ M : Type) where
  sampleSizes : σ → List ℕ × σ
  isSampleGood : σ → List (List ℤ) → Bool
  compute : σ → List (List ℤ) → Option M × σ
  dist : M → List (List ℤ) → List (List ℝ)
  distEffect : σ → M → σ

/-- Total number of entries, the loops of MultiRansac.hpp lines 104-110. -/
def totalSize (l : List (List ℤ)) : ℕ := l.foldl (fun n x => n + x.length) 0

/-- The problem object handed to `MultiRansac`. -/
noncomputable def multi (U : MultiUserProblem σ M) (rng : ℕ → ℕ) (indices : List (List ℤ)) :
    Problem (σ × List (List ℤ) × ℕ) (List (List ℤ)) M (List (List ℤ)) where
  getSamples := fun (w, pools, pos) =>
    match U.sampleSizes w with
    | (sizes, w') =>
      match multiGetSamples rng (U.isSampleGood w') sizes indices pos pools with
      | none => none
      | some (res, pools', pos') => some (res, w', pools', pos')
  isEmpty := fun s => s.isEmpty
  compute := fun (w, pools, pos) s =>
    match U.compute w s with
    | (m, w') => (m, w', pools, pos)
  count := fun m thr => multiCount indices (U.dist m indices) thr
  select := fun m thr => multiSelect indices (U.dist m indices) thr
  distEffect := fun (w, pools, pos) m => (U.distEffect w m, pools, pos)
  numIndices := totalSize indices
  sampleCard := totalSize
  noInliers := []

end OpenGV.Sac
