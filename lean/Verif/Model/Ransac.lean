import Verif.Model.Sampling
import Mathlib.Analysis.SpecialFunctions.Log.Basic

/-!
# Model of the RANSAC drivers

`include/opengv/sac/implementation/Ransac.hpp` (`Ransac::computeModel`, lines 43-144) and
`include/opengv/sac/implementation/MultiRansac.hpp` (`MultiRansac::computeModel`, lines 43-159).
The two functions are the same text up to the type of samples and of inlier lists and the
computation of the sizes entering the stopping rule; `Problem` abstracts these differences, and
the instances are in this file (`single`) and in `Verif/Model/MultiRansac.lean`.

Debug output is not modelled.
-/

namespace OpenGV.Sac

/-- What RANSAC sees of a sample consensus problem. `σ` is everything the problem can remember
between calls (shuffled indices, random generator, adapter contents, ...), `S` the type of samples,
`M` the type of models, `I` the type of inlier lists.
The distances must not depend on `σ`, but computing them may change `σ` (`distEffect`; several
OpenGV problems overwrite the pose in the adapter while computing distances). -/
structure Problem (σ S M I : Type) where
  /-- `getSamples`; `none` is undefined behaviour. -/
  getSamples : σ → Option (SampleResult S × σ)
  /-- `selection.empty()`. -/
  isEmpty : S → Bool
  /-- `computeModelCoefficients`; first component `none` means it returned `false`. -/
  compute : σ → S → Option M × σ
  /-- `countWithinDistance`. -/
  count : M → ℝ → ℕ
  /-- `selectWithinDistance`; `none` is undefined behaviour. -/
  select : M → ℝ → Option I
  /-- change of `σ` by computing distances to a model. -/
  distEffect : σ → M → σ
  /-- `getIndices()->size()`, for multi problems the sum of the sizes. -/
  numIndices : ℕ
  /-- `selection.size()`, for multi problems the sum of the sizes. -/
  sampleCard : S → ℕ
  /-- The cleared inlier list (`inliers_.clear()`). -/
  noInliers : I

/-- Value of the `double` variable `k`: it can become infinite or not-a-number. -/
inductive KVal where
  | nan : KVal
  | inf : KVal
  | fin : ℝ → KVal

/-- The comparison `iterations_ < k` (Ransac.hpp line 65); comparisons with NaN are false. -/
def KVal.gtInt : KVal → ℤ → Prop
  | .nan, _ => False
  | .inf, _ => True
  | .fin r, i => (i : ℝ) < r

/-- `std::numeric_limits<double>::epsilon()`. -/
noncomputable def dblEps : ℝ := 1 / 2 ^ 52

/-- `p_no_outliers` after both clamps (Ransac.hpp lines 103-111).
`w = count / n`; for `n = 0` the quotient `0/0` is NaN and `std::max(eps, NaN)` returns `eps`.
`pow` with a natural exponent. -/
noncomputable def pNoOutliers (count n card : ℕ) : ℝ :=
  if n = 0 then dblEps
  else min (1 - dblEps) (max dblEps (1 - ((count : ℝ) / n) ^ card))

/-- `k = log(1.0 - probability_) / log(p_no_outliers)` (Ransac.hpp line 112). The denominator is the
logarithm of a number in `[eps, 1-eps]`, hence finite and negative. `log 0 = -inf`,
and the logarithm of a negative number is NaN. -/
noncomputable def kOf (probability : ℝ) (count n card : ℕ) : KVal :=
  if 1 - probability < 0 then .nan
  else if 1 - probability = 0 then .inf
  else .fin (Real.log (1 - probability) / Real.log (pNoOutliers count n card))

/-- Local variables and written fields during the loop of `computeModel`.
`scored` is a history variable that the C++ code does not have: the hypotheses scored so far,
oldest first, as pairs of sample and model. -/
structure LoopState (σ S M : Type) where
  world : σ
  iterations : ℤ
  skipped : ℕ
  best : ℤ
  k : KVal
  model : Option S
  coeffs : Option M
  scored : List (S × M)
  /-- history variable: sampling has failed. -/
  failed : Bool

/-- Result of one execution of a loop body. -/
inductive Flow (α : Type) where
  | ub : Flow α
  | brk : α → Flow α
  | cont : α → Flow α

/-- Result of running a loop with bounded fuel. -/
inductive LoopResult (α : Type) where
  | ub : LoopResult α
  | timeout : LoopResult α
  | done : α → LoopResult α

variable {σ S M I : Type}

/-- Lines 77-126: the part of the loop body after a non-empty `selection` has been obtained. -/
noncomputable def ransacScore (P : Problem σ S M I) (threshold probability : ℝ) (maxIt : ℤ)
    (st : LoopState σ S M) (selection : S) : Flow (LoopState σ S M) :=
  match P.compute st.world selection with
  | (none, w) => .cont { st with world := w, skipped := st.skipped + 1 }
  | (some m, w) =>
    let n := P.count m threshold
    let st1 : LoopState σ S M :=
      { st with world := P.distEffect w m, scored := st.scored ++ [(selection, m)] }
    let st2 :=
      if (n : ℤ) > st.best then
        { st1 with
          best := n
          model := some selection
          coeffs := some m
          k := kOf probability n P.numIndices (P.sampleCard selection) }
      else st1
    let st3 := { st2 with iterations := st2.iterations + 1 }
    if st3.iterations > maxIt then .brk st3 else .cont st3

/-- The loop body (lines 66-127). -/
noncomputable def ransacBody (P : Problem σ S M I) (threshold probability : ℝ) (maxIt : ℤ)
    (st : LoopState σ S M) : Flow (LoopState σ S M) :=
  match P.getSamples st.world with
  | none => .ub
  | some (.tooFew, w) => .brk { st with world := w, iterations := intMax, failed := true }
  | some (.empty, w) => .brk { st with world := w, failed := true }
  | some (.sample s, w) =>
    if P.isEmpty s then .brk { st with world := w, failed := true }
    else ransacScore P threshold probability maxIt { st with world := w } s

open Classical in
/-- The `while` loop (lines 65-127) with fuel. -/
noncomputable def ransacLoop (P : Problem σ S M I) (threshold probability : ℝ) (maxIt : ℤ)
    (maxSkip : ℕ) : ℕ → LoopState σ S M → LoopResult (LoopState σ S M)
  | 0, _ => .timeout
  | fuel + 1, st =>
    if st.k.gtInt st.iterations ∧ st.skipped < maxSkip then
      match ransacBody P threshold probability maxIt st with
      | .ub => .ub
      | .brk st' => .done st'
      | .cont st' => ransacLoop P threshold probability maxIt maxSkip fuel st'
    else .done st

/-- `const unsigned max_skip = max_iterations_ * 10` (line 62): a signed product (overflow is
undefined, `none`) converted to a 32 bit unsigned. -/
def maxSkipOf (maxIt : ℤ) : Option ℕ :=
  if maxIt * 10 < -intMax - 1 ∨ intMax < maxIt * 10 then none
  else some ((maxIt * 10) % 4294967296).toNat

/-- The state of a RANSAC object between calls: `iterations_`, `model_` (`none`: empty vector),
`model_coefficients_` (`none`: never assigned), `inliers_`, and the state of the problem
`*sac_model_`. Header `SampleConsensus.hpp`. -/
structure RansacObj (σ S M I : Type) where
  world : σ
  iterations : ℤ
  model : Option S
  coeffs : Option M
  inliers : I

/-- Result of `computeModel`: the returned Boolean, the object afterwards, and the final loop state
(the history variables of which are used in specifications). -/
structure RansacReturn (σ S M I : Type) where
  ret : Bool
  obj : RansacObj σ S M I
  final : LoopState σ S M

/-- The loop state at the start (lines 51-62). `model_` and `model_coefficients_` keep their old
values. -/
noncomputable def ransacInit (obj : RansacObj σ S M I) : LoopState σ S M :=
  { world := obj.world, iterations := 0, skipped := 0, best := -intMax, k := .fin 1,
    model := obj.model, coeffs := obj.coeffs, scored := [], failed := false }

/-- `computeModel` (Ransac.hpp lines 43-144, MultiRansac.hpp lines 43-159). -/
noncomputable def computeModel (P : Problem σ S M I) (threshold probability : ℝ) (maxIt : ℤ)
    (obj : RansacObj σ S M I) (fuel : ℕ) : LoopResult (RansacReturn σ S M I) :=
  match maxSkipOf maxIt with
  | none => .ub
  | some maxSkip =>
    match ransacLoop P threshold probability maxIt maxSkip fuel (ransacInit obj) with
    | .ub => .ub
    | .timeout => .timeout
    | .done st =>
      match st.model with
      | none => .done ⟨false,
          ⟨st.world, st.iterations, st.model, st.coeffs, P.noInliers⟩, st⟩
      | some _ =>
        match st.coeffs with
        | none => .ub
        | some m =>
          match P.select m threshold with
          | none => .ub
          | some ins => .done ⟨true,
              ⟨P.distEffect st.world m, st.iterations, st.model, st.coeffs, ins⟩, st⟩

/-- A problem as written by a user of the library: a class derived from
`SampleConsensusProblem`. -/
structure UserProblem (σ M : Type) where
  sampleSize : ℕ
  isSampleGood : σ → List ℤ → Bool
  compute : σ → List ℤ → Option M × σ
  /-- `getSelectedDistancesToModel(model, indices, scores)` on an empty `scores` vector. -/
  dist : M → List ℤ → List ℝ
  distEffect : σ → M → σ

/-- The problem object handed to `Ransac`: user part plus the sampling of the base class
`SampleConsensusProblem` (`Verif/Model/Sampling.lean`). -/
noncomputable def single (U : UserProblem σ M) (rng : ℕ → ℕ) (indices : List ℤ) :
    Problem (σ × List ℤ × ℕ) (List ℤ) M (List ℤ) where
  getSamples := fun (w, pool, pos) =>
    match getSamples rng (U.isSampleGood w) U.sampleSize indices pos pool with
    | none => none
    | some (res, pool', pos') => some (res, w, pool', pos')
  isEmpty := fun s => s.isEmpty
  compute := fun (w, pool, pos) s =>
    match U.compute w s with
    | (m, w') => (m, w', pool, pos)
  count := fun m thr => countWithinDistance (U.dist m indices) thr
  select := fun m thr => selectWithinDistance indices (U.dist m indices) thr
  distEffect := fun (w, pool, pos) m => (U.distEffect w m, pool, pos)
  numIndices := indices.length
  sampleCard := fun s => s.length
  noInliers := []

end OpenGV.Sac
