import Verif.Model.Ransac
import Mathlib.Data.List.Sort

/-!
# Model of the least-median-of-squares driver

`include/opengv/sac/implementation/Lmeds.hpp`, `Lmeds::computeModel` (lines 42-195). Reuses the
problem description `UserProblem` and the sampling of `Verif/Model/Ransac.lean`.
Exact real arithmetic: overflow of the squares to infinity is not modelled.
-/

namespace OpenGV.Sac

variable {σ M : Type}

/-- `std::numeric_limits<double>::max()`. -/
noncomputable def dblMax : ℝ := (2 - 1 / 2 ^ 52) * 2 ^ 1023

/-- Clip and square (lines 109-115). -/
noncomputable def clipSquare (d : ℝ) : ℝ :=
  let c := if d < 0 then 0 else d
  c * c

/-- The penalty of one hypothesis (lines 103-131). -/
inductive Penalty where
  /-- access `distances[-1]` -/
  | ub : Penalty
  /-- the hypothesis is skipped (no distances, or fewer than half of the indices). -/
  | skip : Penalty
  | value : ℝ → Penalty

/-- Lines 102-131: `n` is `getIndices()->size()`, `dist` the distances. -/
noncomputable def lmedsPenalty (n : ℕ) (dist : List ℝ) : Penalty :=
  if dist.isEmpty then .skip
  else
    let sorted := (dist.map clipSquare).insertionSort (· ≤ ·)
    let mid := n / 2
    if mid ≥ sorted.length then .skip
    else if n % 2 = 0 then
      if mid = 0 then .ub
      else
        match sorted[mid - 1]?, sorted[mid]? with
        | some a, some b => .value ((a + b) / 2)
        | _, _ => .ub
    else
      match sorted[mid]? with
      | some a => .value a
      | none => .ub

/-- Loop variables. `scored` and `failed` are history variables as in `LoopState`. -/
structure LmState (σ M : Type) where
  world : σ × List ℤ × ℕ
  iterations : ℤ
  skipped : ℕ
  best : ℝ
  model : Option (List ℤ)
  coeffs : Option M
  scored : List (List ℤ × M)
  failed : Bool

/-- Lines 90-141: after a non-empty selection. -/
noncomputable def lmedsScore (P : Problem (σ × List ℤ × ℕ) (List ℤ) M (List ℤ))
    (dist : M → List ℝ) (st : LmState σ M) (selection : List ℤ) : Flow (LmState σ M) :=
  match P.compute st.world selection with
  | (none, w) => .cont { st with world := w, skipped := st.skipped + 1 }
  | (some m, w) =>
    match lmedsPenalty P.numIndices (dist m) with
    | .ub => .ub
    | .skip => .cont { st with world := P.distEffect w m, skipped := st.skipped + 1 }
    | .value d =>
      let st1 : LmState σ M :=
        { st with world := P.distEffect w m, scored := st.scored ++ [(selection, m)] }
      let st2 : LmState σ M :=
        if d < st.best then { st1 with best := d, model := some selection, coeffs := some m }
        else st1
      .cont { st2 with iterations := st2.iterations + 1 }

/-- The loop body (lines 79-149). -/
noncomputable def lmedsBody (P : Problem (σ × List ℤ × ℕ) (List ℤ) M (List ℤ))
    (dist : M → List ℝ) (st : LmState σ M) : Flow (LmState σ M) :=
  match P.getSamples st.world with
  | none => .ub
  | some (.tooFew, w) => .brk { st with world := w, iterations := intMax, failed := true }
  | some (.empty, w) => .brk { st with world := w, failed := true }
  | some (.sample s, w) =>
    if P.isEmpty s then .brk { st with world := w, failed := true }
    else lmedsScore P dist { st with world := w } s

/-- The `while` loop (lines 79-149) with fuel. -/
noncomputable def lmedsLoop (P : Problem (σ × List ℤ × ℕ) (List ℤ) M (List ℤ))
    (dist : M → List ℝ) (maxIt : ℤ) (maxSkip : ℕ) : ℕ → LmState σ M → LoopResult (LmState σ M)
  | 0, _ => .timeout
  | fuel + 1, st =>
    if st.iterations < maxIt ∧ st.skipped < maxSkip then
      match lmedsBody P dist st with
      | .ub => .ub
      | .brk st' => .done st'
      | .cont st' => lmedsLoop P dist maxIt maxSkip fuel st'
    else .done st

/-- Start of the loop (lines 55-68). -/
noncomputable def lmedsInit (obj : RansacObj (σ × List ℤ × ℕ) (List ℤ) M (List ℤ)) : LmState σ M :=
  { world := obj.world, iterations := 0, skipped := 0, best := dblMax,
    model := obj.model, coeffs := obj.coeffs, scored := [], failed := false }

/-- The inlier loop (lines 181-189): resize, overwrite the first `n_inliers_count` entries,
resize again. Equal to appending. -/
noncomputable def lmedsInliers : List ℤ → List ℝ → ℝ → List ℤ
  | ix :: ixs, d :: ds, thr =>
    if d ≤ thr then ix :: lmedsInliers ixs ds thr else lmedsInliers ixs ds thr
  | _, _, _ => []

structure LmReturn (σ M : Type) where
  ret : Bool
  obj : RansacObj (σ × List ℤ × ℕ) (List ℤ) M (List ℤ)
  final : LmState σ M

open Classical in
/-- `Lmeds::computeModel` on a problem `U` (lines 42-195). Note that `inliers_` is left untouched
when false is returned. -/
noncomputable def lmedsCompute (U : UserProblem σ M) (rng : ℕ → ℕ) (indices : List ℤ)
    (threshold : ℝ) (maxIt : ℤ) (obj : RansacObj (σ × List ℤ × ℕ) (List ℤ) M (List ℤ))
    (fuel : ℕ) : LoopResult (LmReturn σ M) :=
  if threshold = dblMax then .done ⟨false, obj, lmedsInit obj⟩
  else
    let P := single U rng indices
    match maxSkipOf maxIt with
    | none => .ub
    | some maxSkip =>
      match lmedsLoop P (fun m => U.dist m indices) maxIt maxSkip fuel (lmedsInit obj) with
      | .ub => .ub
      | .timeout => .timeout
      | .done st =>
        match st.model with
        | none => .done ⟨false, ⟨st.world, st.iterations, st.model, st.coeffs, obj.inliers⟩, st⟩
        | some _ =>
          match st.coeffs with
          | none => .ub
          | some m =>
            let w := P.distEffect st.world m
            let distances := U.dist m indices
            if distances.isEmpty then
              .done ⟨false, ⟨w, st.iterations, st.model, st.coeffs, obj.inliers⟩, st⟩
            else if distances.length ≠ indices.length then
              .done ⟨false, ⟨w, st.iterations, st.model, st.coeffs, obj.inliers⟩, st⟩
            else
              .done ⟨true, ⟨w, st.iterations, st.model, st.coeffs,
                lmedsInliers indices distances threshold⟩, st⟩

end OpenGV.Sac
