import Verif.Model.Refine

/-!
# Contract of the Levenberg-Marquardt minimiser
-/

namespace OpenGV.Spec

open Refine

/-- All residuals are finite and the sum of their squares is `c`. -/
def HasCost (rs : List (Option ℝ)) (c : ℝ) : Prop :=
  ∃ vs : List ℝ, rs = vs.map some ∧ c = (vs.map (· ^ 2)).sum

/-- What is assumed about `Eigen::LevenbergMarquardt::minimize`: the result is the start or a point
that was accepted because it lowered the sum of squares. -/
def LmOk (lm : Lm) : Prop :=
  ∀ (res : Params → List (Option ℝ)) (x : Params) (c : ℝ), HasCost (res x) c →
    ∃ c', HasCost (res (lm res x).2) c' ∧ c' ≤ c

end OpenGV.Spec
