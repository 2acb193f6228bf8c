import Mathlib.Data.Real.Basic

/-! Order statistics and medians, stated by counting. -/

namespace OpenGV.Spec

open Classical in
/-- `x` is the `k`-th smallest (counted from 0) entry of `l`: it occurs in `l`, at most `k` entries
are strictly smaller, and more than `k` entries are not larger. -/
def IsOrderStat (l : List ℝ) (k : ℕ) (x : ℝ) : Prop :=
  x ∈ l ∧ l.countP (fun y => y < x) ≤ k ∧ k < l.countP (fun y => y ≤ x)

/-- The median: the middle order statistic, or the mean of the two middle ones. -/
def IsMedian (l : List ℝ) (v : ℝ) : Prop :=
  (l.length % 2 = 1 ∧ IsOrderStat l (l.length / 2) v) ∨
  (l.length % 2 = 0 ∧ ∃ a b, IsOrderStat l (l.length / 2 - 1) a ∧ IsOrderStat l (l.length / 2) b ∧
    v = (a + b) / 2)

/-- The median of the squares of the distances, negative distances counting as zero. -/
def IsMedianSq (d : List ℝ) (v : ℝ) : Prop := IsMedian (d.map (fun x => (max x 0) ^ 2)) v

end OpenGV.Spec
