import Mathlib.Analysis.SpecialFunctions.Pow.Real
import Mathlib.Algebra.BigOperators.Intervals

/-!
# Model of `src/math/Sturm.cpp`

Exact arithmetic. A polynomial is given as in the code by `n` coefficients `p 0, ..., p (n-1)`, highest
power first (`n` is `_dimension`). The matrix `_C` is a function of row and column.
-/

namespace OpenGV

/-- `computeNegatedRemainder` (src/math/Sturm.cpp lines 438-459) together with the block access of
the constructor (lines 153-159): the new entry in column `j` of row `i+2` of `_C`, where `p1` and
`p2` are rows `i` and `i+1`. Column `j` of `p1` is index `j-i` of the block. (The code starts the sum
with `-p1`.) -/
noncomputable def negRem (n i : ℕ) (p1 p2 : ℕ → ℝ) (j : ℕ) : ℝ :=
  let poly1 := if j = n - 1 then 0 else (p1 i / p2 (i + 1)) * p2 (j + 1)
  let poly2 := (p1 (i + 1) / p2 (i + 1)) * p2 j
  let poly3 := (-p2 (i + 2) * p1 i / (p2 (i + 1)) ^ 2) * p2 j
  poly1 + poly2 + poly3 - p1 j

/-- The matrix `_C` filled by the constructors (src/math/Sturm.cpp lines 143-185). -/
noncomputable def sturmRow (n : ℕ) (p : ℕ → ℝ) : ℕ → ℕ → ℝ
  | 0 => fun j => if j < n then p j else 0
  | 1 => fun j => if 1 ≤ j ∧ j < n then sturmRow n p 0 (j - 1) * (n - j : ℕ) else 0
  | i + 2 => fun j =>
    if i + 2 ≤ j ∧ j < n then negRem n i (sturmRow n p i) (sturmRow n p (i + 1)) j else 0

/-- No division by zero in the constructor: the leading coefficients of all divisors are
non-zero. -/
def SturmDefined (n : ℕ) (p : ℕ → ℝ) : Prop := ∀ i, 1 ≤ i → i + 1 < n → sturmRow n p i i ≠ 0

/-- The loop filling `monomials` (src/math/Sturm.cpp lines 352-355 and 395-397): the entry with `k`
multiplications. -/
def monoRec (x : ℝ) : ℕ → ℝ
  | 0 => 1
  | k + 1 => monoRec x k * x

/-- `monomials[j]`. -/
def monomials (n : ℕ) (x : ℝ) (j : ℕ) : ℝ := monoRec x (n - 1 - j)

open Classical in
/-- The loop counting sign changes (src/math/Sturm.cpp lines 361-384 and 408-433). -/
noncomputable def countChanges : Bool → List ℝ → ℕ
  | _, [] => 0
  | true, s :: ss => if s < 0 then countChanges false ss + 1 else countChanges true ss
  | false, s :: ss => if s > 0 then countChanges true ss + 1 else countChanges false ss

open Classical in
/-- The count from the list of all values: the first one only sets the initial sign. -/
noncomputable def signChanges : List ℝ → ℕ
  | [] => 0
  | s :: ss => countChanges (decide (s > 0)) ss

/-- The inner loop of `evaluateChain2` (lines 401-406), `k` columns left. -/
def signLoop (row mono : ℕ → ℝ) : ℕ → ℕ → ℝ → ℝ
  | 0, _, acc => acc
  | k + 1, j, acc => signLoop row mono k (j + 1) (acc + row j * mono j)

/-- `evaluateChain2` (src/math/Sturm.cpp lines 389-434). -/
noncomputable def evaluateChain2 (n : ℕ) (p : ℕ → ℝ) (x : ℝ) : ℕ :=
  signChanges ((List.range n).map fun i => signLoop (sturmRow n p i) (monomials n x) (n - i) i 0)

/-- `evaluateChain` (src/math/Sturm.cpp lines 346-387): products of matrix blocks. -/
noncomputable def evaluateChain (n : ℕ) (p : ℕ → ℝ) (x : ℝ) : ℕ :=
  signChanges ((List.range n).map fun i =>
    ∑ k ∈ Finset.range (n - i), sturmRow n p i (i + k) * monomials n x (i + k))

/-- The entries of `coefficients` (src/math/Sturm.cpp lines 467-468). -/
noncomputable def lagrangeCoefficient (p : ℕ → ℝ) (i : ℕ) : ℝ :=
  |p (i + 1) / p 0| ^ (1 / ((i : ℝ) + 1))

open Classical in
/-- The loop for `max1` (lines 470-479): `k` entries left, the next one is `i`; the state is
`(j, max1)`. -/
noncomputable def max1Loop (c : ℕ → ℝ) : ℕ → ℕ → ℕ × ℝ → ℕ × ℝ
  | 0, _, s => s
  | k + 1, i, s => max1Loop c k (i + 1) (if c i > s.2 then (i, c i) else s)

open Classical in
/-- The loop for `max2` (lines 483-488). -/
noncomputable def max2Loop (c : ℕ → ℝ) : ℕ → ℕ → ℝ → ℝ
  | 0, _, m => m
  | k + 1, i, m => max2Loop c k (i + 1) (if c i > m then c i else m)

open Classical in
/-- `computeLagrangianBound` (src/math/Sturm.cpp lines 461-492); `none` is an access to an empty
vector (`coefficients[j]` with no coefficients) or a division by zero. -/
noncomputable def lagrangianBound (n : ℕ) (p : ℕ → ℝ) : Option ℝ :=
  if n ≤ 1 ∨ p 0 = 0 then none
  else
    let c := lagrangeCoefficient p
    let s := max1Loop c (n - 1) 0 (0, -1)
    let c' := fun i => if i = s.1 then -1 else c i
    some (s.2 + max2Loop c' (n - 1) 0 (-1))

/-- The class `Bracket` (include/opengv/math/Sturm.hpp), with both numbers of sign changes set. -/
structure Bracket where
  lo : ℝ
  hi : ℝ
  loChanges : ℕ
  hiChanges : ℕ

/-- `Bracket::numberRoots` (src/math/Sturm.cpp lines 131-140): a difference of `size_t`. -/
def Bracket.numberRoots (b : Bracket) : ℕ := (b.loChanges + 2 ^ 64 - b.hiChanges) % 2 ^ 64

/-- `Bracket::dividable` (src/math/Sturm.cpp lines 70-81). -/
def Bracket.Dividable (b : Bracket) (eps : ℝ) : Prop :=
  ¬ (b.numberRoots = 1 ∧ b.hi - b.lo < eps) ∧ b.numberRoots ≠ 0 ∧
  ¬ ((b.hi + b.lo) / 2 = b.hi ∨ (b.hi + b.lo) / 2 = b.lo)

open Classical in
/-- The loop of `bracketRoots` (src/math/Sturm.cpp lines 323-343). The stack is a queue: taken from the
front, filled at the back. The brackets whose midpoints are pushed into `roots` are collected in
`out`. `none` means that the fuel is used up. -/
noncomputable def bracketLoop (V : ℝ → ℕ) (eps : ℝ) :
    ℕ → List Bracket → List Bracket → Option (List Bracket)
  | _, [], out => some out
  | 0, _ :: _, _ => none
  | fuel + 1, b :: stack, out =>
    if b.Dividable eps then
      let center := (b.hi + b.lo) / 2
      let changes := V center
      bracketLoop V eps fuel
        (stack ++ [⟨b.lo, center, b.loChanges, changes⟩, ⟨center, b.hi, changes, b.hiChanges⟩]) out
    else if b.numberRoots > 0 then bracketLoop V eps fuel stack (out ++ [b])
    else bracketLoop V eps fuel stack out

open Classical in
/-- `bracketRoots` (src/math/Sturm.cpp lines 309-344); `none` means that the bound is undefined or the
fuel is used up. With no roots `localEps` is a division by zero, but then it has no influence. -/
noncomputable def bracketRoots (n : ℕ) (p : ℕ → ℝ) (eps : ℝ) (fuel : ℕ) : Option (List Bracket) :=
  match lagrangianBound n p with
  | none => none
  | some B =>
    let V := evaluateChain2 n p
    let b0 : Bracket := ⟨-B, B, V (-B), V B⟩
    let localEps := if eps < 0 then B / (10 * b0.numberRoots) else eps
    bracketLoop V localEps fuel [b0] []

/-- The product `_C.row(i) * monomials` (src/math/Sturm.cpp lines 220, 226, 236, 298, 299). -/
noncomputable def rowValue (n : ℕ) (p : ℕ → ℝ) (i : ℕ) (x : ℝ) : ℝ :=
  ∑ j ∈ Finset.range n, sturmRow n p i j * monomials n x j

open Classical in
/-- The `k` correction steps of `findRoots` (src/math/Sturm.cpp lines 293-303) from the value `x`;
`none` is a division by zero. -/
noncomputable def correctionSteps (n : ℕ) (p : ℕ → ℝ) : ℕ → ℝ → Option ℝ
  | 0, x => some x
  | k + 1, x =>
    if rowValue n p 1 x = 0 then none
    else correctionSteps n p k (x - rowValue n p 0 x / rowValue n p 1 x)

/-- `findRoots` (src/math/Sturm.cpp lines 278-307): the midpoints of the brackets (line 341) with
the default parameter of `bracketRoots`, each corrected five times. -/
noncomputable def findRoots (n : ℕ) (p : ℕ → ℝ) (fuel : ℕ) : Option (List ℝ) :=
  match bracketRoots n p (-1) fuel with
  | none => none
  | some bs => bs.mapM fun b => correctionSteps n p 5 (0.5 * (b.lo + b.hi))

open Classical in
/-- The inner loop of `findRoots2` (src/math/Sturm.cpp lines 224-250). The result is `none` if the fuel
is used up, `some none` if the loop is left with `break`, `some (some root)` if it converged. With
a zero derivative the quotient is infinite and the bracket is left, or it is not a number and the
loop never ends. -/
noncomputable def newtonLoop (f f' : ℝ → ℝ) (lo hi epsVal : ℝ) : ℕ → ℝ → Option (Option ℝ)
  | 0, _ => none
  | fuel + 1, root =>
    if f' root = 0 then
      if f root = 0 then none else some none
    else
      let newRoot := root - f root / f' root
      if newRoot < lo ∨ newRoot > hi then some none
      else if |f newRoot| > |f root| then some none
      else if |f newRoot| < epsVal then some (some newRoot)
      else newtonLoop f f' lo hi epsVal fuel newRoot

open Classical in
/-- The outer loop of `findRoots2` (src/math/Sturm.cpp lines 203-275). Each value pushed into `roots`
is kept together with its bracket. -/
noncomputable def findRoots2Loop (V : ℝ → ℕ) (f f' : ℝ → ℝ) (epsX epsVal : ℝ) :
    ℕ → List Bracket → List (Bracket × ℝ) → Option (List (Bracket × ℝ))
  | _, [], out => some out
  | 0, _ :: _, _ => none
  | fuel + 1, b :: stack, out =>
    let center := (b.hi + b.lo) / 2
    let divided := stack ++ [⟨b.lo, center, b.loChanges, V center⟩,
      ⟨center, b.hi, V center, b.hiChanges⟩]
    if b.Dividable epsX then
      if b.numberRoots = 1 then
        match newtonLoop f f' b.lo b.hi epsVal fuel (0.5 * (b.lo + b.hi)) with
        | none => none
        | some (some root) => findRoots2Loop V f f' epsX epsVal fuel stack (out ++ [(b, root)])
        | some none => findRoots2Loop V f f' epsX epsVal fuel divided out
      else findRoots2Loop V f f' epsX epsVal fuel divided out
    else if b.numberRoots > 0 then
      findRoots2Loop V f f' epsX epsVal fuel stack (out ++ [(b, 0.5 * (b.lo + b.hi))])
    else findRoots2Loop V f f' epsX epsVal fuel stack out

/-- `findRoots2` (src/math/Sturm.cpp lines 189-276). -/
noncomputable def findRoots2 (n : ℕ) (p : ℕ → ℝ) (epsX epsVal : ℝ) (fuel : ℕ) :
    Option (List (Bracket × ℝ)) :=
  match lagrangianBound n p with
  | none => none
  | some B =>
    let V := evaluateChain2 n p
    findRoots2Loop V (rowValue n p 0) (rowValue n p 1) epsX epsVal fuel
      [⟨-B, B, V (-B), V B⟩] []

end OpenGV
