import Mathlib.Data.Real.Basic

/-!
# Model of `src/math/gauss_jordan.cpp`

The matrix is a function of row and column; `rows` and `cols` are its sizes, all rows have `cols`
entries. Every access outside the matrix is the outcome `outOfBounds`, a division by a zero pivot the
outcome `divByZero`. The threshold 1e-10 of the code is the parameter `prec`. `dropped` is a ghost
flag: it records that a non-zero number was treated as zero because of the threshold.

The loops over columns are modelled by their simultaneous effect (they change different entries and
read the working row, which they do not change).
-/

namespace OpenGV

/-- The ways `gauss_jordan` can go wrong; `fuel` is proved not to occur. -/
inductive GjErr where
  | outOfBounds
  | divByZero
  | fuel
  deriving DecidableEq

/-- The matrix and the ghost flag. -/
structure GJ where
  M : ℕ → ℕ → ℝ
  dropped : Prop

open Classical in
/-- Search for the row with the largest leading coefficient (src/math/gauss_jordan.cpp lines 52-62):
`n` rows are left, `best` and `maxValue` are the code's `row` (`none` for -1) and `maxValue`. -/
noncomputable def pivotLoop (M : ℕ → ℕ → ℝ) (front : ℕ) : ℕ → ℕ → Option ℕ → ℝ → Option ℕ
  | 0, _, best, _ => best
  | n + 1, tempRow, best, maxValue =>
    let value := |M tempRow front|
    if value > maxValue then pivotLoop M front n (tempRow + 1) (some tempRow) value
    else pivotLoop M front n (tempRow + 1) best maxValue

/-- `std::swap(matrix[row], matrix[frontRow])` (line 65). -/
def swapRows (M : ℕ → ℕ → ℝ) (row front : ℕ) : ℕ → ℕ → ℝ :=
  fun r => if r = front then M row else if r = row then M front else M r

open Classical in
/-- Division of the working row by its leading coefficient (lines 70-78). -/
noncomputable def normalizeRow (cols : ℕ) (M : ℕ → ℕ → ℝ) (front : ℕ) : ℕ → ℕ → ℝ :=
  let inv := 1 / M front front
  fun r c =>
    if r = front then
      if c = front then 1 else if front < c ∧ c < cols then M r c * inv else M r c
    else M r c

open Classical in
/-- Subtraction of a multiple of the working row from row `row` (lines 80-105 and 117-148). -/
noncomputable def subRow (cols : ℕ) (prec : ℝ) (front row : ℕ) (g : GJ) : GJ :=
  let lc := g.M row front
  if |lc| > prec then
    { M := fun r c =>
        if r = row ∧ front ≤ c ∧ c < cols ∧ |g.M front c| > prec then g.M r c - lc * g.M front c
        else g.M r c
      dropped := g.dropped ∨ ∃ c, front ≤ c ∧ c < cols ∧ ¬ |g.M front c| > prec ∧ g.M front c ≠ 0 }
  else { M := g.M, dropped := g.dropped ∨ lc ≠ 0 }

/-- The loop over the remaining rows (lines 93-108): `n` rows are left, the next one is `row`. -/
noncomputable def downRows (cols : ℕ) (prec : ℝ) (front : ℕ) : ℕ → ℕ → GJ → GJ
  | 0, _, g => g
  | n + 1, row, g => downRows cols prec front n (row + 1) (subRow cols prec front row g)

open Classical in
/-- One pass of the first loop (lines 48-109). -/
noncomputable def downStep (rows cols : ℕ) (prec : ℝ) (front : ℕ) (g : GJ) : Except GjErr GJ :=
  if cols ≤ front then .error .outOfBounds
  else
    match pivotLoop g.M front (rows - front) front none (-1) with
    | none => .error .outOfBounds
    | some row =>
      let M1 := swapRows g.M row front
      if M1 front front = 0 then .error .divByZero
      else
        let M2 := normalizeRow cols M1 front
        .ok (downRows cols prec front (rows - (front + 1)) (front + 1) ⟨M2, g.dropped⟩)

/-- The first loop (line 48): `n` passes are left, the next one has working row `front`. -/
noncomputable def downLoop (rows cols : ℕ) (prec : ℝ) : ℕ → ℕ → GJ → Except GjErr GJ
  | 0, _, g => .ok g
  | n + 1, front, g =>
    match downStep rows cols prec front g with
    | .error e => .error e
    | .ok g' => downLoop rows cols prec n (front + 1) g'

/-- The do-while loop (lines 128-150). -/
noncomputable def upRows (rows cols : ℕ) (prec : ℝ) (front : ℕ) (exit : ℤ) :
    ℕ → ℤ → GJ → Except GjErr GJ
  | 0, _, _ => .error .fuel
  | n + 1, row, g =>
    let row := row - 1
    if row < 0 ∨ (rows : ℤ) ≤ row then .error .outOfBounds
    else
      let g' := subRow cols prec front row.toNat g
      if row > exit then upRows rows cols prec front exit n row g' else .ok g'

/-- The second loop (lines 112-153). -/
noncomputable def upLoop (rows cols : ℕ) (prec : ℝ) (exit : ℤ) : ℕ → ℤ → GJ → Except GjErr GJ
  | 0, front, g => if front > exit then .error .fuel else .ok g
  | n + 1, front, g =>
    if front > exit then
      if front < 0 ∨ (rows : ℤ) ≤ front then .error .outOfBounds
      else
        match upRows rows cols prec front.toNat exit (front - exit).toNat front g with
        | .error e => .error e
        | .ok g' => upLoop rows cols prec exit n (front - 1) g'
    else .ok g

/-- `gauss_jordan` (src/math/gauss_jordan.cpp lines 35-154). -/
noncomputable def gaussJordan (rows cols : ℕ) (prec : ℝ) (exit : ℤ) (M : ℕ → ℕ → ℝ) :
    Except GjErr GJ :=
  if rows = 0 then .error .outOfBounds
  else
    match downLoop rows cols prec rows 0 ⟨M, False⟩ with
    | .error e => .error e
    | .ok g => upLoop rows cols prec exit (((rows : ℤ) - 1) - exit).toNat ((rows : ℤ) - 1) g

end OpenGV
