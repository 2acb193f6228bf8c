import Mathlib.Algebra.Ring.Defs
import Mathlib.Data.Fin.VecNotation

/-!
# Tables of the six point solver

Generated by tools/gen_sixpt.py from `src/relative_pose/modules/sixpt/modules2.cpp`; the entries are
those of the source, in its order. The numbers are from a ring `R`; the code has `ℝ`.
-/

namespace OpenGV

set_option linter.unusedVariables false

/-- The numbers pushed to `c0` (src/relative_pose/modules/sixpt/modules2.cpp lines
48-57). -/
def sixC0 {R : Type} [CommRing R] (l01 l02 l11 l12 : Fin 6 → R) : Fin 10 → R :=
  ![-l12 2 * l11 1 * l01 0 + l12 2 * l11 0 * l01 1 + l12 1 * l11 2 * l01 0 - l12 1 * l11 0 * l01 2
  + l12 0 * l11 2 * l01 1 - l12 0 * l11 1 * l01 2, 2 * l12 1 * l11 2 * l01 1 - 2 * l12 1 * l11 1 *
  l01 2 - 2 * l12 0 * l11 2 * l01 0 + 2 * l12 0 * l11 0 * l01 2, -l12 2 * l11 1 * l01 0 + l12 2 *
  l11 0 * l01 1 - l12 1 * l11 2 * l01 0 + l12 1 * l11 0 * l01 2 - l12 0 * l11 2 * l01 1 + l12 0 *
  l11 1 * l01 2, 2 * l12 2 * l11 2 * l01 1 - 2 * l12 2 * l11 1 * l01 2 + 2 * l12 0 * l11 1 * l01 0
  - 2 * l12 0 * l11 0 * l01 1, -2 * l12 2 * l11 2 * l01 0 + 2 * l12 2 * l11 0 * l01 2 + 2 * l12 1
  * l11 1 * l01 0 - 2 * l12 1 * l11 0 * l01 1, l12 2 * l11 1 * l01 0 - l12 2 * l11 0 * l01 1 + l12
  1 * l11 2 * l01 0 - l12 1 * l11 0 * l01 2 - l12 0 * l11 2 * l01 1 + l12 0 * l11 1 * l01 2, -2 *
  l12 2 * l11 2 * l01 0 + 2 * l12 2 * l11 0 * l01 2 - 2 * l12 1 * l11 1 * l01 0 + 2 * l12 1 * l11
  0 * l01 1, -2 * l12 2 * l11 2 * l01 1 + 2 * l12 2 * l11 1 * l01 2 + 2 * l12 0 * l11 1 * l01 0 -
  2 * l12 0 * l11 0 * l01 1, 2 * l12 1 * l11 2 * l01 1 - 2 * l12 1 * l11 1 * l01 2 + 2 * l12 0 *
  l11 2 * l01 0 - 2 * l12 0 * l11 0 * l01 2, l12 2 * l11 1 * l01 0 - l12 2 * l11 0 * l01 1 - l12 1
  * l11 2 * l01 0 + l12 1 * l11 0 * l01 2 + l12 0 * l11 2 * l01 1 - l12 0 * l11 1 * l01 2]

/-- The numbers pushed to `c1` (src/relative_pose/modules/sixpt/modules2.cpp lines
58-67). -/
def sixC1 {R : Type} [CommRing R] (l01 l02 l11 l12 : Fin 6 → R) : Fin 10 → R :=
  ![l12 2 * l11 1 * l02 0 + l12 2 * l11 0 * l02 1 - l12 1 * l11 2 * l02 0 - l12 1 * l11 0 * l02 2
  + l12 0 * l11 2 * l02 1 - l12 0 * l11 1 * l02 2, 2 * l12 2 * l11 1 * l02 1 - 2 * l12 2 * l11 0 *
  l02 0 - 2 * l12 1 * l11 1 * l02 2 + 2 * l12 0 * l11 0 * l02 2, -l12 2 * l11 1 * l02 0 - l12 2 *
  l11 0 * l02 1 - l12 1 * l11 2 * l02 0 + l12 1 * l11 0 * l02 2 + l12 0 * l11 2 * l02 1 + l12 0 *
  l11 1 * l02 2, 2 * l12 2 * l11 2 * l02 1 - 2 * l12 1 * l11 2 * l02 2 + 2 * l12 1 * l11 0 * l02 0
  - 2 * l12 0 * l11 0 * l02 1, -2 * l12 2 * l11 2 * l02 0 + 2 * l12 1 * l11 1 * l02 0 + 2 * l12 0
  * l11 2 * l02 2 - 2 * l12 0 * l11 1 * l02 1, l12 2 * l11 1 * l02 0 - l12 2 * l11 0 * l02 1 + l12
  1 * l11 2 * l02 0 + l12 1 * l11 0 * l02 2 - l12 0 * l11 2 * l02 1 - l12 0 * l11 1 * l02 2, 2 *
  l12 2 * l11 2 * l02 0 + 2 * l12 1 * l11 1 * l02 0 - 2 * l12 0 * l11 2 * l02 2 - 2 * l12 0 * l11
  1 * l02 1, 2 * l12 2 * l11 2 * l02 1 - 2 * l12 1 * l11 2 * l02 2 - 2 * l12 1 * l11 0 * l02 0 + 2
  * l12 0 * l11 0 * l02 1, -2 * l12 2 * l11 1 * l02 1 - 2 * l12 2 * l11 0 * l02 0 + 2 * l12 1 *
  l11 1 * l02 2 + 2 * l12 0 * l11 0 * l02 2, -l12 2 * l11 1 * l02 0 + l12 2 * l11 0 * l02 1 + l12
  1 * l11 2 * l02 0 - l12 1 * l11 0 * l02 2 - l12 0 * l11 2 * l02 1 + l12 0 * l11 1 * l02 2]

/-- The numbers pushed to `c2` (src/relative_pose/modules/sixpt/modules2.cpp lines
68-77). -/
def sixC2 {R : Type} [CommRing R] (l01 l02 l11 l12 : Fin 6 → R) : Fin 10 → R :=
  ![-l12 2 * l11 1 * l02 5 * l02 1 + l12 2 * l11 1 * l02 4 * l02 2 + l12 2 * l11 1 * l01 5 * l01 1
  - l12 2 * l11 1 * l01 4 * l01 2 + l12 2 * l11 0 * l02 5 * l02 0 - l12 2 * l11 0 * l02 3 * l02 2
  + l12 2 * l11 0 * l01 5 * l01 0 - l12 2 * l11 0 * l01 3 * l01 2 + l12 1 * l11 2 * l02 5 * l02 1
  - l12 1 * l11 2 * l02 4 * l02 2 - l12 1 * l11 2 * l01 5 * l01 1 + l12 1 * l11 2 * l01 4 * l01 2
  + l12 1 * l11 0 * l02 4 * l02 0 - l12 1 * l11 0 * l02 3 * l02 1 + l12 1 * l11 0 * l01 4 * l01 0
  - l12 1 * l11 0 * l01 3 * l01 1 + l12 0 * l11 2 * l02 5 * l02 0 - l12 0 * l11 2 * l02 3 * l02 2
  + l12 0 * l11 2 * l01 5 * l01 0 - l12 0 * l11 2 * l01 3 * l01 2 + l12 0 * l11 1 * l02 4 * l02 0
  - l12 0 * l11 1 * l02 3 * l02 1 + l12 0 * l11 1 * l01 4 * l01 0 - l12 0 * l11 1 * l01 3 * l01 1
  - l12 5 * l11 2 - l12 4 * l11 1 + l12 3 * l11 0 - l12 2 * l11 5 - l12 1 * l11 4 + l12 0 * l11 3,
  2 * l12 2 * l11 1 * l02 5 * l02 0 - 2 * l12 2 * l11 1 * l02 3 * l02 2 + 2 * l12 2 * l11 0 * l02
  5 * l02 1 - 2 * l12 2 * l11 0 * l02 4 * l02 2 + 2 * l12 1 * l11 2 * l01 5 * l01 0 - 2 * l12 1 *
  l11 2 * l01 3 * l01 2 + 2 * l12 1 * l11 1 * l02 4 * l02 0 - 2 * l12 1 * l11 1 * l02 3 * l02 1 +
  2 * l12 1 * l11 1 * l01 4 * l01 0 - 2 * l12 1 * l11 1 * l01 3 * l01 1 + 2 * l12 0 * l11 2 * l01
  5 * l01 1 - 2 * l12 0 * l11 2 * l01 4 * l01 2 - 2 * l12 0 * l11 0 * l02 4 * l02 0 + 2 * l12 0 *
  l11 0 * l02 3 * l02 1 - 2 * l12 0 * l11 0 * l01 4 * l01 0 + 2 * l12 0 * l11 0 * l01 3 * l01 1 +
  2 * l12 4 * l11 0 + 2 * l12 3 * l11 1 + 2 * l12 1 * l11 3 + 2 * l12 0 * l11 4, l12 2 * l11 1 *
  l02 5 * l02 1 - l12 2 * l11 1 * l02 4 * l02 2 + l12 2 * l11 1 * l01 5 * l01 1 - l12 2 * l11 1 *
  l01 4 * l01 2 - l12 2 * l11 0 * l02 5 * l02 0 + l12 2 * l11 0 * l02 3 * l02 2 + l12 2 * l11 0 *
  l01 5 * l01 0 - l12 2 * l11 0 * l01 3 * l01 2 + l12 1 * l11 2 * l02 5 * l02 1 - l12 1 * l11 2 *
  l02 4 * l02 2 + l12 1 * l11 2 * l01 5 * l01 1 - l12 1 * l11 2 * l01 4 * l01 2 - l12 1 * l11 0 *
  l02 4 * l02 0 + l12 1 * l11 0 * l02 3 * l02 1 - l12 1 * l11 0 * l01 4 * l01 0 + l12 1 * l11 0 *
  l01 3 * l01 1 + l12 0 * l11 2 * l02 5 * l02 0 - l12 0 * l11 2 * l02 3 * l02 2 - l12 0 * l11 2 *
  l01 5 * l01 0 + l12 0 * l11 2 * l01 3 * l01 2 - l12 0 * l11 1 * l02 4 * l02 0 + l12 0 * l11 1 *
  l02 3 * l02 1 - l12 0 * l11 1 * l01 4 * l01 0 + l12 0 * l11 1 * l01 3 * l01 1 - l12 5 * l11 2 +
  l12 4 * l11 1 - l12 3 * l11 0 - l12 2 * l11 5 + l12 1 * l11 4 - l12 0 * l11 3, 2 * l12 2 * l11 2
  * l02 5 * l02 0 - 2 * l12 2 * l11 2 * l02 3 * l02 2 + 2 * l12 2 * l11 2 * l01 5 * l01 0 - 2 *
  l12 2 * l11 2 * l01 3 * l01 2 + 2 * l12 2 * l11 1 * l01 4 * l01 0 - 2 * l12 2 * l11 1 * l01 3 *
  l01 1 + 2 * l12 1 * l11 2 * l02 4 * l02 0 - 2 * l12 1 * l11 2 * l02 3 * l02 1 - 2 * l12 1 * l11
  0 * l02 5 * l02 1 + 2 * l12 1 * l11 0 * l02 4 * l02 2 - 2 * l12 0 * l11 1 * l01 5 * l01 1 + 2 *
  l12 0 * l11 1 * l01 4 * l01 2 - 2 * l12 0 * l11 0 * l02 5 * l02 0 + 2 * l12 0 * l11 0 * l02 3 *
  l02 2 - 2 * l12 0 * l11 0 * l01 5 * l01 0 + 2 * l12 0 * l11 0 * l01 3 * l01 2 + 2 * l12 5 * l11
  0 + 2 * l12 3 * l11 2 + 2 * l12 2 * l11 3 + 2 * l12 0 * l11 5, 2 * l12 2 * l11 2 * l02 5 * l02 1
  - 2 * l12 2 * l11 2 * l02 4 * l02 2 + 2 * l12 2 * l11 2 * l01 5 * l01 1 - 2 * l12 2 * l11 2 *
  l01 4 * l01 2 - 2 * l12 2 * l11 0 * l01 4 * l01 0 + 2 * l12 2 * l11 0 * l01 3 * l01 1 - 2 * l12
  1 * l11 1 * l02 5 * l02 1 + 2 * l12 1 * l11 1 * l02 4 * l02 2 - 2 * l12 1 * l11 1 * l01 5 * l01
  1 + 2 * l12 1 * l11 1 * l01 4 * l01 2 - 2 * l12 1 * l11 0 * l01 5 * l01 0 + 2 * l12 1 * l11 0 *
  l01 3 * l01 2 - 2 * l12 0 * l11 2 * l02 4 * l02 0 + 2 * l12 0 * l11 2 * l02 3 * l02 1 - 2 * l12
  0 * l11 1 * l02 5 * l02 0 + 2 * l12 0 * l11 1 * l02 3 * l02 2 + 2 * l12 5 * l11 1 + 2 * l12 4 *
  l11 2 + 2 * l12 2 * l11 4 + 2 * l12 1 * l11 5, -l12 2 * l11 1 * l02 5 * l02 1 + l12 2 * l11 1 *
  l02 4 * l02 2 - l12 2 * l11 1 * l01 5 * l01 1 + l12 2 * l11 1 * l01 4 * l01 2 - l12 2 * l11 0 *
  l02 5 * l02 0 + l12 2 * l11 0 * l02 3 * l02 2 - l12 2 * l11 0 * l01 5 * l01 0 + l12 2 * l11 0 *
  l01 3 * l01 2 - l12 1 * l11 2 * l02 5 * l02 1 + l12 1 * l11 2 * l02 4 * l02 2 - l12 1 * l11 2 *
  l01 5 * l01 1 + l12 1 * l11 2 * l01 4 * l01 2 - l12 1 * l11 0 * l02 4 * l02 0 + l12 1 * l11 0 *
  l02 3 * l02 1 + l12 1 * l11 0 * l01 4 * l01 0 - l12 1 * l11 0 * l01 3 * l01 1 - l12 0 * l11 2 *
  l02 5 * l02 0 + l12 0 * l11 2 * l02 3 * l02 2 - l12 0 * l11 2 * l01 5 * l01 0 + l12 0 * l11 2 *
  l01 3 * l01 2 + l12 0 * l11 1 * l02 4 * l02 0 - l12 0 * l11 1 * l02 3 * l02 1 - l12 0 * l11 1 *
  l01 4 * l01 0 + l12 0 * l11 1 * l01 3 * l01 1 + l12 5 * l11 2 - l12 4 * l11 1 - l12 3 * l11 0 +
  l12 2 * l11 5 - l12 1 * l11 4 - l12 0 * l11 3, -2 * l12 2 * l11 2 * l02 5 * l02 1 + 2 * l12 2 *
  l11 2 * l02 4 * l02 2 + 2 * l12 2 * l11 2 * l01 5 * l01 1 - 2 * l12 2 * l11 2 * l01 4 * l01 2 -
  2 * l12 2 * l11 0 * l01 4 * l01 0 + 2 * l12 2 * l11 0 * l01 3 * l01 1 - 2 * l12 1 * l11 1 * l02
  5 * l02 1 + 2 * l12 1 * l11 1 * l02 4 * l02 2 + 2 * l12 1 * l11 1 * l01 5 * l01 1 - 2 * l12 1 *
  l11 1 * l01 4 * l01 2 + 2 * l12 1 * l11 0 * l01 5 * l01 0 - 2 * l12 1 * l11 0 * l01 3 * l01 2 +
  2 * l12 0 * l11 2 * l02 4 * l02 0 - 2 * l12 0 * l11 2 * l02 3 * l02 1 - 2 * l12 0 * l11 1 * l02
  5 * l02 0 + 2 * l12 0 * l11 1 * l02 3 * l02 2 + 2 * l12 5 * l11 1 - 2 * l12 4 * l11 2 + 2 * l12
  2 * l11 4 - 2 * l12 1 * l11 5, 2 * l12 2 * l11 2 * l02 5 * l02 0 - 2 * l12 2 * l11 2 * l02 3 *
  l02 2 - 2 * l12 2 * l11 2 * l01 5 * l01 0 + 2 * l12 2 * l11 2 * l01 3 * l01 2 - 2 * l12 2 * l11
  1 * l01 4 * l01 0 + 2 * l12 2 * l11 1 * l01 3 * l01 1 + 2 * l12 1 * l11 2 * l02 4 * l02 0 - 2 *
  l12 1 * l11 2 * l02 3 * l02 1 + 2 * l12 1 * l11 0 * l02 5 * l02 1 - 2 * l12 1 * l11 0 * l02 4 *
  l02 2 - 2 * l12 0 * l11 1 * l01 5 * l01 1 + 2 * l12 0 * l11 1 * l01 4 * l01 2 + 2 * l12 0 * l11
  0 * l02 5 * l02 0 - 2 * l12 0 * l11 0 * l02 3 * l02 2 - 2 * l12 0 * l11 0 * l01 5 * l01 0 + 2 *
  l12 0 * l11 0 * l01 3 * l01 2 - 2 * l12 5 * l11 0 + 2 * l12 3 * l11 2 - 2 * l12 2 * l11 3 + 2 *
  l12 0 * l11 5, -2 * l12 2 * l11 1 * l02 5 * l02 0 + 2 * l12 2 * l11 1 * l02 3 * l02 2 + 2 * l12
  2 * l11 0 * l02 5 * l02 1 - 2 * l12 2 * l11 0 * l02 4 * l02 2 + 2 * l12 1 * l11 2 * l01 5 * l01
  0 - 2 * l12 1 * l11 2 * l01 3 * l01 2 - 2 * l12 1 * l11 1 * l02 4 * l02 0 + 2 * l12 1 * l11 1 *
  l02 3 * l02 1 + 2 * l12 1 * l11 1 * l01 4 * l01 0 - 2 * l12 1 * l11 1 * l01 3 * l01 1 - 2 * l12
  0 * l11 2 * l01 5 * l01 1 + 2 * l12 0 * l11 2 * l01 4 * l01 2 - 2 * l12 0 * l11 0 * l02 4 * l02
  0 + 2 * l12 0 * l11 0 * l02 3 * l02 1 + 2 * l12 0 * l11 0 * l01 4 * l01 0 - 2 * l12 0 * l11 0 *
  l01 3 * l01 1 + 2 * l12 4 * l11 0 - 2 * l12 3 * l11 1 + 2 * l12 1 * l11 3 - 2 * l12 0 * l11 4,
  l12 2 * l11 1 * l02 5 * l02 1 - l12 2 * l11 1 * l02 4 * l02 2 - l12 2 * l11 1 * l01 5 * l01 1 +
  l12 2 * l11 1 * l01 4 * l01 2 + l12 2 * l11 0 * l02 5 * l02 0 - l12 2 * l11 0 * l02 3 * l02 2 -
  l12 2 * l11 0 * l01 5 * l01 0 + l12 2 * l11 0 * l01 3 * l01 2 - l12 1 * l11 2 * l02 5 * l02 1 +
  l12 1 * l11 2 * l02 4 * l02 2 + l12 1 * l11 2 * l01 5 * l01 1 - l12 1 * l11 2 * l01 4 * l01 2 +
  l12 1 * l11 0 * l02 4 * l02 0 - l12 1 * l11 0 * l02 3 * l02 1 - l12 1 * l11 0 * l01 4 * l01 0 +
  l12 1 * l11 0 * l01 3 * l01 1 - l12 0 * l11 2 * l02 5 * l02 0 + l12 0 * l11 2 * l02 3 * l02 2 +
  l12 0 * l11 2 * l01 5 * l01 0 - l12 0 * l11 2 * l01 3 * l01 2 - l12 0 * l11 1 * l02 4 * l02 0 +
  l12 0 * l11 1 * l02 3 * l02 1 + l12 0 * l11 1 * l01 4 * l01 0 - l12 0 * l11 1 * l01 3 * l01 1 +
  l12 5 * l11 2 + l12 4 * l11 1 + l12 3 * l11 0 + l12 2 * l11 5 + l12 1 * l11 4 + l12 0 * l11 3]

/-- The terms of columns 0 to 11 (src/relative_pose/modules/sixpt/modules2.cpp lines
88-99). -/
def sixFill0 : List (List ℕ) :=
  [[0x201000, 0x1200010, 0x1102000, 0x100020, 0x002010, 0x1001020], [0x211000, 0x1210010,
  0x201100, 0x201001, 0x1200110, 0x1200011, 0x1112000, 0x110020, 0x1102100, 0x1102001, 0x100120,
  0x100021, 0x012010, 0x1011020, 0x002110, 0x002011, 0x1001120, 0x1001021], [0x221000, 0x1220010,
  0x211100, 0x211001, 0x1210110, 0x1210011, 0x201200, 0x201101, 0x201002, 0x1200210, 0x1200111,
  0x1200012, 0x1122000, 0x120020, 0x1112100, 0x1112001, 0x110120, 0x110021, 0x1102200, 0x1102101,
  0x1102002, 0x100220, 0x100121, 0x100022, 0x022010, 0x1021020, 0x012110, 0x012011, 0x1011120,
  0x1011021, 0x002210, 0x002111, 0x002012, 0x1001220, 0x1001121, 0x1001022], [0x221100, 0x221001,
  0x1220110, 0x1220011, 0x211200, 0x211101, 0x211002, 0x1210210, 0x1210111, 0x1210012, 0x201201,
  0x201102, 0x1200211, 0x1200112, 0x1122100, 0x1122001, 0x120120, 0x120021, 0x1112200, 0x1112101,
  0x1112002, 0x110220, 0x110121, 0x110022, 0x1102201, 0x1102102, 0x100221, 0x100122, 0x022110,
  0x022011, 0x1021120, 0x1021021, 0x012210, 0x012111, 0x012012, 0x1011220, 0x1011121, 0x1011022,
  0x002211, 0x002112, 0x1001221, 0x1001122], [0x221200, 0x221101, 0x221002, 0x1220210, 0x1220111,
  0x1220012, 0x211201, 0x211102, 0x1210211, 0x1210112, 0x201202, 0x1200212, 0x1122200, 0x1122101,
  0x1122002, 0x120220, 0x120121, 0x120022, 0x1112201, 0x1112102, 0x110221, 0x110122, 0x1102202,
  0x100222, 0x022210, 0x022111, 0x022012, 0x1021220, 0x1021121, 0x1021022, 0x012211, 0x012112,
  0x1011221, 0x1011122, 0x002212, 0x1001222], [0x221201, 0x221102, 0x1220211, 0x1220112, 0x211202,
  0x1210212, 0x1122201, 0x1122102, 0x120221, 0x120122, 0x1112202, 0x110222, 0x022211, 0x022112,
  0x1021221, 0x1021122, 0x012212, 0x1011222], [0x221202, 0x1220212, 0x1122202, 0x120222, 0x022212,
  0x1021222], [0x231000, 0x1230010, 0x201300, 0x201003, 0x1200310, 0x1200013, 0x1132000, 0x130020,
  0x1102300, 0x1102003, 0x100320, 0x100023, 0x032010, 0x1031020, 0x002310, 0x002013, 0x1001320,
  0x1001023], [0x241000, 0x1240010, 0x231100, 0x231001, 0x1230110, 0x1230011, 0x211300, 0x211003,
  0x1210310, 0x1210013, 0x201400, 0x201301, 0x201103, 0x201004, 0x1200410, 0x1200311, 0x1200113,
  0x1200014, 0x1142000, 0x140020, 0x1132100, 0x1132001, 0x130120, 0x130021, 0x1112300, 0x1112003,
  0x110320, 0x110023, 0x1102400, 0x1102301, 0x1102103, 0x1102004, 0x100420, 0x100321, 0x100123,
  0x100024, 0x042010, 0x1041020, 0x032110, 0x032011, 0x1031120, 0x1031021, 0x012310, 0x012013,
  0x1011320, 0x1011023, 0x002410, 0x002311, 0x002113, 0x002014, 0x1001420, 0x1001321, 0x1001123,
  0x1001024], [0x241100, 0x241001, 0x1240110, 0x1240011, 0x231200, 0x231101, 0x231002, 0x1230210,
  0x1230111, 0x1230012, 0x221300, 0x221003, 0x1220310, 0x1220013, 0x211400, 0x211301, 0x211103,
  0x211004, 0x1210410, 0x1210311, 0x1210113, 0x1210014, 0x201401, 0x201302, 0x201203, 0x201104,
  0x1200411, 0x1200312, 0x1200213, 0x1200114, 0x1142100, 0x1142001, 0x140120, 0x140021, 0x1132200,
  0x1132101, 0x1132002, 0x130220, 0x130121, 0x130022, 0x1122300, 0x1122003, 0x120320, 0x120023,
  0x1112400, 0x1112301, 0x1112103, 0x1112004, 0x110420, 0x110321, 0x110123, 0x110024, 0x1102401,
  0x1102302, 0x1102203, 0x1102104, 0x100421, 0x100322, 0x100223, 0x100124, 0x042110, 0x042011,
  0x1041120, 0x1041021, 0x032210, 0x032111, 0x032012, 0x1031220, 0x1031121, 0x1031022, 0x022310,
  0x022013, 0x1021320, 0x1021023, 0x012410, 0x012311, 0x012113, 0x012014, 0x1011420, 0x1011321,
  0x1011123, 0x1011024, 0x002411, 0x002312, 0x002213, 0x002114, 0x1001421, 0x1001322, 0x1001223,
  0x1001124], [0x241200, 0x241101, 0x241002, 0x1240210, 0x1240111, 0x1240012, 0x231201, 0x231102,
  0x1230211, 0x1230112, 0x221400, 0x221301, 0x221103, 0x221004, 0x1220410, 0x1220311, 0x1220113,
  0x1220014, 0x211401, 0x211302, 0x211203, 0x211104, 0x1210411, 0x1210312, 0x1210213, 0x1210114,
  0x201402, 0x201204, 0x1200412, 0x1200214, 0x1142200, 0x1142101, 0x1142002, 0x140220, 0x140121,
  0x140022, 0x1132201, 0x1132102, 0x130221, 0x130122, 0x1122400, 0x1122301, 0x1122103, 0x1122004,
  0x120420, 0x120321, 0x120123, 0x120024, 0x1112401, 0x1112302, 0x1112203, 0x1112104, 0x110421,
  0x110322, 0x110223, 0x110124, 0x1102402, 0x1102204, 0x100422, 0x100224, 0x042210, 0x042111,
  0x042012, 0x1041220, 0x1041121, 0x1041022, 0x032211, 0x032112, 0x1031221, 0x1031122, 0x022410,
  0x022311, 0x022113, 0x022014, 0x1021420, 0x1021321, 0x1021123, 0x1021024, 0x012411, 0x012312,
  0x012213, 0x012114, 0x1011421, 0x1011322, 0x1011223, 0x1011124, 0x002412, 0x002214, 0x1001422,
  0x1001224], [0x241201, 0x241102, 0x1240211, 0x1240112, 0x231202, 0x1230212, 0x221401, 0x221302,
  0x221203, 0x221104, 0x1220411, 0x1220312, 0x1220213, 0x1220114, 0x211402, 0x211204, 0x1210412,
  0x1210214, 0x1142201, 0x1142102, 0x140221, 0x140122, 0x1132202, 0x130222, 0x1122401, 0x1122302,
  0x1122203, 0x1122104, 0x120421, 0x120322, 0x120223, 0x120124, 0x1112402, 0x1112204, 0x110422,
  0x110224, 0x042211, 0x042112, 0x1041221, 0x1041122, 0x032212, 0x1031222, 0x022411, 0x022312,
  0x022213, 0x022114, 0x1021421, 0x1021322, 0x1021223, 0x1021124, 0x012412, 0x012214, 0x1011422,
  0x1011224]]

/-- The terms of columns 12 to 23 (src/relative_pose/modules/sixpt/modules2.cpp lines
100-111). -/
def sixFill1 : List (List ℕ) :=
  [[0x241202, 0x1240212, 0x221402, 0x221204, 0x1220412, 0x1220214, 0x1142202, 0x140222, 0x1122402,
  0x1122204, 0x120422, 0x120224, 0x042212, 0x1041222, 0x022412, 0x022214, 0x1021422, 0x1021224],
  [0x251000, 0x1250010, 0x231300, 0x231003, 0x1230310, 0x1230013, 0x201500, 0x201303, 0x201005,
  0x1200510, 0x1200313, 0x1200015, 0x1152000, 0x150020, 0x1132300, 0x1132003, 0x130320, 0x130023,
  0x1102500, 0x1102303, 0x1102005, 0x100520, 0x100323, 0x100025, 0x052010, 0x1051020, 0x032310,
  0x032013, 0x1031320, 0x1031023, 0x002510, 0x002313, 0x002015, 0x1001520, 0x1001323, 0x1001025],
  [0x251100, 0x251001, 0x1250110, 0x1250011, 0x241300, 0x241003, 0x1240310, 0x1240013, 0x231400,
  0x231301, 0x231103, 0x231004, 0x1230410, 0x1230311, 0x1230113, 0x1230014, 0x211500, 0x211303,
  0x211005, 0x1210510, 0x1210313, 0x1210015, 0x201501, 0x201403, 0x201304, 0x201105, 0x1200511,
  0x1200413, 0x1200314, 0x1200115, 0x1152100, 0x1152001, 0x150120, 0x150021, 0x1142300, 0x1142003,
  0x140320, 0x140023, 0x1132400, 0x1132301, 0x1132103, 0x1132004, 0x130420, 0x130321, 0x130123,
  0x130024, 0x1112500, 0x1112303, 0x1112005, 0x110520, 0x110323, 0x110025, 0x1102501, 0x1102403,
  0x1102304, 0x1102105, 0x100521, 0x100423, 0x100324, 0x100125, 0x052110, 0x052011, 0x1051120,
  0x1051021, 0x042310, 0x042013, 0x1041320, 0x1041023, 0x032410, 0x032311, 0x032113, 0x032014,
  0x1031420, 0x1031321, 0x1031123, 0x1031024, 0x012510, 0x012313, 0x012015, 0x1011520, 0x1011323,
  0x1011025, 0x002511, 0x002413, 0x002314, 0x002115, 0x1001521, 0x1001423, 0x1001324, 0x1001125],
  [0x251200, 0x251101, 0x251002, 0x1250210, 0x1250111, 0x1250012, 0x241400, 0x241301, 0x241103,
  0x241004, 0x1240410, 0x1240311, 0x1240113, 0x1240014, 0x231401, 0x231302, 0x231203, 0x231104,
  0x1230411, 0x1230312, 0x1230213, 0x1230114, 0x221500, 0x221303, 0x221005, 0x1220510, 0x1220313,
  0x1220015, 0x211501, 0x211403, 0x211304, 0x211105, 0x1210511, 0x1210413, 0x1210314, 0x1210115,
  0x201502, 0x201404, 0x201205, 0x1200512, 0x1200414, 0x1200215, 0x1152200, 0x1152101, 0x1152002,
  0x150220, 0x150121, 0x150022, 0x1142400, 0x1142301, 0x1142103, 0x1142004, 0x140420, 0x140321,
  0x140123, 0x140024, 0x1132401, 0x1132302, 0x1132203, 0x1132104, 0x130421, 0x130322, 0x130223,
  0x130124, 0x1122500, 0x1122303, 0x1122005, 0x120520, 0x120323, 0x120025, 0x1112501, 0x1112403,
  0x1112304, 0x1112105, 0x110521, 0x110423, 0x110324, 0x110125, 0x1102502, 0x1102404, 0x1102205,
  0x100522, 0x100424, 0x100225, 0x052210, 0x052111, 0x052012, 0x1051220, 0x1051121, 0x1051022,
  0x042410, 0x042311, 0x042113, 0x042014, 0x1041420, 0x1041321, 0x1041123, 0x1041024, 0x032411,
  0x032312, 0x032213, 0x032114, 0x1031421, 0x1031322, 0x1031223, 0x1031124, 0x022510, 0x022313,
  0x022015, 0x1021520, 0x1021323, 0x1021025, 0x012511, 0x012413, 0x012314, 0x012115, 0x1011521,
  0x1011423, 0x1011324, 0x1011125, 0x002512, 0x002414, 0x002215, 0x1001522, 0x1001424, 0x1001225],
  [0x251201, 0x251102, 0x1250211, 0x1250112, 0x241401, 0x241302, 0x241203, 0x241104, 0x1240411,
  0x1240312, 0x1240213, 0x1240114, 0x231402, 0x231204, 0x1230412, 0x1230214, 0x221501, 0x221403,
  0x221304, 0x221105, 0x1220511, 0x1220413, 0x1220314, 0x1220115, 0x211502, 0x211404, 0x211205,
  0x1210512, 0x1210414, 0x1210215, 0x1152201, 0x1152102, 0x150221, 0x150122, 0x1142401, 0x1142302,
  0x1142203, 0x1142104, 0x140421, 0x140322, 0x140223, 0x140124, 0x1132402, 0x1132204, 0x130422,
  0x130224, 0x1122501, 0x1122403, 0x1122304, 0x1122105, 0x120521, 0x120423, 0x120324, 0x120125,
  0x1112502, 0x1112404, 0x1112205, 0x110522, 0x110424, 0x110225, 0x052211, 0x052112, 0x1051221,
  0x1051122, 0x042411, 0x042312, 0x042213, 0x042114, 0x1041421, 0x1041322, 0x1041223, 0x1041124,
  0x032412, 0x032214, 0x1031422, 0x1031224, 0x022511, 0x022413, 0x022314, 0x022115, 0x1021521,
  0x1021423, 0x1021324, 0x1021125, 0x012512, 0x012414, 0x012215, 0x1011522, 0x1011424, 0x1011225],
  [0x251202, 0x1250212, 0x241402, 0x241204, 0x1240412, 0x1240214, 0x221502, 0x221404, 0x221205,
  0x1220512, 0x1220414, 0x1220215, 0x1152202, 0x150222, 0x1142402, 0x1142204, 0x140422, 0x140224,
  0x1122502, 0x1122404, 0x1122205, 0x120522, 0x120424, 0x120225, 0x052212, 0x1051222, 0x042412,
  0x042214, 0x1041422, 0x1041224, 0x022512, 0x022414, 0x022215, 0x1021522, 0x1021424, 0x1021225],
  [0x251300, 0x251003, 0x1250310, 0x1250013, 0x231500, 0x231303, 0x231005, 0x1230510, 0x1230313,
  0x1230015, 0x201503, 0x201305, 0x1200513, 0x1200315, 0x1152300, 0x1152003, 0x150320, 0x150023,
  0x1132500, 0x1132303, 0x1132005, 0x130520, 0x130323, 0x130025, 0x1102503, 0x1102305, 0x100523,
  0x100325, 0x052310, 0x052013, 0x1051320, 0x1051023, 0x032510, 0x032313, 0x032015, 0x1031520,
  0x1031323, 0x1031025, 0x002513, 0x002315, 0x1001523, 0x1001325], [0x251400, 0x251301, 0x251103,
  0x251004, 0x1250410, 0x1250311, 0x1250113, 0x1250014, 0x241500, 0x241303, 0x241005, 0x1240510,
  0x1240313, 0x1240015, 0x231501, 0x231403, 0x231304, 0x231105, 0x1230511, 0x1230413, 0x1230314,
  0x1230115, 0x211503, 0x211305, 0x1210513, 0x1210315, 0x201504, 0x201405, 0x1200514, 0x1200415,
  0x1152400, 0x1152301, 0x1152103, 0x1152004, 0x150420, 0x150321, 0x150123, 0x150024, 0x1142500,
  0x1142303, 0x1142005, 0x140520, 0x140323, 0x140025, 0x1132501, 0x1132403, 0x1132304, 0x1132105,
  0x130521, 0x130423, 0x130324, 0x130125, 0x1112503, 0x1112305, 0x110523, 0x110325, 0x1102504,
  0x1102405, 0x100524, 0x100425, 0x052410, 0x052311, 0x052113, 0x052014, 0x1051420, 0x1051321,
  0x1051123, 0x1051024, 0x042510, 0x042313, 0x042015, 0x1041520, 0x1041323, 0x1041025, 0x032511,
  0x032413, 0x032314, 0x032115, 0x1031521, 0x1031423, 0x1031324, 0x1031125, 0x012513, 0x012315,
  0x1011523, 0x1011325, 0x002514, 0x002415, 0x1001524, 0x1001425], [0x251401, 0x251302, 0x251203,
  0x251104, 0x1250411, 0x1250312, 0x1250213, 0x1250114, 0x241501, 0x241403, 0x241304, 0x241105,
  0x1240511, 0x1240413, 0x1240314, 0x1240115, 0x231502, 0x231404, 0x231205, 0x1230512, 0x1230414,
  0x1230215, 0x221503, 0x221305, 0x1220513, 0x1220315, 0x211504, 0x211405, 0x1210514, 0x1210415,
  0x1152401, 0x1152302, 0x1152203, 0x1152104, 0x150421, 0x150322, 0x150223, 0x150124, 0x1142501,
  0x1142403, 0x1142304, 0x1142105, 0x140521, 0x140423, 0x140324, 0x140125, 0x1132502, 0x1132404,
  0x1132205, 0x130522, 0x130424, 0x130225, 0x1122503, 0x1122305, 0x120523, 0x120325, 0x1112504,
  0x1112405, 0x110524, 0x110425, 0x052411, 0x052312, 0x052213, 0x052114, 0x1051421, 0x1051322,
  0x1051223, 0x1051124, 0x042511, 0x042413, 0x042314, 0x042115, 0x1041521, 0x1041423, 0x1041324,
  0x1041125, 0x032512, 0x032414, 0x032215, 0x1031522, 0x1031424, 0x1031225, 0x022513, 0x022315,
  0x1021523, 0x1021325, 0x012514, 0x012415, 0x1011524, 0x1011425], [0x251402, 0x251204, 0x1250412,
  0x1250214, 0x241502, 0x241404, 0x241205, 0x1240512, 0x1240414, 0x1240215, 0x221504, 0x221405,
  0x1220514, 0x1220415, 0x1152402, 0x1152204, 0x150422, 0x150224, 0x1142502, 0x1142404, 0x1142205,
  0x140522, 0x140424, 0x140225, 0x1122504, 0x1122405, 0x120524, 0x120425, 0x052412, 0x052214,
  0x1051422, 0x1051224, 0x042512, 0x042414, 0x042215, 0x1041522, 0x1041424, 0x1041225, 0x022514,
  0x022415, 0x1021524, 0x1021425], [0x251500, 0x251303, 0x251005, 0x1250510, 0x1250313, 0x1250015,
  0x231503, 0x231305, 0x1230513, 0x1230315, 0x201505, 0x1200515, 0x1152500, 0x1152303, 0x1152005,
  0x150520, 0x150323, 0x150025, 0x1132503, 0x1132305, 0x130523, 0x130325, 0x1102505, 0x100525,
  0x052510, 0x052313, 0x052015, 0x1051520, 0x1051323, 0x1051025, 0x032513, 0x032315, 0x1031523,
  0x1031325, 0x002515, 0x1001525], [0x251501, 0x251403, 0x251304, 0x251105, 0x1250511, 0x1250413,
  0x1250314, 0x1250115, 0x241503, 0x241305, 0x1240513, 0x1240315, 0x231504, 0x231405, 0x1230514,
  0x1230415, 0x211505, 0x1210515, 0x1152501, 0x1152403, 0x1152304, 0x1152105, 0x150521, 0x150423,
  0x150324, 0x150125, 0x1142503, 0x1142305, 0x140523, 0x140325, 0x1132504, 0x1132405, 0x130524,
  0x130425, 0x1112505, 0x110525, 0x052511, 0x052413, 0x052314, 0x052115, 0x1051521, 0x1051423,
  0x1051324, 0x1051125, 0x042513, 0x042315, 0x1041523, 0x1041325, 0x032514, 0x032415, 0x1031524,
  0x1031425, 0x012515, 0x1011525]]

/-- The terms of columns 24 to 35 (src/relative_pose/modules/sixpt/modules2.cpp lines
112-123). -/
def sixFill2 : List (List ℕ) :=
  [[0x251502, 0x251404, 0x251205, 0x1250512, 0x1250414, 0x1250215, 0x241504, 0x241405, 0x1240514,
  0x1240415, 0x221505, 0x1220515, 0x1152502, 0x1152404, 0x1152205, 0x150522, 0x150424, 0x150225,
  0x1142504, 0x1142405, 0x140524, 0x140425, 0x1122505, 0x120525, 0x052512, 0x052414, 0x052215,
  0x1051522, 0x1051424, 0x1051225, 0x042514, 0x042415, 0x1041524, 0x1041425, 0x022515, 0x1021525],
  [0x251503, 0x251305, 0x1250513, 0x1250315, 0x231505, 0x1230515, 0x1152503, 0x1152305, 0x150523,
  0x150325, 0x1132505, 0x130525, 0x052513, 0x052315, 0x1051523, 0x1051325, 0x032515, 0x1031525],
  [0x251504, 0x251405, 0x1250514, 0x1250415, 0x241505, 0x1240515, 0x1152504, 0x1152405, 0x150524,
  0x150425, 0x1142505, 0x140525, 0x052514, 0x052415, 0x1051524, 0x1051425, 0x042515, 0x1041525],
  [0x251505, 0x1250515, 0x1152505, 0x150525, 0x052515, 0x1051525], [0x261000, 0x1260010, 0x201600,
  0x201006, 0x1200610, 0x1200016, 0x1162000, 0x160020, 0x1102600, 0x1102006, 0x100620, 0x100026,
  0x062010, 0x1061020, 0x002610, 0x002016, 0x1001620, 0x1001026], [0x271000, 0x1270010, 0x261100,
  0x261001, 0x1260110, 0x1260011, 0x211600, 0x211006, 0x1210610, 0x1210016, 0x201700, 0x201601,
  0x201106, 0x201007, 0x1200710, 0x1200611, 0x1200116, 0x1200017, 0x1172000, 0x170020, 0x1162100,
  0x1162001, 0x160120, 0x160021, 0x1112600, 0x1112006, 0x110620, 0x110026, 0x1102700, 0x1102601,
  0x1102106, 0x1102007, 0x100720, 0x100621, 0x100126, 0x100027, 0x072010, 0x1071020, 0x062110,
  0x062011, 0x1061120, 0x1061021, 0x012610, 0x012016, 0x1011620, 0x1011026, 0x002710, 0x002611,
  0x002116, 0x002017, 0x1001720, 0x1001621, 0x1001126, 0x1001027], [0x271100, 0x271001, 0x1270110,
  0x1270011, 0x261200, 0x261101, 0x261002, 0x1260210, 0x1260111, 0x1260012, 0x221600, 0x221006,
  0x1220610, 0x1220016, 0x211700, 0x211601, 0x211106, 0x211007, 0x1210710, 0x1210611, 0x1210116,
  0x1210017, 0x201701, 0x201602, 0x201206, 0x201107, 0x1200711, 0x1200612, 0x1200216, 0x1200117,
  0x1172100, 0x1172001, 0x170120, 0x170021, 0x1162200, 0x1162101, 0x1162002, 0x160220, 0x160121,
  0x160022, 0x1122600, 0x1122006, 0x120620, 0x120026, 0x1112700, 0x1112601, 0x1112106, 0x1112007,
  0x110720, 0x110621, 0x110126, 0x110027, 0x1102701, 0x1102602, 0x1102206, 0x1102107, 0x100721,
  0x100622, 0x100226, 0x100127, 0x072110, 0x072011, 0x1071120, 0x1071021, 0x062210, 0x062111,
  0x062012, 0x1061220, 0x1061121, 0x1061022, 0x022610, 0x022016, 0x1021620, 0x1021026, 0x012710,
  0x012611, 0x012116, 0x012017, 0x1011720, 0x1011621, 0x1011126, 0x1011027, 0x002711, 0x002612,
  0x002216, 0x002117, 0x1001721, 0x1001622, 0x1001226, 0x1001127], [0x271200, 0x271101, 0x271002,
  0x1270210, 0x1270111, 0x1270012, 0x261201, 0x261102, 0x1260211, 0x1260112, 0x221700, 0x221601,
  0x221106, 0x221007, 0x1220710, 0x1220611, 0x1220116, 0x1220017, 0x211701, 0x211602, 0x211206,
  0x211107, 0x1210711, 0x1210612, 0x1210216, 0x1210117, 0x201702, 0x201207, 0x1200712, 0x1200217,
  0x1172200, 0x1172101, 0x1172002, 0x170220, 0x170121, 0x170022, 0x1162201, 0x1162102, 0x160221,
  0x160122, 0x1122700, 0x1122601, 0x1122106, 0x1122007, 0x120720, 0x120621, 0x120126, 0x120027,
  0x1112701, 0x1112602, 0x1112206, 0x1112107, 0x110721, 0x110622, 0x110226, 0x110127, 0x1102702,
  0x1102207, 0x100722, 0x100227, 0x072210, 0x072111, 0x072012, 0x1071220, 0x1071121, 0x1071022,
  0x062211, 0x062112, 0x1061221, 0x1061122, 0x022710, 0x022611, 0x022116, 0x022017, 0x1021720,
  0x1021621, 0x1021126, 0x1021027, 0x012711, 0x012612, 0x012216, 0x012117, 0x1011721, 0x1011622,
  0x1011226, 0x1011127, 0x002712, 0x002217, 0x1001722, 0x1001227], [0x271201, 0x271102, 0x1270211,
  0x1270112, 0x261202, 0x1260212, 0x221701, 0x221602, 0x221206, 0x221107, 0x1220711, 0x1220612,
  0x1220216, 0x1220117, 0x211702, 0x211207, 0x1210712, 0x1210217, 0x1172201, 0x1172102, 0x170221,
  0x170122, 0x1162202, 0x160222, 0x1122701, 0x1122602, 0x1122206, 0x1122107, 0x120721, 0x120622,
  0x120226, 0x120127, 0x1112702, 0x1112207, 0x110722, 0x110227, 0x072211, 0x072112, 0x1071221,
  0x1071122, 0x062212, 0x1061222, 0x022711, 0x022612, 0x022216, 0x022117, 0x1021721, 0x1021622,
  0x1021226, 0x1021127, 0x012712, 0x012217, 0x1011722, 0x1011227], [0x271202, 0x1270212, 0x221702,
  0x221207, 0x1220712, 0x1220217, 0x1172202, 0x170222, 0x1122702, 0x1122207, 0x120722, 0x120227,
  0x072212, 0x1071222, 0x022712, 0x022217, 0x1021722, 0x1021227], [0x281000, 0x1280010, 0x261300,
  0x261003, 0x1260310, 0x1260013, 0x231600, 0x231006, 0x1230610, 0x1230016, 0x201800, 0x201603,
  0x201306, 0x201008, 0x1200810, 0x1200613, 0x1200316, 0x1200018, 0x1182000, 0x180020, 0x1162300,
  0x1162003, 0x160320, 0x160023, 0x1132600, 0x1132006, 0x130620, 0x130026, 0x1102800, 0x1102603,
  0x1102306, 0x1102008, 0x100820, 0x100623, 0x100326, 0x100028, 0x082010, 0x1081020, 0x062310,
  0x062013, 0x1061320, 0x1061023, 0x032610, 0x032016, 0x1031620, 0x1031026, 0x002810, 0x002613,
  0x002316, 0x002018, 0x1001820, 0x1001623, 0x1001326, 0x1001028], [0x281100, 0x281001, 0x1280110,
  0x1280011, 0x271300, 0x271003, 0x1270310, 0x1270013, 0x261400, 0x261301, 0x261103, 0x261004,
  0x1260410, 0x1260311, 0x1260113, 0x1260014, 0x241600, 0x241006, 0x1240610, 0x1240016, 0x231700,
  0x231601, 0x231106, 0x231007, 0x1230710, 0x1230611, 0x1230116, 0x1230017, 0x211800, 0x211603,
  0x211306, 0x211008, 0x1210810, 0x1210613, 0x1210316, 0x1210018, 0x201801, 0x201703, 0x201604,
  0x201406, 0x201307, 0x201108, 0x1200811, 0x1200713, 0x1200614, 0x1200416, 0x1200317, 0x1200118,
  0x1182100, 0x1182001, 0x180120, 0x180021, 0x1172300, 0x1172003, 0x170320, 0x170023, 0x1162400,
  0x1162301, 0x1162103, 0x1162004, 0x160420, 0x160321, 0x160123, 0x160024, 0x1142600, 0x1142006,
  0x140620, 0x140026, 0x1132700, 0x1132601, 0x1132106, 0x1132007, 0x130720, 0x130621, 0x130126,
  0x130027, 0x1112800, 0x1112603, 0x1112306, 0x1112008, 0x110820, 0x110623, 0x110326, 0x110028,
  0x1102801, 0x1102703, 0x1102604, 0x1102406, 0x1102307, 0x1102108, 0x100821, 0x100723, 0x100624,
  0x100426, 0x100327, 0x100128, 0x082110, 0x082011, 0x1081120, 0x1081021, 0x072310, 0x072013,
  0x1071320, 0x1071023, 0x062410, 0x062311, 0x062113, 0x062014, 0x1061420, 0x1061321, 0x1061123,
  0x1061024, 0x042610, 0x042016, 0x1041620, 0x1041026, 0x032710, 0x032611, 0x032116, 0x032017,
  0x1031720, 0x1031621, 0x1031126, 0x1031027, 0x012810, 0x012613, 0x012316, 0x012018, 0x1011820,
  0x1011623, 0x1011326, 0x1011028, 0x002811, 0x002713, 0x002614, 0x002416, 0x002317, 0x002118,
  0x1001821, 0x1001723, 0x1001624, 0x1001426, 0x1001327, 0x1001128]]

/-- The terms of columns 36 to 47 (src/relative_pose/modules/sixpt/modules2.cpp lines
124-135). -/
def sixFill3 : List (List ℕ) :=
  [[0x281200, 0x281101, 0x281002, 0x1280210, 0x1280111, 0x1280012, 0x271400, 0x271301, 0x271103,
  0x271004, 0x1270410, 0x1270311, 0x1270113, 0x1270014, 0x261401, 0x261302, 0x261203, 0x261104,
  0x1260411, 0x1260312, 0x1260213, 0x1260114, 0x241700, 0x241601, 0x241106, 0x241007, 0x1240710,
  0x1240611, 0x1240116, 0x1240017, 0x231701, 0x231602, 0x231206, 0x231107, 0x1230711, 0x1230612,
  0x1230216, 0x1230117, 0x221800, 0x221603, 0x221306, 0x221008, 0x1220810, 0x1220613, 0x1220316,
  0x1220018, 0x211801, 0x211703, 0x211604, 0x211406, 0x211307, 0x211108, 0x1210811, 0x1210713,
  0x1210614, 0x1210416, 0x1210317, 0x1210118, 0x201802, 0x201704, 0x201407, 0x201208, 0x1200812,
  0x1200714, 0x1200417, 0x1200218, 0x1182200, 0x1182101, 0x1182002, 0x180220, 0x180121, 0x180022,
  0x1172400, 0x1172301, 0x1172103, 0x1172004, 0x170420, 0x170321, 0x170123, 0x170024, 0x1162401,
  0x1162302, 0x1162203, 0x1162104, 0x160421, 0x160322, 0x160223, 0x160124, 0x1142700, 0x1142601,
  0x1142106, 0x1142007, 0x140720, 0x140621, 0x140126, 0x140027, 0x1132701, 0x1132602, 0x1132206,
  0x1132107, 0x130721, 0x130622, 0x130226, 0x130127, 0x1122800, 0x1122603, 0x1122306, 0x1122008,
  0x120820, 0x120623, 0x120326, 0x120028, 0x1112801, 0x1112703, 0x1112604, 0x1112406, 0x1112307,
  0x1112108, 0x110821, 0x110723, 0x110624, 0x110426, 0x110327, 0x110128, 0x1102802, 0x1102704,
  0x1102407, 0x1102208, 0x100822, 0x100724, 0x100427, 0x100228, 0x082210, 0x082111, 0x082012,
  0x1081220, 0x1081121, 0x1081022, 0x072410, 0x072311, 0x072113, 0x072014, 0x1071420, 0x1071321,
  0x1071123, 0x1071024, 0x062411, 0x062312, 0x062213, 0x062114, 0x1061421, 0x1061322, 0x1061223,
  0x1061124, 0x042710, 0x042611, 0x042116, 0x042017, 0x1041720, 0x1041621, 0x1041126, 0x1041027,
  0x032711, 0x032612, 0x032216, 0x032117, 0x1031721, 0x1031622, 0x1031226, 0x1031127, 0x022810,
  0x022613, 0x022316, 0x022018, 0x1021820, 0x1021623, 0x1021326, 0x1021028, 0x012811, 0x012713,
  0x012614, 0x012416, 0x012317, 0x012118, 0x1011821, 0x1011723, 0x1011624, 0x1011426, 0x1011327,
  0x1011128, 0x002812, 0x002714, 0x002417, 0x002218, 0x1001822, 0x1001724, 0x1001427, 0x1001228],
  [0x281201, 0x281102, 0x1280211, 0x1280112, 0x271401, 0x271302, 0x271203, 0x271104, 0x1270411,
  0x1270312, 0x1270213, 0x1270114, 0x261402, 0x261204, 0x1260412, 0x1260214, 0x241701, 0x241602,
  0x241206, 0x241107, 0x1240711, 0x1240612, 0x1240216, 0x1240117, 0x231702, 0x231207, 0x1230712,
  0x1230217, 0x221801, 0x221703, 0x221604, 0x221406, 0x221307, 0x221108, 0x1220811, 0x1220713,
  0x1220614, 0x1220416, 0x1220317, 0x1220118, 0x211802, 0x211704, 0x211407, 0x211208, 0x1210812,
  0x1210714, 0x1210417, 0x1210218, 0x1182201, 0x1182102, 0x180221, 0x180122, 0x1172401, 0x1172302,
  0x1172203, 0x1172104, 0x170421, 0x170322, 0x170223, 0x170124, 0x1162402, 0x1162204, 0x160422,
  0x160224, 0x1142701, 0x1142602, 0x1142206, 0x1142107, 0x140721, 0x140622, 0x140226, 0x140127,
  0x1132702, 0x1132207, 0x130722, 0x130227, 0x1122801, 0x1122703, 0x1122604, 0x1122406, 0x1122307,
  0x1122108, 0x120821, 0x120723, 0x120624, 0x120426, 0x120327, 0x120128, 0x1112802, 0x1112704,
  0x1112407, 0x1112208, 0x110822, 0x110724, 0x110427, 0x110228, 0x082211, 0x082112, 0x1081221,
  0x1081122, 0x072411, 0x072312, 0x072213, 0x072114, 0x1071421, 0x1071322, 0x1071223, 0x1071124,
  0x062412, 0x062214, 0x1061422, 0x1061224, 0x042711, 0x042612, 0x042216, 0x042117, 0x1041721,
  0x1041622, 0x1041226, 0x1041127, 0x032712, 0x032217, 0x1031722, 0x1031227, 0x022811, 0x022713,
  0x022614, 0x022416, 0x022317, 0x022118, 0x1021821, 0x1021723, 0x1021624, 0x1021426, 0x1021327,
  0x1021128, 0x012812, 0x012714, 0x012417, 0x012218, 0x1011822, 0x1011724, 0x1011427, 0x1011228],
  [0x281202, 0x1280212, 0x271402, 0x271204, 0x1270412, 0x1270214, 0x241702, 0x241207, 0x1240712,
  0x1240217, 0x221802, 0x221704, 0x221407, 0x221208, 0x1220812, 0x1220714, 0x1220417, 0x1220218,
  0x1182202, 0x180222, 0x1172402, 0x1172204, 0x170422, 0x170224, 0x1142702, 0x1142207, 0x140722,
  0x140227, 0x1122802, 0x1122704, 0x1122407, 0x1122208, 0x120822, 0x120724, 0x120427, 0x120228,
  0x082212, 0x1081222, 0x072412, 0x072214, 0x1071422, 0x1071224, 0x042712, 0x042217, 0x1041722,
  0x1041227, 0x022812, 0x022714, 0x022417, 0x022218, 0x1021822, 0x1021724, 0x1021427, 0x1021228],
  [0x281300, 0x281003, 0x1280310, 0x1280013, 0x261500, 0x261303, 0x261005, 0x1260510, 0x1260313,
  0x1260015, 0x251600, 0x251006, 0x1250610, 0x1250016, 0x231800, 0x231603, 0x231306, 0x231008,
  0x1230810, 0x1230613, 0x1230316, 0x1230018, 0x201803, 0x201605, 0x201506, 0x201308, 0x1200813,
  0x1200615, 0x1200516, 0x1200318, 0x1182300, 0x1182003, 0x180320, 0x180023, 0x1162500, 0x1162303,
  0x1162005, 0x160520, 0x160323, 0x160025, 0x1152600, 0x1152006, 0x150620, 0x150026, 0x1132800,
  0x1132603, 0x1132306, 0x1132008, 0x130820, 0x130623, 0x130326, 0x130028, 0x1102803, 0x1102605,
  0x1102506, 0x1102308, 0x100823, 0x100625, 0x100526, 0x100328, 0x082310, 0x082013, 0x1081320,
  0x1081023, 0x062510, 0x062313, 0x062015, 0x1061520, 0x1061323, 0x1061025, 0x052610, 0x052016,
  0x1051620, 0x1051026, 0x032810, 0x032613, 0x032316, 0x032018, 0x1031820, 0x1031623, 0x1031326,
  0x1031028, 0x002813, 0x002615, 0x002516, 0x002318, 0x1001823, 0x1001625, 0x1001526, 0x1001328],
  [0x281400, 0x281301, 0x281103, 0x281004, 0x1280410, 0x1280311, 0x1280113, 0x1280014, 0x271500,
  0x271303, 0x271005, 0x1270510, 0x1270313, 0x1270015, 0x261501, 0x261403, 0x261304, 0x261105,
  0x1260511, 0x1260413, 0x1260314, 0x1260115, 0x251700, 0x251601, 0x251106, 0x251007, 0x1250710,
  0x1250611, 0x1250116, 0x1250017, 0x241800, 0x241603, 0x241306, 0x241008, 0x1240810, 0x1240613,
  0x1240316, 0x1240018, 0x231801, 0x231703, 0x231604, 0x231406, 0x231307, 0x231108, 0x1230811,
  0x1230713, 0x1230614, 0x1230416, 0x1230317, 0x1230118, 0x211803, 0x211605, 0x211506, 0x211308,
  0x1210813, 0x1210615, 0x1210516, 0x1210318, 0x201804, 0x201705, 0x201507, 0x201408, 0x1200814,
  0x1200715, 0x1200517, 0x1200418, 0x1182400, 0x1182301, 0x1182103, 0x1182004, 0x180420, 0x180321,
  0x180123, 0x180024, 0x1172500, 0x1172303, 0x1172005, 0x170520, 0x170323, 0x170025, 0x1162501,
  0x1162403, 0x1162304, 0x1162105, 0x160521, 0x160423, 0x160324, 0x160125, 0x1152700, 0x1152601,
  0x1152106, 0x1152007, 0x150720, 0x150621, 0x150126, 0x150027, 0x1142800, 0x1142603, 0x1142306,
  0x1142008, 0x140820, 0x140623, 0x140326, 0x140028, 0x1132801, 0x1132703, 0x1132604, 0x1132406,
  0x1132307, 0x1132108, 0x130821, 0x130723, 0x130624, 0x130426, 0x130327, 0x130128, 0x1112803,
  0x1112605, 0x1112506, 0x1112308, 0x110823, 0x110625, 0x110526, 0x110328, 0x1102804, 0x1102705,
  0x1102507, 0x1102408, 0x100824, 0x100725, 0x100527, 0x100428, 0x082410, 0x082311, 0x082113,
  0x082014, 0x1081420, 0x1081321, 0x1081123, 0x1081024, 0x072510, 0x072313, 0x072015, 0x1071520,
  0x1071323, 0x1071025, 0x062511, 0x062413, 0x062314, 0x062115, 0x1061521, 0x1061423, 0x1061324,
  0x1061125, 0x052710, 0x052611, 0x052116, 0x052017, 0x1051720, 0x1051621, 0x1051126, 0x1051027,
  0x042810, 0x042613, 0x042316, 0x042018, 0x1041820, 0x1041623, 0x1041326, 0x1041028, 0x032811,
  0x032713, 0x032614, 0x032416, 0x032317, 0x032118, 0x1031821, 0x1031723, 0x1031624, 0x1031426,
  0x1031327, 0x1031128, 0x012813, 0x012615, 0x012516, 0x012318, 0x1011823, 0x1011625, 0x1011526,
  0x1011328, 0x002814, 0x002715, 0x002517, 0x002418, 0x1001824, 0x1001725, 0x1001527, 0x1001428],
  [0x281401, 0x281302, 0x281203, 0x281104, 0x1280411, 0x1280312, 0x1280213, 0x1280114, 0x271501,
  0x271403, 0x271304, 0x271105, 0x1270511, 0x1270413, 0x1270314, 0x1270115, 0x261502, 0x261404,
  0x261205, 0x1260512, 0x1260414, 0x1260215, 0x251701, 0x251602, 0x251206, 0x251107, 0x1250711,
  0x1250612, 0x1250216, 0x1250117, 0x241801, 0x241703, 0x241604, 0x241406, 0x241307, 0x241108,
  0x1240811, 0x1240713, 0x1240614, 0x1240416, 0x1240317, 0x1240118, 0x231802, 0x231704, 0x231407,
  0x231208, 0x1230812, 0x1230714, 0x1230417, 0x1230218, 0x221803, 0x221605, 0x221506, 0x221308,
  0x1220813, 0x1220615, 0x1220516, 0x1220318, 0x211804, 0x211705, 0x211507, 0x211408, 0x1210814,
  0x1210715, 0x1210517, 0x1210418, 0x1182401, 0x1182302, 0x1182203, 0x1182104, 0x180421, 0x180322,
  0x180223, 0x180124, 0x1172501, 0x1172403, 0x1172304, 0x1172105, 0x170521, 0x170423, 0x170324,
  0x170125, 0x1162502, 0x1162404, 0x1162205, 0x160522, 0x160424, 0x160225, 0x1152701, 0x1152602,
  0x1152206, 0x1152107, 0x150721, 0x150622, 0x150226, 0x150127, 0x1142801, 0x1142703, 0x1142604,
  0x1142406, 0x1142307, 0x1142108, 0x140821, 0x140723, 0x140624, 0x140426, 0x140327, 0x140128,
  0x1132802, 0x1132704, 0x1132407, 0x1132208, 0x130822, 0x130724, 0x130427, 0x130228, 0x1122803,
  0x1122605, 0x1122506, 0x1122308, 0x120823, 0x120625, 0x120526, 0x120328, 0x1112804, 0x1112705,
  0x1112507, 0x1112408, 0x110824, 0x110725, 0x110527, 0x110428, 0x082411, 0x082312, 0x082213,
  0x082114, 0x1081421, 0x1081322, 0x1081223, 0x1081124, 0x072511, 0x072413, 0x072314, 0x072115,
  0x1071521, 0x1071423, 0x1071324, 0x1071125, 0x062512, 0x062414, 0x062215, 0x1061522, 0x1061424,
  0x1061225, 0x052711, 0x052612, 0x052216, 0x052117, 0x1051721, 0x1051622, 0x1051226, 0x1051127,
  0x042811, 0x042713, 0x042614, 0x042416, 0x042317, 0x042118, 0x1041821, 0x1041723, 0x1041624,
  0x1041426, 0x1041327, 0x1041128, 0x032812, 0x032714, 0x032417, 0x032218, 0x1031822, 0x1031724,
  0x1031427, 0x1031228, 0x022813, 0x022615, 0x022516, 0x022318, 0x1021823, 0x1021625, 0x1021526,
  0x1021328, 0x012814, 0x012715, 0x012517, 0x012418, 0x1011824, 0x1011725, 0x1011527, 0x1011428],
  [0x281402, 0x281204, 0x1280412, 0x1280214, 0x271502, 0x271404, 0x271205, 0x1270512, 0x1270414,
  0x1270215, 0x251702, 0x251207, 0x1250712, 0x1250217, 0x241802, 0x241704, 0x241407, 0x241208,
  0x1240812, 0x1240714, 0x1240417, 0x1240218, 0x221804, 0x221705, 0x221507, 0x221408, 0x1220814,
  0x1220715, 0x1220517, 0x1220418, 0x1182402, 0x1182204, 0x180422, 0x180224, 0x1172502, 0x1172404,
  0x1172205, 0x170522, 0x170424, 0x170225, 0x1152702, 0x1152207, 0x150722, 0x150227, 0x1142802,
  0x1142704, 0x1142407, 0x1142208, 0x140822, 0x140724, 0x140427, 0x140228, 0x1122804, 0x1122705,
  0x1122507, 0x1122408, 0x120824, 0x120725, 0x120527, 0x120428, 0x082412, 0x082214, 0x1081422,
  0x1081224, 0x072512, 0x072414, 0x072215, 0x1071522, 0x1071424, 0x1071225, 0x052712, 0x052217,
  0x1051722, 0x1051227, 0x042812, 0x042714, 0x042417, 0x042218, 0x1041822, 0x1041724, 0x1041427,
  0x1041228, 0x022814, 0x022715, 0x022517, 0x022418, 0x1021824, 0x1021725, 0x1021527, 0x1021428],
  [0x281500, 0x281303, 0x281005, 0x1280510, 0x1280313, 0x1280015, 0x261503, 0x261305, 0x1260513,
  0x1260315, 0x251800, 0x251603, 0x251306, 0x251008, 0x1250810, 0x1250613, 0x1250316, 0x1250018,
  0x231803, 0x231605, 0x231506, 0x231308, 0x1230813, 0x1230615, 0x1230516, 0x1230318, 0x201805,
  0x201508, 0x1200815, 0x1200518, 0x1182500, 0x1182303, 0x1182005, 0x180520, 0x180323, 0x180025,
  0x1162503, 0x1162305, 0x160523, 0x160325, 0x1152800, 0x1152603, 0x1152306, 0x1152008, 0x150820,
  0x150623, 0x150326, 0x150028, 0x1132803, 0x1132605, 0x1132506, 0x1132308, 0x130823, 0x130625,
  0x130526, 0x130328, 0x1102805, 0x1102508, 0x100825, 0x100528, 0x082510, 0x082313, 0x082015,
  0x1081520, 0x1081323, 0x1081025, 0x062513, 0x062315, 0x1061523, 0x1061325, 0x052810, 0x052613,
  0x052316, 0x052018, 0x1051820, 0x1051623, 0x1051326, 0x1051028, 0x032813, 0x032615, 0x032516,
  0x032318, 0x1031823, 0x1031625, 0x1031526, 0x1031328, 0x002815, 0x002518, 0x1001825, 0x1001528],
  [0x281501, 0x281403, 0x281304, 0x281105, 0x1280511, 0x1280413, 0x1280314, 0x1280115, 0x271503,
  0x271305, 0x1270513, 0x1270315, 0x261504, 0x261405, 0x1260514, 0x1260415, 0x251801, 0x251703,
  0x251604, 0x251406, 0x251307, 0x251108, 0x1250811, 0x1250713, 0x1250614, 0x1250416, 0x1250317,
  0x1250118, 0x241803, 0x241605, 0x241506, 0x241308, 0x1240813, 0x1240615, 0x1240516, 0x1240318,
  0x231804, 0x231705, 0x231507, 0x231408, 0x1230814, 0x1230715, 0x1230517, 0x1230418, 0x211805,
  0x211508, 0x1210815, 0x1210518, 0x1182501, 0x1182403, 0x1182304, 0x1182105, 0x180521, 0x180423,
  0x180324, 0x180125, 0x1172503, 0x1172305, 0x170523, 0x170325, 0x1162504, 0x1162405, 0x160524,
  0x160425, 0x1152801, 0x1152703, 0x1152604, 0x1152406, 0x1152307, 0x1152108, 0x150821, 0x150723,
  0x150624, 0x150426, 0x150327, 0x150128, 0x1142803, 0x1142605, 0x1142506, 0x1142308, 0x140823,
  0x140625, 0x140526, 0x140328, 0x1132804, 0x1132705, 0x1132507, 0x1132408, 0x130824, 0x130725,
  0x130527, 0x130428, 0x1112805, 0x1112508, 0x110825, 0x110528, 0x082511, 0x082413, 0x082314,
  0x082115, 0x1081521, 0x1081423, 0x1081324, 0x1081125, 0x072513, 0x072315, 0x1071523, 0x1071325,
  0x062514, 0x062415, 0x1061524, 0x1061425, 0x052811, 0x052713, 0x052614, 0x052416, 0x052317,
  0x052118, 0x1051821, 0x1051723, 0x1051624, 0x1051426, 0x1051327, 0x1051128, 0x042813, 0x042615,
  0x042516, 0x042318, 0x1041823, 0x1041625, 0x1041526, 0x1041328, 0x032814, 0x032715, 0x032517,
  0x032418, 0x1031824, 0x1031725, 0x1031527, 0x1031428, 0x012815, 0x012518, 0x1011825, 0x1011528],
  [0x281502, 0x281404, 0x281205, 0x1280512, 0x1280414, 0x1280215, 0x271504, 0x271405, 0x1270514,
  0x1270415, 0x251802, 0x251704, 0x251407, 0x251208, 0x1250812, 0x1250714, 0x1250417, 0x1250218,
  0x241804, 0x241705, 0x241507, 0x241408, 0x1240814, 0x1240715, 0x1240517, 0x1240418, 0x221805,
  0x221508, 0x1220815, 0x1220518, 0x1182502, 0x1182404, 0x1182205, 0x180522, 0x180424, 0x180225,
  0x1172504, 0x1172405, 0x170524, 0x170425, 0x1152802, 0x1152704, 0x1152407, 0x1152208, 0x150822,
  0x150724, 0x150427, 0x150228, 0x1142804, 0x1142705, 0x1142507, 0x1142408, 0x140824, 0x140725,
  0x140527, 0x140428, 0x1122805, 0x1122508, 0x120825, 0x120528, 0x082512, 0x082414, 0x082215,
  0x1081522, 0x1081424, 0x1081225, 0x072514, 0x072415, 0x1071524, 0x1071425, 0x052812, 0x052714,
  0x052417, 0x052218, 0x1051822, 0x1051724, 0x1051427, 0x1051228, 0x042814, 0x042715, 0x042517,
  0x042418, 0x1041824, 0x1041725, 0x1041527, 0x1041428, 0x022815, 0x022518, 0x1021825, 0x1021528],
  [0x281503, 0x281305, 0x1280513, 0x1280315, 0x261505, 0x1260515, 0x251803, 0x251605, 0x251506,
  0x251308, 0x1250813, 0x1250615, 0x1250516, 0x1250318, 0x231805, 0x231508, 0x1230815, 0x1230518,
  0x1182503, 0x1182305, 0x180523, 0x180325, 0x1162505, 0x160525, 0x1152803, 0x1152605, 0x1152506,
  0x1152308, 0x150823, 0x150625, 0x150526, 0x150328, 0x1132805, 0x1132508, 0x130825, 0x130528,
  0x082513, 0x082315, 0x1081523, 0x1081325, 0x062515, 0x1061525, 0x052813, 0x052615, 0x052516,
  0x052318, 0x1051823, 0x1051625, 0x1051526, 0x1051328, 0x032815, 0x032518, 0x1031825, 0x1031528],
  [0x281504, 0x281405, 0x1280514, 0x1280415, 0x271505, 0x1270515, 0x251804, 0x251705, 0x251507,
  0x251408, 0x1250814, 0x1250715, 0x1250517, 0x1250418, 0x241805, 0x241508, 0x1240815, 0x1240518,
  0x1182504, 0x1182405, 0x180524, 0x180425, 0x1172505, 0x170525, 0x1152804, 0x1152705, 0x1152507,
  0x1152408, 0x150824, 0x150725, 0x150527, 0x150428, 0x1142805, 0x1142508, 0x140825, 0x140528,
  0x082514, 0x082415, 0x1081524, 0x1081425, 0x072515, 0x1071525, 0x052814, 0x052715, 0x052517,
  0x052418, 0x1051824, 0x1051725, 0x1051527, 0x1051428, 0x042815, 0x042518, 0x1041825, 0x1041528]]

/-- The terms of columns 48 to 59 (src/relative_pose/modules/sixpt/modules2.cpp lines
136-147). -/
def sixFill4 : List (List ℕ) :=
  [[0x281505, 0x1280515, 0x251805, 0x251508, 0x1250815, 0x1250518, 0x1182505, 0x180525, 0x1152805,
  0x1152508, 0x150825, 0x150528, 0x082515, 0x1081525, 0x052815, 0x052518, 0x1051825, 0x1051528],
  [0x291000, 0x1290010, 0x261600, 0x261006, 0x1260610, 0x1260016, 0x201900, 0x201606, 0x201009,
  0x1200910, 0x1200616, 0x1200019, 0x1192000, 0x190020, 0x1162600, 0x1162006, 0x160620, 0x160026,
  0x1102900, 0x1102606, 0x1102009, 0x100920, 0x100626, 0x100029, 0x092010, 0x1091020, 0x062610,
  0x062016, 0x1061620, 0x1061026, 0x002910, 0x002616, 0x002019, 0x1001920, 0x1001626, 0x1001029],
  [0x291100, 0x291001, 0x1290110, 0x1290011, 0x271600, 0x271006, 0x1270610, 0x1270016, 0x261700,
  0x261601, 0x261106, 0x261007, 0x1260710, 0x1260611, 0x1260116, 0x1260017, 0x211900, 0x211606,
  0x211009, 0x1210910, 0x1210616, 0x1210019, 0x201901, 0x201706, 0x201607, 0x201109, 0x1200911,
  0x1200716, 0x1200617, 0x1200119, 0x1192100, 0x1192001, 0x190120, 0x190021, 0x1172600, 0x1172006,
  0x170620, 0x170026, 0x1162700, 0x1162601, 0x1162106, 0x1162007, 0x160720, 0x160621, 0x160126,
  0x160027, 0x1112900, 0x1112606, 0x1112009, 0x110920, 0x110626, 0x110029, 0x1102901, 0x1102706,
  0x1102607, 0x1102109, 0x100921, 0x100726, 0x100627, 0x100129, 0x092110, 0x092011, 0x1091120,
  0x1091021, 0x072610, 0x072016, 0x1071620, 0x1071026, 0x062710, 0x062611, 0x062116, 0x062017,
  0x1061720, 0x1061621, 0x1061126, 0x1061027, 0x012910, 0x012616, 0x012019, 0x1011920, 0x1011626,
  0x1011029, 0x002911, 0x002716, 0x002617, 0x002119, 0x1001921, 0x1001726, 0x1001627, 0x1001129],
  [0x291200, 0x291101, 0x291002, 0x1290210, 0x1290111, 0x1290012, 0x271700, 0x271601, 0x271106,
  0x271007, 0x1270710, 0x1270611, 0x1270116, 0x1270017, 0x261701, 0x261602, 0x261206, 0x261107,
  0x1260711, 0x1260612, 0x1260216, 0x1260117, 0x221900, 0x221606, 0x221009, 0x1220910, 0x1220616,
  0x1220019, 0x211901, 0x211706, 0x211607, 0x211109, 0x1210911, 0x1210716, 0x1210617, 0x1210119,
  0x201902, 0x201707, 0x201209, 0x1200912, 0x1200717, 0x1200219, 0x1192200, 0x1192101, 0x1192002,
  0x190220, 0x190121, 0x190022, 0x1172700, 0x1172601, 0x1172106, 0x1172007, 0x170720, 0x170621,
  0x170126, 0x170027, 0x1162701, 0x1162602, 0x1162206, 0x1162107, 0x160721, 0x160622, 0x160226,
  0x160127, 0x1122900, 0x1122606, 0x1122009, 0x120920, 0x120626, 0x120029, 0x1112901, 0x1112706,
  0x1112607, 0x1112109, 0x110921, 0x110726, 0x110627, 0x110129, 0x1102902, 0x1102707, 0x1102209,
  0x100922, 0x100727, 0x100229, 0x092210, 0x092111, 0x092012, 0x1091220, 0x1091121, 0x1091022,
  0x072710, 0x072611, 0x072116, 0x072017, 0x1071720, 0x1071621, 0x1071126, 0x1071027, 0x062711,
  0x062612, 0x062216, 0x062117, 0x1061721, 0x1061622, 0x1061226, 0x1061127, 0x022910, 0x022616,
  0x022019, 0x1021920, 0x1021626, 0x1021029, 0x012911, 0x012716, 0x012617, 0x012119, 0x1011921,
  0x1011726, 0x1011627, 0x1011129, 0x002912, 0x002717, 0x002219, 0x1001922, 0x1001727, 0x1001229],
  [0x291201, 0x291102, 0x1290211, 0x1290112, 0x271701, 0x271602, 0x271206, 0x271107, 0x1270711,
  0x1270612, 0x1270216, 0x1270117, 0x261702, 0x261207, 0x1260712, 0x1260217, 0x221901, 0x221706,
  0x221607, 0x221109, 0x1220911, 0x1220716, 0x1220617, 0x1220119, 0x211902, 0x211707, 0x211209,
  0x1210912, 0x1210717, 0x1210219, 0x1192201, 0x1192102, 0x190221, 0x190122, 0x1172701, 0x1172602,
  0x1172206, 0x1172107, 0x170721, 0x170622, 0x170226, 0x170127, 0x1162702, 0x1162207, 0x160722,
  0x160227, 0x1122901, 0x1122706, 0x1122607, 0x1122109, 0x120921, 0x120726, 0x120627, 0x120129,
  0x1112902, 0x1112707, 0x1112209, 0x110922, 0x110727, 0x110229, 0x092211, 0x092112, 0x1091221,
  0x1091122, 0x072711, 0x072612, 0x072216, 0x072117, 0x1071721, 0x1071622, 0x1071226, 0x1071127,
  0x062712, 0x062217, 0x1061722, 0x1061227, 0x022911, 0x022716, 0x022617, 0x022119, 0x1021921,
  0x1021726, 0x1021627, 0x1021129, 0x012912, 0x012717, 0x012219, 0x1011922, 0x1011727, 0x1011229],
  [0x291202, 0x1290212, 0x271702, 0x271207, 0x1270712, 0x1270217, 0x221902, 0x221707, 0x221209,
  0x1220912, 0x1220717, 0x1220219, 0x1192202, 0x190222, 0x1172702, 0x1172207, 0x170722, 0x170227,
  0x1122902, 0x1122707, 0x1122209, 0x120922, 0x120727, 0x120229, 0x092212, 0x1091222, 0x072712,
  0x072217, 0x1071722, 0x1071227, 0x022912, 0x022717, 0x022219, 0x1021922, 0x1021727, 0x1021229],
  [0x291300, 0x291003, 0x1290310, 0x1290013, 0x281600, 0x281006, 0x1280610, 0x1280016, 0x261800,
  0x261603, 0x261306, 0x261008, 0x1260810, 0x1260613, 0x1260316, 0x1260018, 0x231900, 0x231606,
  0x231009, 0x1230910, 0x1230616, 0x1230019, 0x201903, 0x201806, 0x201608, 0x201309, 0x1200913,
  0x1200816, 0x1200618, 0x1200319, 0x1192300, 0x1192003, 0x190320, 0x190023, 0x1182600, 0x1182006,
  0x180620, 0x180026, 0x1162800, 0x1162603, 0x1162306, 0x1162008, 0x160820, 0x160623, 0x160326,
  0x160028, 0x1132900, 0x1132606, 0x1132009, 0x130920, 0x130626, 0x130029, 0x1102903, 0x1102806,
  0x1102608, 0x1102309, 0x100923, 0x100826, 0x100628, 0x100329, 0x092310, 0x092013, 0x1091320,
  0x1091023, 0x082610, 0x082016, 0x1081620, 0x1081026, 0x062810, 0x062613, 0x062316, 0x062018,
  0x1061820, 0x1061623, 0x1061326, 0x1061028, 0x032910, 0x032616, 0x032019, 0x1031920, 0x1031626,
  0x1031029, 0x002913, 0x002816, 0x002618, 0x002319, 0x1001923, 0x1001826, 0x1001628, 0x1001329],
  [0x291400, 0x291301, 0x291103, 0x291004, 0x1290410, 0x1290311, 0x1290113, 0x1290014, 0x281700,
  0x281601, 0x281106, 0x281007, 0x1280710, 0x1280611, 0x1280116, 0x1280017, 0x271800, 0x271603,
  0x271306, 0x271008, 0x1270810, 0x1270613, 0x1270316, 0x1270018, 0x261801, 0x261703, 0x261604,
  0x261406, 0x261307, 0x261108, 0x1260811, 0x1260713, 0x1260614, 0x1260416, 0x1260317, 0x1260118,
  0x241900, 0x241606, 0x241009, 0x1240910, 0x1240616, 0x1240019, 0x231901, 0x231706, 0x231607,
  0x231109, 0x1230911, 0x1230716, 0x1230617, 0x1230119, 0x211903, 0x211806, 0x211608, 0x211309,
  0x1210913, 0x1210816, 0x1210618, 0x1210319, 0x201904, 0x201807, 0x201708, 0x201409, 0x1200914,
  0x1200817, 0x1200718, 0x1200419, 0x1192400, 0x1192301, 0x1192103, 0x1192004, 0x190420, 0x190321,
  0x190123, 0x190024, 0x1182700, 0x1182601, 0x1182106, 0x1182007, 0x180720, 0x180621, 0x180126,
  0x180027, 0x1172800, 0x1172603, 0x1172306, 0x1172008, 0x170820, 0x170623, 0x170326, 0x170028,
  0x1162801, 0x1162703, 0x1162604, 0x1162406, 0x1162307, 0x1162108, 0x160821, 0x160723, 0x160624,
  0x160426, 0x160327, 0x160128, 0x1142900, 0x1142606, 0x1142009, 0x140920, 0x140626, 0x140029,
  0x1132901, 0x1132706, 0x1132607, 0x1132109, 0x130921, 0x130726, 0x130627, 0x130129, 0x1112903,
  0x1112806, 0x1112608, 0x1112309, 0x110923, 0x110826, 0x110628, 0x110329, 0x1102904, 0x1102807,
  0x1102708, 0x1102409, 0x100924, 0x100827, 0x100728, 0x100429, 0x092410, 0x092311, 0x092113,
  0x092014, 0x1091420, 0x1091321, 0x1091123, 0x1091024, 0x082710, 0x082611, 0x082116, 0x082017,
  0x1081720, 0x1081621, 0x1081126, 0x1081027, 0x072810, 0x072613, 0x072316, 0x072018, 0x1071820,
  0x1071623, 0x1071326, 0x1071028, 0x062811, 0x062713, 0x062614, 0x062416, 0x062317, 0x062118,
  0x1061821, 0x1061723, 0x1061624, 0x1061426, 0x1061327, 0x1061128, 0x042910, 0x042616, 0x042019,
  0x1041920, 0x1041626, 0x1041029, 0x032911, 0x032716, 0x032617, 0x032119, 0x1031921, 0x1031726,
  0x1031627, 0x1031129, 0x012913, 0x012816, 0x012618, 0x012319, 0x1011923, 0x1011826, 0x1011628,
  0x1011329, 0x002914, 0x002817, 0x002718, 0x002419, 0x1001924, 0x1001827, 0x1001728, 0x1001429],
  [0x291401, 0x291302, 0x291203, 0x291104, 0x1290411, 0x1290312, 0x1290213, 0x1290114, 0x281701,
  0x281602, 0x281206, 0x281107, 0x1280711, 0x1280612, 0x1280216, 0x1280117, 0x271801, 0x271703,
  0x271604, 0x271406, 0x271307, 0x271108, 0x1270811, 0x1270713, 0x1270614, 0x1270416, 0x1270317,
  0x1270118, 0x261802, 0x261704, 0x261407, 0x261208, 0x1260812, 0x1260714, 0x1260417, 0x1260218,
  0x241901, 0x241706, 0x241607, 0x241109, 0x1240911, 0x1240716, 0x1240617, 0x1240119, 0x231902,
  0x231707, 0x231209, 0x1230912, 0x1230717, 0x1230219, 0x221903, 0x221806, 0x221608, 0x221309,
  0x1220913, 0x1220816, 0x1220618, 0x1220319, 0x211904, 0x211807, 0x211708, 0x211409, 0x1210914,
  0x1210817, 0x1210718, 0x1210419, 0x1192401, 0x1192302, 0x1192203, 0x1192104, 0x190421, 0x190322,
  0x190223, 0x190124, 0x1182701, 0x1182602, 0x1182206, 0x1182107, 0x180721, 0x180622, 0x180226,
  0x180127, 0x1172801, 0x1172703, 0x1172604, 0x1172406, 0x1172307, 0x1172108, 0x170821, 0x170723,
  0x170624, 0x170426, 0x170327, 0x170128, 0x1162802, 0x1162704, 0x1162407, 0x1162208, 0x160822,
  0x160724, 0x160427, 0x160228, 0x1142901, 0x1142706, 0x1142607, 0x1142109, 0x140921, 0x140726,
  0x140627, 0x140129, 0x1132902, 0x1132707, 0x1132209, 0x130922, 0x130727, 0x130229, 0x1122903,
  0x1122806, 0x1122608, 0x1122309, 0x120923, 0x120826, 0x120628, 0x120329, 0x1112904, 0x1112807,
  0x1112708, 0x1112409, 0x110924, 0x110827, 0x110728, 0x110429, 0x092411, 0x092312, 0x092213,
  0x092114, 0x1091421, 0x1091322, 0x1091223, 0x1091124, 0x082711, 0x082612, 0x082216, 0x082117,
  0x1081721, 0x1081622, 0x1081226, 0x1081127, 0x072811, 0x072713, 0x072614, 0x072416, 0x072317,
  0x072118, 0x1071821, 0x1071723, 0x1071624, 0x1071426, 0x1071327, 0x1071128, 0x062812, 0x062714,
  0x062417, 0x062218, 0x1061822, 0x1061724, 0x1061427, 0x1061228, 0x042911, 0x042716, 0x042617,
  0x042119, 0x1041921, 0x1041726, 0x1041627, 0x1041129, 0x032912, 0x032717, 0x032219, 0x1031922,
  0x1031727, 0x1031229, 0x022913, 0x022816, 0x022618, 0x022319, 0x1021923, 0x1021826, 0x1021628,
  0x1021329, 0x012914, 0x012817, 0x012718, 0x012419, 0x1011924, 0x1011827, 0x1011728, 0x1011429],
  [0x291402, 0x291204, 0x1290412, 0x1290214, 0x281702, 0x281207, 0x1280712, 0x1280217, 0x271802,
  0x271704, 0x271407, 0x271208, 0x1270812, 0x1270714, 0x1270417, 0x1270218, 0x241902, 0x241707,
  0x241209, 0x1240912, 0x1240717, 0x1240219, 0x221904, 0x221807, 0x221708, 0x221409, 0x1220914,
  0x1220817, 0x1220718, 0x1220419, 0x1192402, 0x1192204, 0x190422, 0x190224, 0x1182702, 0x1182207,
  0x180722, 0x180227, 0x1172802, 0x1172704, 0x1172407, 0x1172208, 0x170822, 0x170724, 0x170427,
  0x170228, 0x1142902, 0x1142707, 0x1142209, 0x140922, 0x140727, 0x140229, 0x1122904, 0x1122807,
  0x1122708, 0x1122409, 0x120924, 0x120827, 0x120728, 0x120429, 0x092412, 0x092214, 0x1091422,
  0x1091224, 0x082712, 0x082217, 0x1081722, 0x1081227, 0x072812, 0x072714, 0x072417, 0x072218,
  0x1071822, 0x1071724, 0x1071427, 0x1071228, 0x042912, 0x042717, 0x042219, 0x1041922, 0x1041727,
  0x1041229, 0x022914, 0x022817, 0x022718, 0x022419, 0x1021924, 0x1021827, 0x1021728, 0x1021429],
  [0x291500, 0x291303, 0x291005, 0x1290510, 0x1290313, 0x1290015, 0x281800, 0x281603, 0x281306,
  0x281008, 0x1280810, 0x1280613, 0x1280316, 0x1280018, 0x261803, 0x261605, 0x261506, 0x261308,
  0x1260813, 0x1260615, 0x1260516, 0x1260318, 0x251900, 0x251606, 0x251009, 0x1250910, 0x1250616,
  0x1250019, 0x231903, 0x231806, 0x231608, 0x231309, 0x1230913, 0x1230816, 0x1230618, 0x1230319,
  0x201905, 0x201808, 0x201509, 0x1200915, 0x1200818, 0x1200519, 0x1192500, 0x1192303, 0x1192005,
  0x190520, 0x190323, 0x190025, 0x1182800, 0x1182603, 0x1182306, 0x1182008, 0x180820, 0x180623,
  0x180326, 0x180028, 0x1162803, 0x1162605, 0x1162506, 0x1162308, 0x160823, 0x160625, 0x160526,
  0x160328, 0x1152900, 0x1152606, 0x1152009, 0x150920, 0x150626, 0x150029, 0x1132903, 0x1132806,
  0x1132608, 0x1132309, 0x130923, 0x130826, 0x130628, 0x130329, 0x1102905, 0x1102808, 0x1102509,
  0x100925, 0x100828, 0x100529, 0x092510, 0x092313, 0x092015, 0x1091520, 0x1091323, 0x1091025,
  0x082810, 0x082613, 0x082316, 0x082018, 0x1081820, 0x1081623, 0x1081326, 0x1081028, 0x062813,
  0x062615, 0x062516, 0x062318, 0x1061823, 0x1061625, 0x1061526, 0x1061328, 0x052910, 0x052616,
  0x052019, 0x1051920, 0x1051626, 0x1051029, 0x032913, 0x032816, 0x032618, 0x032319, 0x1031923,
  0x1031826, 0x1031628, 0x1031329, 0x002915, 0x002818, 0x002519, 0x1001925, 0x1001828, 0x1001529],
  [0x291501, 0x291403, 0x291304, 0x291105, 0x1290511, 0x1290413, 0x1290314, 0x1290115, 0x281801,
  0x281703, 0x281604, 0x281406, 0x281307, 0x281108, 0x1280811, 0x1280713, 0x1280614, 0x1280416,
  0x1280317, 0x1280118, 0x271803, 0x271605, 0x271506, 0x271308, 0x1270813, 0x1270615, 0x1270516,
  0x1270318, 0x261804, 0x261705, 0x261507, 0x261408, 0x1260814, 0x1260715, 0x1260517, 0x1260418,
  0x251901, 0x251706, 0x251607, 0x251109, 0x1250911, 0x1250716, 0x1250617, 0x1250119, 0x241903,
  0x241806, 0x241608, 0x241309, 0x1240913, 0x1240816, 0x1240618, 0x1240319, 0x231904, 0x231807,
  0x231708, 0x231409, 0x1230914, 0x1230817, 0x1230718, 0x1230419, 0x211905, 0x211808, 0x211509,
  0x1210915, 0x1210818, 0x1210519, 0x1192501, 0x1192403, 0x1192304, 0x1192105, 0x190521, 0x190423,
  0x190324, 0x190125, 0x1182801, 0x1182703, 0x1182604, 0x1182406, 0x1182307, 0x1182108, 0x180821,
  0x180723, 0x180624, 0x180426, 0x180327, 0x180128, 0x1172803, 0x1172605, 0x1172506, 0x1172308,
  0x170823, 0x170625, 0x170526, 0x170328, 0x1162804, 0x1162705, 0x1162507, 0x1162408, 0x160824,
  0x160725, 0x160527, 0x160428, 0x1152901, 0x1152706, 0x1152607, 0x1152109, 0x150921, 0x150726,
  0x150627, 0x150129, 0x1142903, 0x1142806, 0x1142608, 0x1142309, 0x140923, 0x140826, 0x140628,
  0x140329, 0x1132904, 0x1132807, 0x1132708, 0x1132409, 0x130924, 0x130827, 0x130728, 0x130429,
  0x1112905, 0x1112808, 0x1112509, 0x110925, 0x110828, 0x110529, 0x092511, 0x092413, 0x092314,
  0x092115, 0x1091521, 0x1091423, 0x1091324, 0x1091125, 0x082811, 0x082713, 0x082614, 0x082416,
  0x082317, 0x082118, 0x1081821, 0x1081723, 0x1081624, 0x1081426, 0x1081327, 0x1081128, 0x072813,
  0x072615, 0x072516, 0x072318, 0x1071823, 0x1071625, 0x1071526, 0x1071328, 0x062814, 0x062715,
  0x062517, 0x062418, 0x1061824, 0x1061725, 0x1061527, 0x1061428, 0x052911, 0x052716, 0x052617,
  0x052119, 0x1051921, 0x1051726, 0x1051627, 0x1051129, 0x042913, 0x042816, 0x042618, 0x042319,
  0x1041923, 0x1041826, 0x1041628, 0x1041329, 0x032914, 0x032817, 0x032718, 0x032419, 0x1031924,
  0x1031827, 0x1031728, 0x1031429, 0x012915, 0x012818, 0x012519, 0x1011925, 0x1011828, 0x1011529]]

/-- The terms of columns 60 to 71 (src/relative_pose/modules/sixpt/modules2.cpp lines
148-159). -/
def sixFill5 : List (List ℕ) :=
  [[0x291502, 0x291404, 0x291205, 0x1290512, 0x1290414, 0x1290215, 0x281802, 0x281704, 0x281407,
  0x281208, 0x1280812, 0x1280714, 0x1280417, 0x1280218, 0x271804, 0x271705, 0x271507, 0x271408,
  0x1270814, 0x1270715, 0x1270517, 0x1270418, 0x251902, 0x251707, 0x251209, 0x1250912, 0x1250717,
  0x1250219, 0x241904, 0x241807, 0x241708, 0x241409, 0x1240914, 0x1240817, 0x1240718, 0x1240419,
  0x221905, 0x221808, 0x221509, 0x1220915, 0x1220818, 0x1220519, 0x1192502, 0x1192404, 0x1192205,
  0x190522, 0x190424, 0x190225, 0x1182802, 0x1182704, 0x1182407, 0x1182208, 0x180822, 0x180724,
  0x180427, 0x180228, 0x1172804, 0x1172705, 0x1172507, 0x1172408, 0x170824, 0x170725, 0x170527,
  0x170428, 0x1152902, 0x1152707, 0x1152209, 0x150922, 0x150727, 0x150229, 0x1142904, 0x1142807,
  0x1142708, 0x1142409, 0x140924, 0x140827, 0x140728, 0x140429, 0x1122905, 0x1122808, 0x1122509,
  0x120925, 0x120828, 0x120529, 0x092512, 0x092414, 0x092215, 0x1091522, 0x1091424, 0x1091225,
  0x082812, 0x082714, 0x082417, 0x082218, 0x1081822, 0x1081724, 0x1081427, 0x1081228, 0x072814,
  0x072715, 0x072517, 0x072418, 0x1071824, 0x1071725, 0x1071527, 0x1071428, 0x052912, 0x052717,
  0x052219, 0x1051922, 0x1051727, 0x1051229, 0x042914, 0x042817, 0x042718, 0x042419, 0x1041924,
  0x1041827, 0x1041728, 0x1041429, 0x022915, 0x022818, 0x022519, 0x1021925, 0x1021828, 0x1021529],
  [0x291503, 0x291305, 0x1290513, 0x1290315, 0x281803, 0x281605, 0x281506, 0x281308, 0x1280813,
  0x1280615, 0x1280516, 0x1280318, 0x261805, 0x261508, 0x1260815, 0x1260518, 0x251903, 0x251806,
  0x251608, 0x251309, 0x1250913, 0x1250816, 0x1250618, 0x1250319, 0x231905, 0x231808, 0x231509,
  0x1230915, 0x1230818, 0x1230519, 0x1192503, 0x1192305, 0x190523, 0x190325, 0x1182803, 0x1182605,
  0x1182506, 0x1182308, 0x180823, 0x180625, 0x180526, 0x180328, 0x1162805, 0x1162508, 0x160825,
  0x160528, 0x1152903, 0x1152806, 0x1152608, 0x1152309, 0x150923, 0x150826, 0x150628, 0x150329,
  0x1132905, 0x1132808, 0x1132509, 0x130925, 0x130828, 0x130529, 0x092513, 0x092315, 0x1091523,
  0x1091325, 0x082813, 0x082615, 0x082516, 0x082318, 0x1081823, 0x1081625, 0x1081526, 0x1081328,
  0x062815, 0x062518, 0x1061825, 0x1061528, 0x052913, 0x052816, 0x052618, 0x052319, 0x1051923,
  0x1051826, 0x1051628, 0x1051329, 0x032915, 0x032818, 0x032519, 0x1031925, 0x1031828, 0x1031529],
  [0x291504, 0x291405, 0x1290514, 0x1290415, 0x281804, 0x281705, 0x281507, 0x281408, 0x1280814,
  0x1280715, 0x1280517, 0x1280418, 0x271805, 0x271508, 0x1270815, 0x1270518, 0x251904, 0x251807,
  0x251708, 0x251409, 0x1250914, 0x1250817, 0x1250718, 0x1250419, 0x241905, 0x241808, 0x241509,
  0x1240915, 0x1240818, 0x1240519, 0x1192504, 0x1192405, 0x190524, 0x190425, 0x1182804, 0x1182705,
  0x1182507, 0x1182408, 0x180824, 0x180725, 0x180527, 0x180428, 0x1172805, 0x1172508, 0x170825,
  0x170528, 0x1152904, 0x1152807, 0x1152708, 0x1152409, 0x150924, 0x150827, 0x150728, 0x150429,
  0x1142905, 0x1142808, 0x1142509, 0x140925, 0x140828, 0x140529, 0x092514, 0x092415, 0x1091524,
  0x1091425, 0x082814, 0x082715, 0x082517, 0x082418, 0x1081824, 0x1081725, 0x1081527, 0x1081428,
  0x072815, 0x072518, 0x1071825, 0x1071528, 0x052914, 0x052817, 0x052718, 0x052419, 0x1051924,
  0x1051827, 0x1051728, 0x1051429, 0x042915, 0x042818, 0x042519, 0x1041925, 0x1041828, 0x1041529],
  [0x291505, 0x1290515, 0x281805, 0x281508, 0x1280815, 0x1280518, 0x251905, 0x251808, 0x251509,
  0x1250915, 0x1250818, 0x1250519, 0x1192505, 0x190525, 0x1182805, 0x1182508, 0x180825, 0x180528,
  0x1152905, 0x1152808, 0x1152509, 0x150925, 0x150828, 0x150529, 0x092515, 0x1091525, 0x082815,
  0x082518, 0x1081825, 0x1081528, 0x052915, 0x052818, 0x052519, 0x1051925, 0x1051828, 0x1051529],
  [0x291600, 0x291006, 0x1290610, 0x1290016, 0x261900, 0x261606, 0x261009, 0x1260910, 0x1260616,
  0x1260019, 0x201906, 0x201609, 0x1200916, 0x1200619, 0x1192600, 0x1192006, 0x190620, 0x190026,
  0x1162900, 0x1162606, 0x1162009, 0x160920, 0x160626, 0x160029, 0x1102906, 0x1102609, 0x100926,
  0x100629, 0x092610, 0x092016, 0x1091620, 0x1091026, 0x062910, 0x062616, 0x062019, 0x1061920,
  0x1061626, 0x1061029, 0x002916, 0x002619, 0x1001926, 0x1001629], [0x291700, 0x291601, 0x291106,
  0x291007, 0x1290710, 0x1290611, 0x1290116, 0x1290017, 0x271900, 0x271606, 0x271009, 0x1270910,
  0x1270616, 0x1270019, 0x261901, 0x261706, 0x261607, 0x261109, 0x1260911, 0x1260716, 0x1260617,
  0x1260119, 0x211906, 0x211609, 0x1210916, 0x1210619, 0x201907, 0x201709, 0x1200917, 0x1200719,
  0x1192700, 0x1192601, 0x1192106, 0x1192007, 0x190720, 0x190621, 0x190126, 0x190027, 0x1172900,
  0x1172606, 0x1172009, 0x170920, 0x170626, 0x170029, 0x1162901, 0x1162706, 0x1162607, 0x1162109,
  0x160921, 0x160726, 0x160627, 0x160129, 0x1112906, 0x1112609, 0x110926, 0x110629, 0x1102907,
  0x1102709, 0x100927, 0x100729, 0x092710, 0x092611, 0x092116, 0x092017, 0x1091720, 0x1091621,
  0x1091126, 0x1091027, 0x072910, 0x072616, 0x072019, 0x1071920, 0x1071626, 0x1071029, 0x062911,
  0x062716, 0x062617, 0x062119, 0x1061921, 0x1061726, 0x1061627, 0x1061129, 0x012916, 0x012619,
  0x1011926, 0x1011629, 0x002917, 0x002719, 0x1001927, 0x1001729], [0x291701, 0x291602, 0x291206,
  0x291107, 0x1290711, 0x1290612, 0x1290216, 0x1290117, 0x271901, 0x271706, 0x271607, 0x271109,
  0x1270911, 0x1270716, 0x1270617, 0x1270119, 0x261902, 0x261707, 0x261209, 0x1260912, 0x1260717,
  0x1260219, 0x221906, 0x221609, 0x1220916, 0x1220619, 0x211907, 0x211709, 0x1210917, 0x1210719,
  0x1192701, 0x1192602, 0x1192206, 0x1192107, 0x190721, 0x190622, 0x190226, 0x190127, 0x1172901,
  0x1172706, 0x1172607, 0x1172109, 0x170921, 0x170726, 0x170627, 0x170129, 0x1162902, 0x1162707,
  0x1162209, 0x160922, 0x160727, 0x160229, 0x1122906, 0x1122609, 0x120926, 0x120629, 0x1112907,
  0x1112709, 0x110927, 0x110729, 0x092711, 0x092612, 0x092216, 0x092117, 0x1091721, 0x1091622,
  0x1091226, 0x1091127, 0x072911, 0x072716, 0x072617, 0x072119, 0x1071921, 0x1071726, 0x1071627,
  0x1071129, 0x062912, 0x062717, 0x062219, 0x1061922, 0x1061727, 0x1061229, 0x022916, 0x022619,
  0x1021926, 0x1021629, 0x012917, 0x012719, 0x1011927, 0x1011729], [0x291702, 0x291207, 0x1290712,
  0x1290217, 0x271902, 0x271707, 0x271209, 0x1270912, 0x1270717, 0x1270219, 0x221907, 0x221709,
  0x1220917, 0x1220719, 0x1192702, 0x1192207, 0x190722, 0x190227, 0x1172902, 0x1172707, 0x1172209,
  0x170922, 0x170727, 0x170229, 0x1122907, 0x1122709, 0x120927, 0x120729, 0x092712, 0x092217,
  0x1091722, 0x1091227, 0x072912, 0x072717, 0x072219, 0x1071922, 0x1071727, 0x1071229, 0x022917,
  0x022719, 0x1021927, 0x1021729], [0x291800, 0x291603, 0x291306, 0x291008, 0x1290810, 0x1290613,
  0x1290316, 0x1290018, 0x281900, 0x281606, 0x281009, 0x1280910, 0x1280616, 0x1280019, 0x261903,
  0x261806, 0x261608, 0x261309, 0x1260913, 0x1260816, 0x1260618, 0x1260319, 0x231906, 0x231609,
  0x1230916, 0x1230619, 0x201908, 0x201809, 0x1200918, 0x1200819, 0x1192800, 0x1192603, 0x1192306,
  0x1192008, 0x190820, 0x190623, 0x190326, 0x190028, 0x1182900, 0x1182606, 0x1182009, 0x180920,
  0x180626, 0x180029, 0x1162903, 0x1162806, 0x1162608, 0x1162309, 0x160923, 0x160826, 0x160628,
  0x160329, 0x1132906, 0x1132609, 0x130926, 0x130629, 0x1102908, 0x1102809, 0x100928, 0x100829,
  0x092810, 0x092613, 0x092316, 0x092018, 0x1091820, 0x1091623, 0x1091326, 0x1091028, 0x082910,
  0x082616, 0x082019, 0x1081920, 0x1081626, 0x1081029, 0x062913, 0x062816, 0x062618, 0x062319,
  0x1061923, 0x1061826, 0x1061628, 0x1061329, 0x032916, 0x032619, 0x1031926, 0x1031629, 0x002918,
  0x002819, 0x1001928, 0x1001829], [0x291801, 0x291703, 0x291604, 0x291406, 0x291307, 0x291108,
  0x1290811, 0x1290713, 0x1290614, 0x1290416, 0x1290317, 0x1290118, 0x281901, 0x281706, 0x281607,
  0x281109, 0x1280911, 0x1280716, 0x1280617, 0x1280119, 0x271903, 0x271806, 0x271608, 0x271309,
  0x1270913, 0x1270816, 0x1270618, 0x1270319, 0x261904, 0x261807, 0x261708, 0x261409, 0x1260914,
  0x1260817, 0x1260718, 0x1260419, 0x241906, 0x241609, 0x1240916, 0x1240619, 0x231907, 0x231709,
  0x1230917, 0x1230719, 0x211908, 0x211809, 0x1210918, 0x1210819, 0x1192801, 0x1192703, 0x1192604,
  0x1192406, 0x1192307, 0x1192108, 0x190821, 0x190723, 0x190624, 0x190426, 0x190327, 0x190128,
  0x1182901, 0x1182706, 0x1182607, 0x1182109, 0x180921, 0x180726, 0x180627, 0x180129, 0x1172903,
  0x1172806, 0x1172608, 0x1172309, 0x170923, 0x170826, 0x170628, 0x170329, 0x1162904, 0x1162807,
  0x1162708, 0x1162409, 0x160924, 0x160827, 0x160728, 0x160429, 0x1142906, 0x1142609, 0x140926,
  0x140629, 0x1132907, 0x1132709, 0x130927, 0x130729, 0x1112908, 0x1112809, 0x110928, 0x110829,
  0x092811, 0x092713, 0x092614, 0x092416, 0x092317, 0x092118, 0x1091821, 0x1091723, 0x1091624,
  0x1091426, 0x1091327, 0x1091128, 0x082911, 0x082716, 0x082617, 0x082119, 0x1081921, 0x1081726,
  0x1081627, 0x1081129, 0x072913, 0x072816, 0x072618, 0x072319, 0x1071923, 0x1071826, 0x1071628,
  0x1071329, 0x062914, 0x062817, 0x062718, 0x062419, 0x1061924, 0x1061827, 0x1061728, 0x1061429,
  0x042916, 0x042619, 0x1041926, 0x1041629, 0x032917, 0x032719, 0x1031927, 0x1031729, 0x012918,
  0x012819, 0x1011928, 0x1011829], [0x291802, 0x291704, 0x291407, 0x291208, 0x1290812, 0x1290714,
  0x1290417, 0x1290218, 0x281902, 0x281707, 0x281209, 0x1280912, 0x1280717, 0x1280219, 0x271904,
  0x271807, 0x271708, 0x271409, 0x1270914, 0x1270817, 0x1270718, 0x1270419, 0x241907, 0x241709,
  0x1240917, 0x1240719, 0x221908, 0x221809, 0x1220918, 0x1220819, 0x1192802, 0x1192704, 0x1192407,
  0x1192208, 0x190822, 0x190724, 0x190427, 0x190228, 0x1182902, 0x1182707, 0x1182209, 0x180922,
  0x180727, 0x180229, 0x1172904, 0x1172807, 0x1172708, 0x1172409, 0x170924, 0x170827, 0x170728,
  0x170429, 0x1142907, 0x1142709, 0x140927, 0x140729, 0x1122908, 0x1122809, 0x120928, 0x120829,
  0x092812, 0x092714, 0x092417, 0x092218, 0x1091822, 0x1091724, 0x1091427, 0x1091228, 0x082912,
  0x082717, 0x082219, 0x1081922, 0x1081727, 0x1081229, 0x072914, 0x072817, 0x072718, 0x072419,
  0x1071924, 0x1071827, 0x1071728, 0x1071429, 0x042917, 0x042719, 0x1041927, 0x1041729, 0x022918,
  0x022819, 0x1021928, 0x1021829], [0x291803, 0x291605, 0x291506, 0x291308, 0x1290813, 0x1290615,
  0x1290516, 0x1290318, 0x281903, 0x281806, 0x281608, 0x281309, 0x1280913, 0x1280816, 0x1280618,
  0x1280319, 0x261905, 0x261808, 0x261509, 0x1260915, 0x1260818, 0x1260519, 0x251906, 0x251609,
  0x1250916, 0x1250619, 0x231908, 0x231809, 0x1230918, 0x1230819, 0x1192803, 0x1192605, 0x1192506,
  0x1192308, 0x190823, 0x190625, 0x190526, 0x190328, 0x1182903, 0x1182806, 0x1182608, 0x1182309,
  0x180923, 0x180826, 0x180628, 0x180329, 0x1162905, 0x1162808, 0x1162509, 0x160925, 0x160828,
  0x160529, 0x1152906, 0x1152609, 0x150926, 0x150629, 0x1132908, 0x1132809, 0x130928, 0x130829,
  0x092813, 0x092615, 0x092516, 0x092318, 0x1091823, 0x1091625, 0x1091526, 0x1091328, 0x082913,
  0x082816, 0x082618, 0x082319, 0x1081923, 0x1081826, 0x1081628, 0x1081329, 0x062915, 0x062818,
  0x062519, 0x1061925, 0x1061828, 0x1061529, 0x052916, 0x052619, 0x1051926, 0x1051629, 0x032918,
  0x032819, 0x1031928, 0x1031829]]

/-- The terms of columns 72 to 83 (src/relative_pose/modules/sixpt/modules2.cpp lines
160-171). -/
def sixFill6 : List (List ℕ) :=
  [[0x291804, 0x291705, 0x291507, 0x291408, 0x1290814, 0x1290715, 0x1290517, 0x1290418, 0x281904,
  0x281807, 0x281708, 0x281409, 0x1280914, 0x1280817, 0x1280718, 0x1280419, 0x271905, 0x271808,
  0x271509, 0x1270915, 0x1270818, 0x1270519, 0x251907, 0x251709, 0x1250917, 0x1250719, 0x241908,
  0x241809, 0x1240918, 0x1240819, 0x1192804, 0x1192705, 0x1192507, 0x1192408, 0x190824, 0x190725,
  0x190527, 0x190428, 0x1182904, 0x1182807, 0x1182708, 0x1182409, 0x180924, 0x180827, 0x180728,
  0x180429, 0x1172905, 0x1172808, 0x1172509, 0x170925, 0x170828, 0x170529, 0x1152907, 0x1152709,
  0x150927, 0x150729, 0x1142908, 0x1142809, 0x140928, 0x140829, 0x092814, 0x092715, 0x092517,
  0x092418, 0x1091824, 0x1091725, 0x1091527, 0x1091428, 0x082914, 0x082817, 0x082718, 0x082419,
  0x1081924, 0x1081827, 0x1081728, 0x1081429, 0x072915, 0x072818, 0x072519, 0x1071925, 0x1071828,
  0x1071529, 0x052917, 0x052719, 0x1051927, 0x1051729, 0x042918, 0x042819, 0x1041928, 0x1041829],
  [0x291805, 0x291508, 0x1290815, 0x1290518, 0x281905, 0x281808, 0x281509, 0x1280915, 0x1280818,
  0x1280519, 0x251908, 0x251809, 0x1250918, 0x1250819, 0x1192805, 0x1192508, 0x190825, 0x190528,
  0x1182905, 0x1182808, 0x1182509, 0x180925, 0x180828, 0x180529, 0x1152908, 0x1152809, 0x150928,
  0x150829, 0x092815, 0x092518, 0x1091825, 0x1091528, 0x082915, 0x082818, 0x082519, 0x1081925,
  0x1081828, 0x1081529, 0x052918, 0x052819, 0x1051928, 0x1051829], [0x291900, 0x291606, 0x291009,
  0x1290910, 0x1290616, 0x1290019, 0x261906, 0x261609, 0x1260916, 0x1260619, 0x201909, 0x1200919,
  0x1192900, 0x1192606, 0x1192009, 0x190920, 0x190626, 0x190029, 0x1162906, 0x1162609, 0x160926,
  0x160629, 0x1102909, 0x100929, 0x092910, 0x092616, 0x092019, 0x1091920, 0x1091626, 0x1091029,
  0x062916, 0x062619, 0x1061926, 0x1061629, 0x002919, 0x1001929], [0x291901, 0x291706, 0x291607,
  0x291109, 0x1290911, 0x1290716, 0x1290617, 0x1290119, 0x271906, 0x271609, 0x1270916, 0x1270619,
  0x261907, 0x261709, 0x1260917, 0x1260719, 0x211909, 0x1210919, 0x1192901, 0x1192706, 0x1192607,
  0x1192109, 0x190921, 0x190726, 0x190627, 0x190129, 0x1172906, 0x1172609, 0x170926, 0x170629,
  0x1162907, 0x1162709, 0x160927, 0x160729, 0x1112909, 0x110929, 0x092911, 0x092716, 0x092617,
  0x092119, 0x1091921, 0x1091726, 0x1091627, 0x1091129, 0x072916, 0x072619, 0x1071926, 0x1071629,
  0x062917, 0x062719, 0x1061927, 0x1061729, 0x012919, 0x1011929], [0x291902, 0x291707, 0x291209,
  0x1290912, 0x1290717, 0x1290219, 0x271907, 0x271709, 0x1270917, 0x1270719, 0x221909, 0x1220919,
  0x1192902, 0x1192707, 0x1192209, 0x190922, 0x190727, 0x190229, 0x1172907, 0x1172709, 0x170927,
  0x170729, 0x1122909, 0x120929, 0x092912, 0x092717, 0x092219, 0x1091922, 0x1091727, 0x1091229,
  0x072917, 0x072719, 0x1071927, 0x1071729, 0x022919, 0x1021929], [0x291903, 0x291806, 0x291608,
  0x291309, 0x1290913, 0x1290816, 0x1290618, 0x1290319, 0x281906, 0x281609, 0x1280916, 0x1280619,
  0x261908, 0x261809, 0x1260918, 0x1260819, 0x231909, 0x1230919, 0x1192903, 0x1192806, 0x1192608,
  0x1192309, 0x190923, 0x190826, 0x190628, 0x190329, 0x1182906, 0x1182609, 0x180926, 0x180629,
  0x1162908, 0x1162809, 0x160928, 0x160829, 0x1132909, 0x130929, 0x092913, 0x092816, 0x092618,
  0x092319, 0x1091923, 0x1091826, 0x1091628, 0x1091329, 0x082916, 0x082619, 0x1081926, 0x1081629,
  0x062918, 0x062819, 0x1061928, 0x1061829, 0x032919, 0x1031929], [0x291904, 0x291807, 0x291708,
  0x291409, 0x1290914, 0x1290817, 0x1290718, 0x1290419, 0x281907, 0x281709, 0x1280917, 0x1280719,
  0x271908, 0x271809, 0x1270918, 0x1270819, 0x241909, 0x1240919, 0x1192904, 0x1192807, 0x1192708,
  0x1192409, 0x190924, 0x190827, 0x190728, 0x190429, 0x1182907, 0x1182709, 0x180927, 0x180729,
  0x1172908, 0x1172809, 0x170928, 0x170829, 0x1142909, 0x140929, 0x092914, 0x092817, 0x092718,
  0x092419, 0x1091924, 0x1091827, 0x1091728, 0x1091429, 0x082917, 0x082719, 0x1081927, 0x1081729,
  0x072918, 0x072819, 0x1071928, 0x1071829, 0x042919, 0x1041929], [0x291905, 0x291808, 0x291509,
  0x1290915, 0x1290818, 0x1290519, 0x281908, 0x281809, 0x1280918, 0x1280819, 0x251909, 0x1250919,
  0x1192905, 0x1192808, 0x1192509, 0x190925, 0x190828, 0x190529, 0x1182908, 0x1182809, 0x180928,
  0x180829, 0x1152909, 0x150929, 0x092915, 0x092818, 0x092519, 0x1091925, 0x1091828, 0x1091529,
  0x082918, 0x082819, 0x1081928, 0x1081829, 0x052919, 0x1051929], [0x291906, 0x291609, 0x1290916,
  0x1290619, 0x261909, 0x1260919, 0x1192906, 0x1192609, 0x190926, 0x190629, 0x1162909, 0x160929,
  0x092916, 0x092619, 0x1091926, 0x1091629, 0x062919, 0x1061929], [0x291907, 0x291709, 0x1290917,
  0x1290719, 0x271909, 0x1270919, 0x1192907, 0x1192709, 0x190927, 0x190729, 0x1172909, 0x170929,
  0x092917, 0x092719, 0x1091927, 0x1091729, 0x072919, 0x1071929], [0x291908, 0x291809, 0x1290918,
  0x1290819, 0x281909, 0x1280919, 0x1192908, 0x1192809, 0x190928, 0x190829, 0x1182909, 0x180929,
  0x092918, 0x092819, 0x1091928, 0x1091829, 0x082919, 0x1081929], [0x291909, 0x1290919, 0x1192909,
  0x190929, 0x092919, 0x1091929]]

/-- The right hand sides of the assignments to `M1(row,c)` in `fillRow2`, for each column `c` the list
of its terms: `0xabcdef` is `+m2[a][b]*m1[c][d]*m0[e][f]`, `0x1abcdef` is `-m2[a][b]*m1[c][d]*m0[e][f]`
(src/relative_pose/modules/sixpt/modules2.cpp lines 88-171). -/
def sixFill : List (List ℕ) :=
  [sixFill0, sixFill1, sixFill2, sixFill3, sixFill4, sixFill5, sixFill6].flatten

/-- Rows 0 to 15 (src/relative_pose/modules/sixpt/modules2.cpp lines 263-278). -/
def sixTable0 : List (ℕ × List (ℕ × ℕ)) :=
  [(14, [(23,14), (24,15), (25,16), (26,17), (27,18), (28,19), (29,20), (30,21), (31,22), (32,23),
  (33,24), (34,25), (35,26), (36,27), (52,28), (53,29), (54,30), (55,31), (56,32), (57,33),
  (58,34), (59,35), (60,36), (61,37), (62,38), (63,39), (64,40), (65,41), (66,42), (67,43),
  (68,44), (69,45), (70,46), (71,47), (85,49), (86,50), (87,51), (88,52), (89,53), (90,54),
  (91,55), (92,56), (93,48), (94,57), (95,58), (96,59), (97,60), (98,61), (99,62), (100,63),
  (112,64), (113,65), (114,66), (115,67), (116,68), (117,69), (118,70), (119,71), (120,72),
  (121,73), (131,74), (132,75), (133,76), (134,77), (135,78), (136,79), (144,80), (145,81),
  (146,82), (152,83)]), (14, [(18,14), (19,15), (20,16), (21,17), (23,18), (24,19), (25,20),
  (26,21), (28,22), (29,23), (30,24), (32,25), (33,26), (35,27), (46,28), (47,29), (48,30),
  (49,31), (50,32), (51,33), (53,34), (54,35), (55,36), (56,37), (57,38), (59,39), (60,40),
  (61,41), (62,42), (64,43), (65,44), (66,45), (68,46), (69,47), (71,48), (80,49), (81,50),
  (82,51), (83,52), (84,53), (86,54), (87,55), (88,56), (89,57), (91,58), (92,59), (94,60),
  (96,61), (97,62), (99,63), (108,64), (109,65), (110,66), (111,67), (113,68), (114,69), (115,70),
  (117,71), (118,72), (120,73), (128,74), (129,75), (130,76), (132,77), (133,78), (135,79),
  (142,80), (143,81), (145,82), (151,83)]), (8, [(6,8), (13,15), (14,16), (15,17), (18,18),
  (19,19), (20,20), (21,21), (24,22), (25,23), (26,24), (29,25), (30,26), (33,27), (39,28),
  (40,29), (41,30), (42,31), (43,32), (44,33), (47,34), (48,35), (49,36), (50,37), (51,38),
  (54,39), (55,40), (56,41), (57,42), (60,43), (61,44), (62,45), (65,46), (66,47), (69,48),
  (74,49), (75,50), (76,51), (77,52), (78,53), (81,54), (82,55), (83,56), (84,57), (87,58),
  (88,59), (89,60), (92,61), (94,62), (97,63), (103,64), (104,65), (105,66), (106,67), (109,68),
  (110,69), (111,70), (114,71), (115,72), (118,73), (124,74), (125,75), (126,76), (129,77),
  (130,78), (133,79), (139,80), (140,81), (143,82), (149,83)]), (9, [(7,9), (13,15), (14,16),
  (15,17), (18,18), (19,19), (20,20), (21,21), (24,22), (25,23), (26,24), (29,25), (30,26),
  (33,27), (39,28), (40,29), (41,30), (42,31), (43,32), (44,33), (47,34), (48,35), (49,36),
  (50,37), (51,38), (54,39), (55,40), (56,41), (57,42), (60,43), (61,44), (62,45), (65,46),
  (66,47), (69,48), (74,49), (75,50), (76,51), (77,52), (78,53), (81,54), (82,55), (83,56),
  (84,57), (87,58), (88,59), (89,60), (92,61), (94,62), (97,63), (103,64), (104,65), (105,66),
  (106,67), (109,68), (110,69), (111,70), (114,71), (115,72), (118,73), (124,74), (125,75),
  (126,76), (129,77), (130,78), (133,79), (139,80), (140,81), (143,82), (149,83)]), (10, [(8,10),
  (13,15), (14,16), (15,17), (18,18), (19,19), (20,20), (21,21), (24,22), (25,23), (26,24),
  (29,25), (30,26), (33,27), (39,28), (40,29), (41,30), (42,31), (43,32), (44,33), (47,34),
  (48,35), (49,36), (50,37), (51,38), (54,39), (55,40), (56,41), (57,42), (60,43), (61,44),
  (62,45), (65,46), (66,47), (69,48), (74,49), (75,50), (76,51), (77,52), (78,53), (81,54),
  (82,55), (83,56), (84,57), (87,58), (88,59), (89,60), (92,61), (94,62), (97,63), (103,64),
  (104,65), (105,66), (106,67), (109,68), (110,69), (111,70), (114,71), (115,72), (118,73),
  (124,74), (125,75), (126,76), (129,77), (130,78), (133,79), (139,80), (140,81), (143,82),
  (149,83)]), (11, [(9,11), (13,15), (14,16), (15,17), (18,18), (19,19), (20,20), (21,21),
  (24,22), (25,23), (26,24), (29,25), (30,26), (33,27), (39,28), (40,29), (41,30), (42,31),
  (43,32), (44,33), (47,34), (48,35), (49,36), (50,37), (51,38), (54,39), (55,40), (56,41),
  (57,42), (60,43), (61,44), (62,45), (65,46), (66,47), (69,48), (74,49), (75,50), (76,51),
  (77,52), (78,53), (81,54), (82,55), (83,56), (84,57), (87,58), (88,59), (89,60), (92,61),
  (94,62), (97,63), (103,64), (104,65), (105,66), (106,67), (109,68), (110,69), (111,70),
  (114,71), (115,72), (118,73), (124,74), (125,75), (126,76), (129,77), (130,78), (133,79),
  (139,80), (140,81), (143,82), (149,83)]), (13, [(11,13), (13,15), (14,16), (15,17), (18,18),
  (19,19), (20,20), (21,21), (24,22), (25,23), (26,24), (29,25), (30,26), (33,27), (39,28),
  (40,29), (41,30), (42,31), (43,32), (44,33), (47,34), (48,35), (49,36), (50,37), (51,38),
  (54,39), (55,40), (56,41), (57,42), (60,43), (61,44), (62,45), (65,46), (66,47), (69,48),
  (74,49), (75,50), (76,51), (77,52), (78,53), (81,54), (82,55), (83,56), (84,57), (87,58),
  (88,59), (89,60), (92,61), (94,62), (97,63), (103,64), (104,65), (105,66), (106,67), (109,68),
  (110,69), (111,70), (114,71), (115,72), (118,73), (124,74), (125,75), (126,76), (129,77),
  (130,78), (133,79), (139,80), (140,81), (143,82), (149,83)]), (14, [(12,14), (13,15), (14,16),
  (15,17), (18,18), (19,19), (20,20), (21,21), (24,22), (25,23), (26,24), (29,25), (30,26),
  (33,27), (39,28), (40,29), (41,30), (42,31), (43,32), (44,33), (47,34), (48,35), (49,36),
  (50,37), (51,38), (54,39), (55,40), (56,41), (57,42), (60,43), (61,44), (62,45), (65,46),
  (66,47), (69,48), (74,49), (75,50), (76,51), (77,52), (78,53), (81,54), (82,55), (83,56),
  (84,57), (87,58), (88,59), (89,60), (92,61), (94,62), (97,63), (103,64), (104,65), (105,66),
  (106,67), (109,68), (110,69), (111,70), (114,71), (115,72), (118,73), (124,74), (125,75),
  (126,76), (129,77), (130,78), (133,79), (139,80), (140,81), (143,82), (149,83)]), (8, [(10,8),
  (18,15), (19,16), (20,17), (22,18), (23,19), (24,20), (25,21), (27,22), (28,23), (29,24),
  (31,25), (32,26), (34,27), (45,28), (46,29), (47,30), (48,31), (49,32), (50,33), (52,34),
  (53,35), (54,36), (55,37), (56,38), (58,39), (59,40), (60,41), (61,42), (63,43), (64,44),
  (65,45), (67,46), (68,47), (70,48), (79,49), (80,50), (81,51), (82,52), (83,53), (85,54),
  (86,55), (87,56), (88,57), (90,58), (91,59), (92,60), (95,61), (96,62), (98,63), (107,64),
  (108,65), (109,66), (110,67), (112,68), (113,69), (114,70), (116,71), (117,72), (119,73),
  (127,74), (128,75), (129,76), (131,77), (132,78), (134,79), (141,80), (142,81), (144,82),
  (150,83)]), (9, [(11,9), (18,15), (19,16), (20,17), (22,18), (23,19), (24,20), (25,21), (27,22),
  (28,23), (29,24), (31,25), (32,26), (34,27), (45,28), (46,29), (47,30), (48,31), (49,32),
  (50,33), (52,34), (53,35), (54,36), (55,37), (56,38), (58,39), (59,40), (60,41), (61,42),
  (63,43), (64,44), (65,45), (67,46), (68,47), (70,48), (79,49), (80,50), (81,51), (82,52),
  (83,53), (85,54), (86,55), (87,56), (88,57), (90,58), (91,59), (92,60), (95,61), (96,62),
  (98,63), (107,64), (108,65), (109,66), (110,67), (112,68), (113,69), (114,70), (116,71),
  (117,72), (119,73), (127,74), (128,75), (129,76), (131,77), (132,78), (134,79), (141,80),
  (142,81), (144,82), (150,83)]), (10, [(12,10), (18,15), (19,16), (20,17), (22,18), (23,19),
  (24,20), (25,21), (27,22), (28,23), (29,24), (31,25), (32,26), (34,27), (45,28), (46,29),
  (47,30), (48,31), (49,32), (50,33), (52,34), (53,35), (54,36), (55,37), (56,38), (58,39),
  (59,40), (60,41), (61,42), (63,43), (64,44), (65,45), (67,46), (68,47), (70,48), (79,49),
  (80,50), (81,51), (82,52), (83,53), (85,54), (86,55), (87,56), (88,57), (90,58), (91,59),
  (92,60), (95,61), (96,62), (98,63), (107,64), (108,65), (109,66), (110,67), (112,68), (113,69),
  (114,70), (116,71), (117,72), (119,73), (127,74), (128,75), (129,76), (131,77), (132,78),
  (134,79), (141,80), (142,81), (144,82), (150,83)]), (11, [(13,11), (18,15), (19,16), (20,17),
  (22,18), (23,19), (24,20), (25,21), (27,22), (28,23), (29,24), (31,25), (32,26), (34,27),
  (45,28), (46,29), (47,30), (48,31), (49,32), (50,33), (52,34), (53,35), (54,36), (55,37),
  (56,38), (58,39), (59,40), (60,41), (61,42), (63,43), (64,44), (65,45), (67,46), (68,47),
  (70,48), (79,49), (80,50), (81,51), (82,52), (83,53), (85,54), (86,55), (87,56), (88,57),
  (90,58), (91,59), (92,60), (95,61), (96,62), (98,63), (107,64), (108,65), (109,66), (110,67),
  (112,68), (113,69), (114,70), (116,71), (117,72), (119,73), (127,74), (128,75), (129,76),
  (131,77), (132,78), (134,79), (141,80), (142,81), (144,82), (150,83)]), (12, [(14,12), (18,15),
  (19,16), (20,17), (22,18), (23,19), (24,20), (25,21), (27,22), (28,23), (29,24), (31,25),
  (32,26), (34,27), (45,28), (46,29), (47,30), (48,31), (49,32), (50,33), (52,34), (53,35),
  (54,36), (55,37), (56,38), (58,39), (59,40), (60,41), (61,42), (63,43), (64,44), (65,45),
  (67,46), (68,47), (70,48), (79,49), (80,50), (81,51), (82,52), (83,53), (85,54), (86,55),
  (87,56), (88,57), (90,58), (91,59), (92,60), (95,61), (96,62), (98,63), (107,64), (108,65),
  (109,66), (110,67), (112,68), (113,69), (114,70), (116,71), (117,72), (119,73), (127,74),
  (128,75), (129,76), (131,77), (132,78), (134,79), (141,80), (142,81), (144,82), (150,83)]), (13,
  [(16,13), (18,15), (19,16), (20,17), (22,18), (23,19), (24,20), (25,21), (27,22), (28,23),
  (29,24), (31,25), (32,26), (34,27), (45,28), (46,29), (47,30), (48,31), (49,32), (50,33),
  (52,34), (53,35), (54,36), (55,37), (56,38), (58,39), (59,40), (60,41), (61,42), (63,43),
  (64,44), (65,45), (67,46), (68,47), (70,48), (79,49), (80,50), (81,51), (82,52), (83,53),
  (85,54), (86,55), (87,56), (88,57), (90,58), (91,59), (92,60), (95,61), (96,62), (98,63),
  (107,64), (108,65), (109,66), (110,67), (112,68), (113,69), (114,70), (116,71), (117,72),
  (119,73), (127,74), (128,75), (129,76), (131,77), (132,78), (134,79), (141,80), (142,81),
  (144,82), (150,83)]), (14, [(17,14), (18,15), (19,16), (20,17), (22,18), (23,19), (24,20),
  (25,21), (27,22), (28,23), (29,24), (31,25), (32,26), (34,27), (45,28), (46,29), (47,30),
  (48,31), (49,32), (50,33), (52,34), (53,35), (54,36), (55,37), (56,38), (58,39), (59,40),
  (60,41), (61,42), (63,43), (64,44), (65,45), (67,46), (68,47), (70,48), (79,49), (80,50),
  (81,51), (82,52), (83,53), (85,54), (86,55), (87,56), (88,57), (90,58), (91,59), (92,60),
  (95,61), (96,62), (98,63), (107,64), (108,65), (109,66), (110,67), (112,68), (113,69), (114,70),
  (116,71), (117,72), (119,73), (127,74), (128,75), (129,76), (131,77), (132,78), (134,79),
  (141,80), (142,81), (144,82), (150,83)]), (2, [(0,2), (12,15), (13,16), (14,17), (17,18),
  (18,19), (19,20), (20,21), (23,22), (24,23), (25,24), (28,25), (29,26), (32,27), (38,28),
  (39,29), (40,30), (41,31), (42,32), (43,33), (46,34), (47,35), (48,36), (49,37), (50,38),
  (53,39), (54,40), (55,41), (56,42), (59,43), (60,44), (61,45), (64,46), (65,47), (68,48),
  (73,49), (74,50), (75,51), (76,52), (77,53), (80,54), (81,55), (82,56), (83,57), (86,58),
  (87,59), (88,60), (91,61), (92,62), (96,63), (102,64), (103,65), (104,66), (105,67), (108,68),
  (109,69), (110,70), (113,71), (114,72), (117,73), (123,74), (124,75), (125,76), (128,77),
  (129,78), (132,79), (138,80), (139,81), (142,82), (148,83)])]

/-- Rows 16 to 31 (src/relative_pose/modules/sixpt/modules2.cpp lines 279-294). -/
def sixTable1 : List (ℕ × List (ℕ × ℕ)) :=
  [(3, [(1,3), (12,15), (13,16), (14,17), (17,18), (18,19), (19,20), (20,21), (23,22), (24,23),
  (25,24), (28,25), (29,26), (32,27), (38,28), (39,29), (40,30), (41,31), (42,32), (43,33),
  (46,34), (47,35), (48,36), (49,37), (50,38), (53,39), (54,40), (55,41), (56,42), (59,43),
  (60,44), (61,45), (64,46), (65,47), (68,48), (73,49), (74,50), (75,51), (76,52), (77,53),
  (80,54), (81,55), (82,56), (83,57), (86,58), (87,59), (88,60), (91,61), (92,62), (96,63),
  (102,64), (103,65), (104,66), (105,67), (108,68), (109,69), (110,70), (113,71), (114,72),
  (117,73), (123,74), (124,75), (125,76), (128,77), (129,78), (132,79), (138,80), (139,81),
  (142,82), (148,83)]), (4, [(2,4), (12,15), (13,16), (14,17), (17,18), (18,19), (19,20), (20,21),
  (23,22), (24,23), (25,24), (28,25), (29,26), (32,27), (38,28), (39,29), (40,30), (41,31),
  (42,32), (43,33), (46,34), (47,35), (48,36), (49,37), (50,38), (53,39), (54,40), (55,41),
  (56,42), (59,43), (60,44), (61,45), (64,46), (65,47), (68,48), (73,49), (74,50), (75,51),
  (76,52), (77,53), (80,54), (81,55), (82,56), (83,57), (86,58), (87,59), (88,60), (91,61),
  (92,62), (96,63), (102,64), (103,65), (104,66), (105,67), (108,68), (109,69), (110,70),
  (113,71), (114,72), (117,73), (123,74), (124,75), (125,76), (128,77), (129,78), (132,79),
  (138,80), (139,81), (142,82), (148,83)]), (5, [(3,5), (12,15), (13,16), (14,17), (17,18),
  (18,19), (19,20), (20,21), (23,22), (24,23), (25,24), (28,25), (29,26), (32,27), (38,28),
  (39,29), (40,30), (41,31), (42,32), (43,33), (46,34), (47,35), (48,36), (49,37), (50,38),
  (53,39), (54,40), (55,41), (56,42), (59,43), (60,44), (61,45), (64,46), (65,47), (68,48),
  (73,49), (74,50), (75,51), (76,52), (77,53), (80,54), (81,55), (82,56), (83,57), (86,58),
  (87,59), (88,60), (91,61), (92,62), (96,63), (102,64), (103,65), (104,66), (105,67), (108,68),
  (109,69), (110,70), (113,71), (114,72), (117,73), (123,74), (124,75), (125,76), (128,77),
  (129,78), (132,79), (138,80), (139,81), (142,82), (148,83)]), (7, [(4,7), (12,15), (13,16),
  (14,17), (17,18), (18,19), (19,20), (20,21), (23,22), (24,23), (25,24), (28,25), (29,26),
  (32,27), (38,28), (39,29), (40,30), (41,31), (42,32), (43,33), (46,34), (47,35), (48,36),
  (49,37), (50,38), (53,39), (54,40), (55,41), (56,42), (59,43), (60,44), (61,45), (64,46),
  (65,47), (68,48), (73,49), (74,50), (75,51), (76,52), (77,53), (80,54), (81,55), (82,56),
  (83,57), (86,58), (87,59), (88,60), (91,61), (92,62), (96,63), (102,64), (103,65), (104,66),
  (105,67), (108,68), (109,69), (110,70), (113,71), (114,72), (117,73), (123,74), (124,75),
  (125,76), (128,77), (129,78), (132,79), (138,80), (139,81), (142,82), (148,83)]), (8, [(5,8),
  (12,15), (13,16), (14,17), (17,18), (18,19), (19,20), (20,21), (23,22), (24,23), (25,24),
  (28,25), (29,26), (32,27), (38,28), (39,29), (40,30), (41,31), (42,32), (43,33), (46,34),
  (47,35), (48,36), (49,37), (50,38), (53,39), (54,40), (55,41), (56,42), (59,43), (60,44),
  (61,45), (64,46), (65,47), (68,48), (73,49), (74,50), (75,51), (76,52), (77,53), (80,54),
  (81,55), (82,56), (83,57), (86,58), (87,59), (88,60), (91,61), (92,62), (96,63), (102,64),
  (103,65), (104,66), (105,67), (108,68), (109,69), (110,70), (113,71), (114,72), (117,73),
  (123,74), (124,75), (125,76), (128,77), (129,78), (132,79), (138,80), (139,81), (142,82),
  (148,83)]), (9, [(6,9), (12,15), (13,16), (14,17), (17,18), (18,19), (19,20), (20,21), (23,22),
  (24,23), (25,24), (28,25), (29,26), (32,27), (38,28), (39,29), (40,30), (41,31), (42,32),
  (43,33), (46,34), (47,35), (48,36), (49,37), (50,38), (53,39), (54,40), (55,41), (56,42),
  (59,43), (60,44), (61,45), (64,46), (65,47), (68,48), (73,49), (74,50), (75,51), (76,52),
  (77,53), (80,54), (81,55), (82,56), (83,57), (86,58), (87,59), (88,60), (91,61), (92,62),
  (96,63), (102,64), (103,65), (104,66), (105,67), (108,68), (109,69), (110,70), (113,71),
  (114,72), (117,73), (123,74), (124,75), (125,76), (128,77), (129,78), (132,79), (138,80),
  (139,81), (142,82), (148,83)]), (10, [(7,10), (12,15), (13,16), (14,17), (17,18), (18,19),
  (19,20), (20,21), (23,22), (24,23), (25,24), (28,25), (29,26), (32,27), (38,28), (39,29),
  (40,30), (41,31), (42,32), (43,33), (46,34), (47,35), (48,36), (49,37), (50,38), (53,39),
  (54,40), (55,41), (56,42), (59,43), (60,44), (61,45), (64,46), (65,47), (68,48), (73,49),
  (74,50), (75,51), (76,52), (77,53), (80,54), (81,55), (82,56), (83,57), (86,58), (87,59),
  (88,60), (91,61), (92,62), (96,63), (102,64), (103,65), (104,66), (105,67), (108,68), (109,69),
  (110,70), (113,71), (114,72), (117,73), (123,74), (124,75), (125,76), (128,77), (129,78),
  (132,79), (138,80), (139,81), (142,82), (148,83)]), (11, [(8,11), (12,15), (13,16), (14,17),
  (17,18), (18,19), (19,20), (20,21), (23,22), (24,23), (25,24), (28,25), (29,26), (32,27),
  (38,28), (39,29), (40,30), (41,31), (42,32), (43,33), (46,34), (47,35), (48,36), (49,37),
  (50,38), (53,39), (54,40), (55,41), (56,42), (59,43), (60,44), (61,45), (64,46), (65,47),
  (68,48), (73,49), (74,50), (75,51), (76,52), (77,53), (80,54), (81,55), (82,56), (83,57),
  (86,58), (87,59), (88,60), (91,61), (92,62), (96,63), (102,64), (103,65), (104,66), (105,67),
  (108,68), (109,69), (110,70), (113,71), (114,72), (117,73), (123,74), (124,75), (125,76),
  (128,77), (129,78), (132,79), (138,80), (139,81), (142,82), (148,83)]), (12, [(9,12), (12,15),
  (13,16), (14,17), (17,18), (18,19), (19,20), (20,21), (23,22), (24,23), (25,24), (28,25),
  (29,26), (32,27), (38,28), (39,29), (40,30), (41,31), (42,32), (43,33), (46,34), (47,35),
  (48,36), (49,37), (50,38), (53,39), (54,40), (55,41), (56,42), (59,43), (60,44), (61,45),
  (64,46), (65,47), (68,48), (73,49), (74,50), (75,51), (76,52), (77,53), (80,54), (81,55),
  (82,56), (83,57), (86,58), (87,59), (88,60), (91,61), (92,62), (96,63), (102,64), (103,65),
  (104,66), (105,67), (108,68), (109,69), (110,70), (113,71), (114,72), (117,73), (123,74),
  (124,75), (125,76), (128,77), (129,78), (132,79), (138,80), (139,81), (142,82), (148,83)]), (13,
  [(10,13), (12,15), (13,16), (14,17), (17,18), (18,19), (19,20), (20,21), (23,22), (24,23),
  (25,24), (28,25), (29,26), (32,27), (38,28), (39,29), (40,30), (41,31), (42,32), (43,33),
  (46,34), (47,35), (48,36), (49,37), (50,38), (53,39), (54,40), (55,41), (56,42), (59,43),
  (60,44), (61,45), (64,46), (65,47), (68,48), (73,49), (74,50), (75,51), (76,52), (77,53),
  (80,54), (81,55), (82,56), (83,57), (86,58), (87,59), (88,60), (91,61), (92,62), (96,63),
  (102,64), (103,65), (104,66), (105,67), (108,68), (109,69), (110,70), (113,71), (114,72),
  (117,73), (123,74), (124,75), (125,76), (128,77), (129,78), (132,79), (138,80), (139,81),
  (142,82), (148,83)]), (14, [(11,14), (12,15), (13,16), (14,17), (17,18), (18,19), (19,20),
  (20,21), (23,22), (24,23), (25,24), (28,25), (29,26), (32,27), (38,28), (39,29), (40,30),
  (41,31), (42,32), (43,33), (46,34), (47,35), (48,36), (49,37), (50,38), (53,39), (54,40),
  (55,41), (56,42), (59,43), (60,44), (61,45), (64,46), (65,47), (68,48), (73,49), (74,50),
  (75,51), (76,52), (77,53), (80,54), (81,55), (82,56), (83,57), (86,58), (87,59), (88,60),
  (91,61), (92,62), (96,63), (102,64), (103,65), (104,66), (105,67), (108,68), (109,69), (110,70),
  (113,71), (114,72), (117,73), (123,74), (124,75), (125,76), (128,77), (129,78), (132,79),
  (138,80), (139,81), (142,82), (148,83)]), (3, [(0,3), (11,15), (12,16), (13,17), (16,18),
  (17,19), (18,20), (19,21), (22,22), (23,23), (24,24), (27,25), (28,26), (31,27), (37,28),
  (38,29), (39,30), (40,31), (41,32), (42,33), (45,34), (46,35), (47,36), (48,37), (49,38),
  (52,39), (53,40), (54,41), (55,42), (58,43), (59,44), (60,45), (63,46), (64,47), (67,48),
  (72,49), (73,50), (74,51), (75,52), (76,53), (79,54), (80,55), (81,56), (82,57), (85,58),
  (86,59), (87,60), (90,61), (91,62), (95,63), (101,64), (102,65), (103,66), (104,67), (107,68),
  (108,69), (109,70), (112,71), (113,72), (116,73), (122,74), (123,75), (124,76), (127,77),
  (128,78), (131,79), (137,80), (138,81), (141,82), (147,83)]), (4, [(1,4), (11,15), (12,16),
  (13,17), (16,18), (17,19), (18,20), (19,21), (22,22), (23,23), (24,24), (27,25), (28,26),
  (31,27), (37,28), (38,29), (39,30), (40,31), (41,32), (42,33), (45,34), (46,35), (47,36),
  (48,37), (49,38), (52,39), (53,40), (54,41), (55,42), (58,43), (59,44), (60,45), (63,46),
  (64,47), (67,48), (72,49), (73,50), (74,51), (75,52), (76,53), (79,54), (80,55), (81,56),
  (82,57), (85,58), (86,59), (87,60), (90,61), (91,62), (95,63), (101,64), (102,65), (103,66),
  (104,67), (107,68), (108,69), (109,70), (112,71), (113,72), (116,73), (122,74), (123,75),
  (124,76), (127,77), (128,78), (131,79), (137,80), (138,81), (141,82), (147,83)]), (5, [(2,5),
  (11,15), (12,16), (13,17), (16,18), (17,19), (18,20), (19,21), (22,22), (23,23), (24,24),
  (27,25), (28,26), (31,27), (37,28), (38,29), (39,30), (40,31), (41,32), (42,33), (45,34),
  (46,35), (47,36), (48,37), (49,38), (52,39), (53,40), (54,41), (55,42), (58,43), (59,44),
  (60,45), (63,46), (64,47), (67,48), (72,49), (73,50), (74,51), (75,52), (76,53), (79,54),
  (80,55), (81,56), (82,57), (85,58), (86,59), (87,60), (90,61), (91,62), (95,63), (101,64),
  (102,65), (103,66), (104,67), (107,68), (108,69), (109,70), (112,71), (113,72), (116,73),
  (122,74), (123,75), (124,76), (127,77), (128,78), (131,79), (137,80), (138,81), (141,82),
  (147,83)]), (6, [(3,6), (11,15), (12,16), (13,17), (16,18), (17,19), (18,20), (19,21), (22,22),
  (23,23), (24,24), (27,25), (28,26), (31,27), (37,28), (38,29), (39,30), (40,31), (41,32),
  (42,33), (45,34), (46,35), (47,36), (48,37), (49,38), (52,39), (53,40), (54,41), (55,42),
  (58,43), (59,44), (60,45), (63,46), (64,47), (67,48), (72,49), (73,50), (74,51), (75,52),
  (76,53), (79,54), (80,55), (81,56), (82,57), (85,58), (86,59), (87,60), (90,61), (91,62),
  (95,63), (101,64), (102,65), (103,66), (104,67), (107,68), (108,69), (109,70), (112,71),
  (113,72), (116,73), (122,74), (123,75), (124,76), (127,77), (128,78), (131,79), (137,80),
  (138,81), (141,82), (147,83)]), (8, [(4,8), (11,15), (12,16), (13,17), (16,18), (17,19),
  (18,20), (19,21), (22,22), (23,23), (24,24), (27,25), (28,26), (31,27), (37,28), (38,29),
  (39,30), (40,31), (41,32), (42,33), (45,34), (46,35), (47,36), (48,37), (49,38), (52,39),
  (53,40), (54,41), (55,42), (58,43), (59,44), (60,45), (63,46), (64,47), (67,48), (72,49),
  (73,50), (74,51), (75,52), (76,53), (79,54), (80,55), (81,56), (82,57), (85,58), (86,59),
  (87,60), (90,61), (91,62), (95,63), (101,64), (102,65), (103,66), (104,67), (107,68), (108,69),
  (109,70), (112,71), (113,72), (116,73), (122,74), (123,75), (124,76), (127,77), (128,78),
  (131,79), (137,80), (138,81), (141,82), (147,83)])]

/-- Rows 32 to 47 (src/relative_pose/modules/sixpt/modules2.cpp lines 295-310). -/
def sixTable2 : List (ℕ × List (ℕ × ℕ)) :=
  [(9, [(5,9), (11,15), (12,16), (13,17), (16,18), (17,19), (18,20), (19,21), (22,22), (23,23),
  (24,24), (27,25), (28,26), (31,27), (37,28), (38,29), (39,30), (40,31), (41,32), (42,33),
  (45,34), (46,35), (47,36), (48,37), (49,38), (52,39), (53,40), (54,41), (55,42), (58,43),
  (59,44), (60,45), (63,46), (64,47), (67,48), (72,49), (73,50), (74,51), (75,52), (76,53),
  (79,54), (80,55), (81,56), (82,57), (85,58), (86,59), (87,60), (90,61), (91,62), (95,63),
  (101,64), (102,65), (103,66), (104,67), (107,68), (108,69), (109,70), (112,71), (113,72),
  (116,73), (122,74), (123,75), (124,76), (127,77), (128,78), (131,79), (137,80), (138,81),
  (141,82), (147,83)]), (10, [(6,10), (11,15), (12,16), (13,17), (16,18), (17,19), (18,20),
  (19,21), (22,22), (23,23), (24,24), (27,25), (28,26), (31,27), (37,28), (38,29), (39,30),
  (40,31), (41,32), (42,33), (45,34), (46,35), (47,36), (48,37), (49,38), (52,39), (53,40),
  (54,41), (55,42), (58,43), (59,44), (60,45), (63,46), (64,47), (67,48), (72,49), (73,50),
  (74,51), (75,52), (76,53), (79,54), (80,55), (81,56), (82,57), (85,58), (86,59), (87,60),
  (90,61), (91,62), (95,63), (101,64), (102,65), (103,66), (104,67), (107,68), (108,69), (109,70),
  (112,71), (113,72), (116,73), (122,74), (123,75), (124,76), (127,77), (128,78), (131,79),
  (137,80), (138,81), (141,82), (147,83)]), (11, [(7,11), (11,15), (12,16), (13,17), (16,18),
  (17,19), (18,20), (19,21), (22,22), (23,23), (24,24), (27,25), (28,26), (31,27), (37,28),
  (38,29), (39,30), (40,31), (41,32), (42,33), (45,34), (46,35), (47,36), (48,37), (49,38),
  (52,39), (53,40), (54,41), (55,42), (58,43), (59,44), (60,45), (63,46), (64,47), (67,48),
  (72,49), (73,50), (74,51), (75,52), (76,53), (79,54), (80,55), (81,56), (82,57), (85,58),
  (86,59), (87,60), (90,61), (91,62), (95,63), (101,64), (102,65), (103,66), (104,67), (107,68),
  (108,69), (109,70), (112,71), (113,72), (116,73), (122,74), (123,75), (124,76), (127,77),
  (128,78), (131,79), (137,80), (138,81), (141,82), (147,83)]), (12, [(8,12), (11,15), (12,16),
  (13,17), (16,18), (17,19), (18,20), (19,21), (22,22), (23,23), (24,24), (27,25), (28,26),
  (31,27), (37,28), (38,29), (39,30), (40,31), (41,32), (42,33), (45,34), (46,35), (47,36),
  (48,37), (49,38), (52,39), (53,40), (54,41), (55,42), (58,43), (59,44), (60,45), (63,46),
  (64,47), (67,48), (72,49), (73,50), (74,51), (75,52), (76,53), (79,54), (80,55), (81,56),
  (82,57), (85,58), (86,59), (87,60), (90,61), (91,62), (95,63), (101,64), (102,65), (103,66),
  (104,67), (107,68), (108,69), (109,70), (112,71), (113,72), (116,73), (122,74), (123,75),
  (124,76), (127,77), (128,78), (131,79), (137,80), (138,81), (141,82), (147,83)]), (14, [(10,14),
  (11,15), (12,16), (13,17), (16,18), (17,19), (18,20), (19,21), (22,22), (23,23), (24,24),
  (27,25), (28,26), (31,27), (37,28), (38,29), (39,30), (40,31), (41,32), (42,33), (45,34),
  (46,35), (47,36), (48,37), (49,38), (52,39), (53,40), (54,41), (55,42), (58,43), (59,44),
  (60,45), (63,46), (64,47), (67,48), (72,49), (73,50), (74,51), (75,52), (76,53), (79,54),
  (80,55), (81,56), (82,57), (85,58), (86,59), (87,60), (90,61), (91,62), (95,63), (101,64),
  (102,65), (103,66), (104,67), (107,68), (108,69), (109,70), (112,71), (113,72), (116,73),
  (122,74), (123,75), (124,76), (127,77), (128,78), (131,79), (137,80), (138,81), (141,82),
  (147,83)]), (3, [(48,3), (60,15), (61,16), (62,17), (63,18), (64,19), (65,20), (66,21), (67,22),
  (68,23), (69,24), (70,25), (71,26), (79,28), (80,29), (81,30), (82,31), (83,32), (84,33),
  (85,34), (86,35), (87,36), (88,37), (89,38), (90,39), (91,40), (92,41), (93,27), (94,42),
  (95,43), (96,44), (97,45), (98,46), (99,47), (100,48), (107,49), (108,50), (109,51), (110,52),
  (111,53), (112,54), (113,55), (114,56), (115,57), (116,58), (117,59), (118,60), (119,61),
  (120,62), (121,63), (127,64), (128,65), (129,66), (130,67), (131,68), (132,69), (133,70),
  (134,71), (135,72), (136,73), (141,74), (142,75), (143,76), (144,77), (145,78), (146,79),
  (150,80), (151,81), (152,82), (155,83)]), (4, [(49,4), (60,15), (61,16), (62,17), (63,18),
  (64,19), (65,20), (66,21), (67,22), (68,23), (69,24), (70,25), (71,26), (79,28), (80,29),
  (81,30), (82,31), (83,32), (84,33), (85,34), (86,35), (87,36), (88,37), (89,38), (90,39),
  (91,40), (92,41), (93,27), (94,42), (95,43), (96,44), (97,45), (98,46), (99,47), (100,48),
  (107,49), (108,50), (109,51), (110,52), (111,53), (112,54), (113,55), (114,56), (115,57),
  (116,58), (117,59), (118,60), (119,61), (120,62), (121,63), (127,64), (128,65), (129,66),
  (130,67), (131,68), (132,69), (133,70), (134,71), (135,72), (136,73), (141,74), (142,75),
  (143,76), (144,77), (145,78), (146,79), (150,80), (151,81), (152,82), (155,83)]), (5, [(50,5),
  (60,15), (61,16), (62,17), (63,18), (64,19), (65,20), (66,21), (67,22), (68,23), (69,24),
  (70,25), (71,26), (79,28), (80,29), (81,30), (82,31), (83,32), (84,33), (85,34), (86,35),
  (87,36), (88,37), (89,38), (90,39), (91,40), (92,41), (93,27), (94,42), (95,43), (96,44),
  (97,45), (98,46), (99,47), (100,48), (107,49), (108,50), (109,51), (110,52), (111,53), (112,54),
  (113,55), (114,56), (115,57), (116,58), (117,59), (118,60), (119,61), (120,62), (121,63),
  (127,64), (128,65), (129,66), (130,67), (131,68), (132,69), (133,70), (134,71), (135,72),
  (136,73), (141,74), (142,75), (143,76), (144,77), (145,78), (146,79), (150,80), (151,81),
  (152,82), (155,83)]), (6, [(51,6), (60,15), (61,16), (62,17), (63,18), (64,19), (65,20),
  (66,21), (67,22), (68,23), (69,24), (70,25), (71,26), (79,28), (80,29), (81,30), (82,31),
  (83,32), (84,33), (85,34), (86,35), (87,36), (88,37), (89,38), (90,39), (91,40), (92,41),
  (93,27), (94,42), (95,43), (96,44), (97,45), (98,46), (99,47), (100,48), (107,49), (108,50),
  (109,51), (110,52), (111,53), (112,54), (113,55), (114,56), (115,57), (116,58), (117,59),
  (118,60), (119,61), (120,62), (121,63), (127,64), (128,65), (129,66), (130,67), (131,68),
  (132,69), (133,70), (134,71), (135,72), (136,73), (141,74), (142,75), (143,76), (144,77),
  (145,78), (146,79), (150,80), (151,81), (152,82), (155,83)]), (7, [(52,7), (60,15), (61,16),
  (62,17), (63,18), (64,19), (65,20), (66,21), (67,22), (68,23), (69,24), (70,25), (71,26),
  (79,28), (80,29), (81,30), (82,31), (83,32), (84,33), (85,34), (86,35), (87,36), (88,37),
  (89,38), (90,39), (91,40), (92,41), (93,27), (94,42), (95,43), (96,44), (97,45), (98,46),
  (99,47), (100,48), (107,49), (108,50), (109,51), (110,52), (111,53), (112,54), (113,55),
  (114,56), (115,57), (116,58), (117,59), (118,60), (119,61), (120,62), (121,63), (127,64),
  (128,65), (129,66), (130,67), (131,68), (132,69), (133,70), (134,71), (135,72), (136,73),
  (141,74), (142,75), (143,76), (144,77), (145,78), (146,79), (150,80), (151,81), (152,82),
  (155,83)]), (8, [(53,8), (60,15), (61,16), (62,17), (63,18), (64,19), (65,20), (66,21), (67,22),
  (68,23), (69,24), (70,25), (71,26), (79,28), (80,29), (81,30), (82,31), (83,32), (84,33),
  (85,34), (86,35), (87,36), (88,37), (89,38), (90,39), (91,40), (92,41), (93,27), (94,42),
  (95,43), (96,44), (97,45), (98,46), (99,47), (100,48), (107,49), (108,50), (109,51), (110,52),
  (111,53), (112,54), (113,55), (114,56), (115,57), (116,58), (117,59), (118,60), (119,61),
  (120,62), (121,63), (127,64), (128,65), (129,66), (130,67), (131,68), (132,69), (133,70),
  (134,71), (135,72), (136,73), (141,74), (142,75), (143,76), (144,77), (145,78), (146,79),
  (150,80), (151,81), (152,82), (155,83)]), (9, [(54,9), (60,15), (61,16), (62,17), (63,18),
  (64,19), (65,20), (66,21), (67,22), (68,23), (69,24), (70,25), (71,26), (79,28), (80,29),
  (81,30), (82,31), (83,32), (84,33), (85,34), (86,35), (87,36), (88,37), (89,38), (90,39),
  (91,40), (92,41), (93,27), (94,42), (95,43), (96,44), (97,45), (98,46), (99,47), (100,48),
  (107,49), (108,50), (109,51), (110,52), (111,53), (112,54), (113,55), (114,56), (115,57),
  (116,58), (117,59), (118,60), (119,61), (120,62), (121,63), (127,64), (128,65), (129,66),
  (130,67), (131,68), (132,69), (133,70), (134,71), (135,72), (136,73), (141,74), (142,75),
  (143,76), (144,77), (145,78), (146,79), (150,80), (151,81), (152,82), (155,83)]), (10, [(55,10),
  (60,15), (61,16), (62,17), (63,18), (64,19), (65,20), (66,21), (67,22), (68,23), (69,24),
  (70,25), (71,26), (79,28), (80,29), (81,30), (82,31), (83,32), (84,33), (85,34), (86,35),
  (87,36), (88,37), (89,38), (90,39), (91,40), (92,41), (93,27), (94,42), (95,43), (96,44),
  (97,45), (98,46), (99,47), (100,48), (107,49), (108,50), (109,51), (110,52), (111,53), (112,54),
  (113,55), (114,56), (115,57), (116,58), (117,59), (118,60), (119,61), (120,62), (121,63),
  (127,64), (128,65), (129,66), (130,67), (131,68), (132,69), (133,70), (134,71), (135,72),
  (136,73), (141,74), (142,75), (143,76), (144,77), (145,78), (146,79), (150,80), (151,81),
  (152,82), (155,83)]), (11, [(56,11), (60,15), (61,16), (62,17), (63,18), (64,19), (65,20),
  (66,21), (67,22), (68,23), (69,24), (70,25), (71,26), (79,28), (80,29), (81,30), (82,31),
  (83,32), (84,33), (85,34), (86,35), (87,36), (88,37), (89,38), (90,39), (91,40), (92,41),
  (93,27), (94,42), (95,43), (96,44), (97,45), (98,46), (99,47), (100,48), (107,49), (108,50),
  (109,51), (110,52), (111,53), (112,54), (113,55), (114,56), (115,57), (116,58), (117,59),
  (118,60), (119,61), (120,62), (121,63), (127,64), (128,65), (129,66), (130,67), (131,68),
  (132,69), (133,70), (134,71), (135,72), (136,73), (141,74), (142,75), (143,76), (144,77),
  (145,78), (146,79), (150,80), (151,81), (152,82), (155,83)]), (12, [(57,12), (60,15), (61,16),
  (62,17), (63,18), (64,19), (65,20), (66,21), (67,22), (68,23), (69,24), (70,25), (71,26),
  (79,28), (80,29), (81,30), (82,31), (83,32), (84,33), (85,34), (86,35), (87,36), (88,37),
  (89,38), (90,39), (91,40), (92,41), (93,27), (94,42), (95,43), (96,44), (97,45), (98,46),
  (99,47), (100,48), (107,49), (108,50), (109,51), (110,52), (111,53), (112,54), (113,55),
  (114,56), (115,57), (116,58), (117,59), (118,60), (119,61), (120,62), (121,63), (127,64),
  (128,65), (129,66), (130,67), (131,68), (132,69), (133,70), (134,71), (135,72), (136,73),
  (141,74), (142,75), (143,76), (144,77), (145,78), (146,79), (150,80), (151,81), (152,82),
  (155,83)]), (13, [(58,13), (60,15), (61,16), (62,17), (63,18), (64,19), (65,20), (66,21),
  (67,22), (68,23), (69,24), (70,25), (71,26), (79,28), (80,29), (81,30), (82,31), (83,32),
  (84,33), (85,34), (86,35), (87,36), (88,37), (89,38), (90,39), (91,40), (92,41), (93,27),
  (94,42), (95,43), (96,44), (97,45), (98,46), (99,47), (100,48), (107,49), (108,50), (109,51),
  (110,52), (111,53), (112,54), (113,55), (114,56), (115,57), (116,58), (117,59), (118,60),
  (119,61), (120,62), (121,63), (127,64), (128,65), (129,66), (130,67), (131,68), (132,69),
  (133,70), (134,71), (135,72), (136,73), (141,74), (142,75), (143,76), (144,77), (145,78),
  (146,79), (150,80), (151,81), (152,82), (155,83)])]

/-- Rows 48 to 63 (src/relative_pose/modules/sixpt/modules2.cpp lines 311-326). -/
def sixTable3 : List (ℕ × List (ℕ × ℕ)) :=
  [(14, [(59,14), (60,15), (61,16), (62,17), (63,18), (64,19), (65,20), (66,21), (67,22), (68,23),
  (69,24), (70,25), (71,26), (79,28), (80,29), (81,30), (82,31), (83,32), (84,33), (85,34),
  (86,35), (87,36), (88,37), (89,38), (90,39), (91,40), (92,41), (93,27), (94,42), (95,43),
  (96,44), (97,45), (98,46), (99,47), (100,48), (107,49), (108,50), (109,51), (110,52), (111,53),
  (112,54), (113,55), (114,56), (115,57), (116,58), (117,59), (118,60), (119,61), (120,62),
  (121,63), (127,64), (128,65), (129,66), (130,67), (131,68), (132,69), (133,70), (134,71),
  (135,72), (136,73), (141,74), (142,75), (143,76), (144,77), (145,78), (146,79), (150,80),
  (151,81), (152,82), (155,83)]), (1, [(39,1), (55,15), (56,16), (57,17), (59,18), (60,19),
  (61,20), (62,21), (64,22), (65,23), (66,24), (68,25), (69,26), (71,27), (73,28), (74,29),
  (75,30), (76,31), (77,32), (78,33), (80,34), (81,35), (82,36), (83,37), (84,38), (86,39),
  (87,40), (88,41), (89,42), (91,43), (92,44), (94,45), (96,46), (97,47), (99,48), (102,49),
  (103,50), (104,51), (105,52), (106,53), (108,54), (109,55), (110,56), (111,57), (113,58),
  (114,59), (115,60), (117,61), (118,62), (120,63), (123,64), (124,65), (125,66), (126,67),
  (128,68), (129,69), (130,70), (132,71), (133,72), (135,73), (138,74), (139,75), (140,76),
  (142,77), (143,78), (145,79), (148,80), (149,81), (151,82), (154,83)]), (2, [(40,2), (55,15),
  (56,16), (57,17), (59,18), (60,19), (61,20), (62,21), (64,22), (65,23), (66,24), (68,25),
  (69,26), (71,27), (73,28), (74,29), (75,30), (76,31), (77,32), (78,33), (80,34), (81,35),
  (82,36), (83,37), (84,38), (86,39), (87,40), (88,41), (89,42), (91,43), (92,44), (94,45),
  (96,46), (97,47), (99,48), (102,49), (103,50), (104,51), (105,52), (106,53), (108,54), (109,55),
  (110,56), (111,57), (113,58), (114,59), (115,60), (117,61), (118,62), (120,63), (123,64),
  (124,65), (125,66), (126,67), (128,68), (129,69), (130,70), (132,71), (133,72), (135,73),
  (138,74), (139,75), (140,76), (142,77), (143,78), (145,79), (148,80), (149,81), (151,82),
  (154,83)]), (3, [(41,3), (55,15), (56,16), (57,17), (59,18), (60,19), (61,20), (62,21), (64,22),
  (65,23), (66,24), (68,25), (69,26), (71,27), (73,28), (74,29), (75,30), (76,31), (77,32),
  (78,33), (80,34), (81,35), (82,36), (83,37), (84,38), (86,39), (87,40), (88,41), (89,42),
  (91,43), (92,44), (94,45), (96,46), (97,47), (99,48), (102,49), (103,50), (104,51), (105,52),
  (106,53), (108,54), (109,55), (110,56), (111,57), (113,58), (114,59), (115,60), (117,61),
  (118,62), (120,63), (123,64), (124,65), (125,66), (126,67), (128,68), (129,69), (130,70),
  (132,71), (133,72), (135,73), (138,74), (139,75), (140,76), (142,77), (143,78), (145,79),
  (148,80), (149,81), (151,82), (154,83)]), (4, [(42,4), (55,15), (56,16), (57,17), (59,18),
  (60,19), (61,20), (62,21), (64,22), (65,23), (66,24), (68,25), (69,26), (71,27), (73,28),
  (74,29), (75,30), (76,31), (77,32), (78,33), (80,34), (81,35), (82,36), (83,37), (84,38),
  (86,39), (87,40), (88,41), (89,42), (91,43), (92,44), (94,45), (96,46), (97,47), (99,48),
  (102,49), (103,50), (104,51), (105,52), (106,53), (108,54), (109,55), (110,56), (111,57),
  (113,58), (114,59), (115,60), (117,61), (118,62), (120,63), (123,64), (124,65), (125,66),
  (126,67), (128,68), (129,69), (130,70), (132,71), (133,72), (135,73), (138,74), (139,75),
  (140,76), (142,77), (143,78), (145,79), (148,80), (149,81), (151,82), (154,83)]), (5, [(43,5),
  (55,15), (56,16), (57,17), (59,18), (60,19), (61,20), (62,21), (64,22), (65,23), (66,24),
  (68,25), (69,26), (71,27), (73,28), (74,29), (75,30), (76,31), (77,32), (78,33), (80,34),
  (81,35), (82,36), (83,37), (84,38), (86,39), (87,40), (88,41), (89,42), (91,43), (92,44),
  (94,45), (96,46), (97,47), (99,48), (102,49), (103,50), (104,51), (105,52), (106,53), (108,54),
  (109,55), (110,56), (111,57), (113,58), (114,59), (115,60), (117,61), (118,62), (120,63),
  (123,64), (124,65), (125,66), (126,67), (128,68), (129,69), (130,70), (132,71), (133,72),
  (135,73), (138,74), (139,75), (140,76), (142,77), (143,78), (145,79), (148,80), (149,81),
  (151,82), (154,83)]), (6, [(44,6), (55,15), (56,16), (57,17), (59,18), (60,19), (61,20),
  (62,21), (64,22), (65,23), (66,24), (68,25), (69,26), (71,27), (73,28), (74,29), (75,30),
  (76,31), (77,32), (78,33), (80,34), (81,35), (82,36), (83,37), (84,38), (86,39), (87,40),
  (88,41), (89,42), (91,43), (92,44), (94,45), (96,46), (97,47), (99,48), (102,49), (103,50),
  (104,51), (105,52), (106,53), (108,54), (109,55), (110,56), (111,57), (113,58), (114,59),
  (115,60), (117,61), (118,62), (120,63), (123,64), (124,65), (125,66), (126,67), (128,68),
  (129,69), (130,70), (132,71), (133,72), (135,73), (138,74), (139,75), (140,76), (142,77),
  (143,78), (145,79), (148,80), (149,81), (151,82), (154,83)]), (7, [(46,7), (55,15), (56,16),
  (57,17), (59,18), (60,19), (61,20), (62,21), (64,22), (65,23), (66,24), (68,25), (69,26),
  (71,27), (73,28), (74,29), (75,30), (76,31), (77,32), (78,33), (80,34), (81,35), (82,36),
  (83,37), (84,38), (86,39), (87,40), (88,41), (89,42), (91,43), (92,44), (94,45), (96,46),
  (97,47), (99,48), (102,49), (103,50), (104,51), (105,52), (106,53), (108,54), (109,55),
  (110,56), (111,57), (113,58), (114,59), (115,60), (117,61), (118,62), (120,63), (123,64),
  (124,65), (125,66), (126,67), (128,68), (129,69), (130,70), (132,71), (133,72), (135,73),
  (138,74), (139,75), (140,76), (142,77), (143,78), (145,79), (148,80), (149,81), (151,82),
  (154,83)]), (8, [(47,8), (55,15), (56,16), (57,17), (59,18), (60,19), (61,20), (62,21), (64,22),
  (65,23), (66,24), (68,25), (69,26), (71,27), (73,28), (74,29), (75,30), (76,31), (77,32),
  (78,33), (80,34), (81,35), (82,36), (83,37), (84,38), (86,39), (87,40), (88,41), (89,42),
  (91,43), (92,44), (94,45), (96,46), (97,47), (99,48), (102,49), (103,50), (104,51), (105,52),
  (106,53), (108,54), (109,55), (110,56), (111,57), (113,58), (114,59), (115,60), (117,61),
  (118,62), (120,63), (123,64), (124,65), (125,66), (126,67), (128,68), (129,69), (130,70),
  (132,71), (133,72), (135,73), (138,74), (139,75), (140,76), (142,77), (143,78), (145,79),
  (148,80), (149,81), (151,82), (154,83)]), (9, [(48,9), (55,15), (56,16), (57,17), (59,18),
  (60,19), (61,20), (62,21), (64,22), (65,23), (66,24), (68,25), (69,26), (71,27), (73,28),
  (74,29), (75,30), (76,31), (77,32), (78,33), (80,34), (81,35), (82,36), (83,37), (84,38),
  (86,39), (87,40), (88,41), (89,42), (91,43), (92,44), (94,45), (96,46), (97,47), (99,48),
  (102,49), (103,50), (104,51), (105,52), (106,53), (108,54), (109,55), (110,56), (111,57),
  (113,58), (114,59), (115,60), (117,61), (118,62), (120,63), (123,64), (124,65), (125,66),
  (126,67), (128,68), (129,69), (130,70), (132,71), (133,72), (135,73), (138,74), (139,75),
  (140,76), (142,77), (143,78), (145,79), (148,80), (149,81), (151,82), (154,83)]), (10, [(49,10),
  (55,15), (56,16), (57,17), (59,18), (60,19), (61,20), (62,21), (64,22), (65,23), (66,24),
  (68,25), (69,26), (71,27), (73,28), (74,29), (75,30), (76,31), (77,32), (78,33), (80,34),
  (81,35), (82,36), (83,37), (84,38), (86,39), (87,40), (88,41), (89,42), (91,43), (92,44),
  (94,45), (96,46), (97,47), (99,48), (102,49), (103,50), (104,51), (105,52), (106,53), (108,54),
  (109,55), (110,56), (111,57), (113,58), (114,59), (115,60), (117,61), (118,62), (120,63),
  (123,64), (124,65), (125,66), (126,67), (128,68), (129,69), (130,70), (132,71), (133,72),
  (135,73), (138,74), (139,75), (140,76), (142,77), (143,78), (145,79), (148,80), (149,81),
  (151,82), (154,83)]), (11, [(50,11), (55,15), (56,16), (57,17), (59,18), (60,19), (61,20),
  (62,21), (64,22), (65,23), (66,24), (68,25), (69,26), (71,27), (73,28), (74,29), (75,30),
  (76,31), (77,32), (78,33), (80,34), (81,35), (82,36), (83,37), (84,38), (86,39), (87,40),
  (88,41), (89,42), (91,43), (92,44), (94,45), (96,46), (97,47), (99,48), (102,49), (103,50),
  (104,51), (105,52), (106,53), (108,54), (109,55), (110,56), (111,57), (113,58), (114,59),
  (115,60), (117,61), (118,62), (120,63), (123,64), (124,65), (125,66), (126,67), (128,68),
  (129,69), (130,70), (132,71), (133,72), (135,73), (138,74), (139,75), (140,76), (142,77),
  (143,78), (145,79), (148,80), (149,81), (151,82), (154,83)]), (12, [(51,12), (55,15), (56,16),
  (57,17), (59,18), (60,19), (61,20), (62,21), (64,22), (65,23), (66,24), (68,25), (69,26),
  (71,27), (73,28), (74,29), (75,30), (76,31), (77,32), (78,33), (80,34), (81,35), (82,36),
  (83,37), (84,38), (86,39), (87,40), (88,41), (89,42), (91,43), (92,44), (94,45), (96,46),
  (97,47), (99,48), (102,49), (103,50), (104,51), (105,52), (106,53), (108,54), (109,55),
  (110,56), (111,57), (113,58), (114,59), (115,60), (117,61), (118,62), (120,63), (123,64),
  (124,65), (125,66), (126,67), (128,68), (129,69), (130,70), (132,71), (133,72), (135,73),
  (138,74), (139,75), (140,76), (142,77), (143,78), (145,79), (148,80), (149,81), (151,82),
  (154,83)]), (13, [(53,13), (55,15), (56,16), (57,17), (59,18), (60,19), (61,20), (62,21),
  (64,22), (65,23), (66,24), (68,25), (69,26), (71,27), (73,28), (74,29), (75,30), (76,31),
  (77,32), (78,33), (80,34), (81,35), (82,36), (83,37), (84,38), (86,39), (87,40), (88,41),
  (89,42), (91,43), (92,44), (94,45), (96,46), (97,47), (99,48), (102,49), (103,50), (104,51),
  (105,52), (106,53), (108,54), (109,55), (110,56), (111,57), (113,58), (114,59), (115,60),
  (117,61), (118,62), (120,63), (123,64), (124,65), (125,66), (126,67), (128,68), (129,69),
  (130,70), (132,71), (133,72), (135,73), (138,74), (139,75), (140,76), (142,77), (143,78),
  (145,79), (148,80), (149,81), (151,82), (154,83)]), (14, [(54,14), (55,15), (56,16), (57,17),
  (59,18), (60,19), (61,20), (62,21), (64,22), (65,23), (66,24), (68,25), (69,26), (71,27),
  (73,28), (74,29), (75,30), (76,31), (77,32), (78,33), (80,34), (81,35), (82,36), (83,37),
  (84,38), (86,39), (87,40), (88,41), (89,42), (91,43), (92,44), (94,45), (96,46), (97,47),
  (99,48), (102,49), (103,50), (104,51), (105,52), (106,53), (108,54), (109,55), (110,56),
  (111,57), (113,58), (114,59), (115,60), (117,61), (118,62), (120,63), (123,64), (124,65),
  (125,66), (126,67), (128,68), (129,69), (130,70), (132,71), (133,72), (135,73), (138,74),
  (139,75), (140,76), (142,77), (143,78), (145,79), (148,80), (149,81), (151,82), (154,83)]), (0,
  [(37,0), (54,15), (55,16), (56,17), (58,18), (59,19), (60,20), (61,21), (63,22), (64,23),
  (65,24), (67,25), (68,26), (70,27), (72,28), (73,29), (74,30), (75,31), (76,32), (77,33),
  (79,34), (80,35), (81,36), (82,37), (83,38), (85,39), (86,40), (87,41), (88,42), (90,43),
  (91,44), (92,45), (95,46), (96,47), (98,48), (101,49), (102,50), (103,51), (104,52), (105,53),
  (107,54), (108,55), (109,56), (110,57), (112,58), (113,59), (114,60), (116,61), (117,62),
  (119,63), (122,64), (123,65), (124,66), (125,67), (127,68), (128,69), (129,70), (131,71),
  (132,72), (134,73), (137,74), (138,75), (139,76), (141,77), (142,78), (144,79), (147,80),
  (148,81), (150,82), (153,83)])]

/-- Rows 64 to 79 (src/relative_pose/modules/sixpt/modules2.cpp lines 327-342). -/
def sixTable4 : List (ℕ × List (ℕ × ℕ)) :=
  [(1, [(38,1), (54,15), (55,16), (56,17), (58,18), (59,19), (60,20), (61,21), (63,22), (64,23),
  (65,24), (67,25), (68,26), (70,27), (72,28), (73,29), (74,30), (75,31), (76,32), (77,33),
  (79,34), (80,35), (81,36), (82,37), (83,38), (85,39), (86,40), (87,41), (88,42), (90,43),
  (91,44), (92,45), (95,46), (96,47), (98,48), (101,49), (102,50), (103,51), (104,52), (105,53),
  (107,54), (108,55), (109,56), (110,57), (112,58), (113,59), (114,60), (116,61), (117,62),
  (119,63), (122,64), (123,65), (124,66), (125,67), (127,68), (128,69), (129,70), (131,71),
  (132,72), (134,73), (137,74), (138,75), (139,76), (141,77), (142,78), (144,79), (147,80),
  (148,81), (150,82), (153,83)]), (2, [(39,2), (54,15), (55,16), (56,17), (58,18), (59,19),
  (60,20), (61,21), (63,22), (64,23), (65,24), (67,25), (68,26), (70,27), (72,28), (73,29),
  (74,30), (75,31), (76,32), (77,33), (79,34), (80,35), (81,36), (82,37), (83,38), (85,39),
  (86,40), (87,41), (88,42), (90,43), (91,44), (92,45), (95,46), (96,47), (98,48), (101,49),
  (102,50), (103,51), (104,52), (105,53), (107,54), (108,55), (109,56), (110,57), (112,58),
  (113,59), (114,60), (116,61), (117,62), (119,63), (122,64), (123,65), (124,66), (125,67),
  (127,68), (128,69), (129,70), (131,71), (132,72), (134,73), (137,74), (138,75), (139,76),
  (141,77), (142,78), (144,79), (147,80), (148,81), (150,82), (153,83)]), (3, [(40,3), (54,15),
  (55,16), (56,17), (58,18), (59,19), (60,20), (61,21), (63,22), (64,23), (65,24), (67,25),
  (68,26), (70,27), (72,28), (73,29), (74,30), (75,31), (76,32), (77,33), (79,34), (80,35),
  (81,36), (82,37), (83,38), (85,39), (86,40), (87,41), (88,42), (90,43), (91,44), (92,45),
  (95,46), (96,47), (98,48), (101,49), (102,50), (103,51), (104,52), (105,53), (107,54), (108,55),
  (109,56), (110,57), (112,58), (113,59), (114,60), (116,61), (117,62), (119,63), (122,64),
  (123,65), (124,66), (125,67), (127,68), (128,69), (129,70), (131,71), (132,72), (134,73),
  (137,74), (138,75), (139,76), (141,77), (142,78), (144,79), (147,80), (148,81), (150,82),
  (153,83)]), (4, [(41,4), (54,15), (55,16), (56,17), (58,18), (59,19), (60,20), (61,21), (63,22),
  (64,23), (65,24), (67,25), (68,26), (70,27), (72,28), (73,29), (74,30), (75,31), (76,32),
  (77,33), (79,34), (80,35), (81,36), (82,37), (83,38), (85,39), (86,40), (87,41), (88,42),
  (90,43), (91,44), (92,45), (95,46), (96,47), (98,48), (101,49), (102,50), (103,51), (104,52),
  (105,53), (107,54), (108,55), (109,56), (110,57), (112,58), (113,59), (114,60), (116,61),
  (117,62), (119,63), (122,64), (123,65), (124,66), (125,67), (127,68), (128,69), (129,70),
  (131,71), (132,72), (134,73), (137,74), (138,75), (139,76), (141,77), (142,78), (144,79),
  (147,80), (148,81), (150,82), (153,83)]), (5, [(42,5), (54,15), (55,16), (56,17), (58,18),
  (59,19), (60,20), (61,21), (63,22), (64,23), (65,24), (67,25), (68,26), (70,27), (72,28),
  (73,29), (74,30), (75,31), (76,32), (77,33), (79,34), (80,35), (81,36), (82,37), (83,38),
  (85,39), (86,40), (87,41), (88,42), (90,43), (91,44), (92,45), (95,46), (96,47), (98,48),
  (101,49), (102,50), (103,51), (104,52), (105,53), (107,54), (108,55), (109,56), (110,57),
  (112,58), (113,59), (114,60), (116,61), (117,62), (119,63), (122,64), (123,65), (124,66),
  (125,67), (127,68), (128,69), (129,70), (131,71), (132,72), (134,73), (137,74), (138,75),
  (139,76), (141,77), (142,78), (144,79), (147,80), (148,81), (150,82), (153,83)]), (6, [(43,6),
  (54,15), (55,16), (56,17), (58,18), (59,19), (60,20), (61,21), (63,22), (64,23), (65,24),
  (67,25), (68,26), (70,27), (72,28), (73,29), (74,30), (75,31), (76,32), (77,33), (79,34),
  (80,35), (81,36), (82,37), (83,38), (85,39), (86,40), (87,41), (88,42), (90,43), (91,44),
  (92,45), (95,46), (96,47), (98,48), (101,49), (102,50), (103,51), (104,52), (105,53), (107,54),
  (108,55), (109,56), (110,57), (112,58), (113,59), (114,60), (116,61), (117,62), (119,63),
  (122,64), (123,65), (124,66), (125,67), (127,68), (128,69), (129,70), (131,71), (132,72),
  (134,73), (137,74), (138,75), (139,76), (141,77), (142,78), (144,79), (147,80), (148,81),
  (150,82), (153,83)]), (7, [(45,7), (54,15), (55,16), (56,17), (58,18), (59,19), (60,20),
  (61,21), (63,22), (64,23), (65,24), (67,25), (68,26), (70,27), (72,28), (73,29), (74,30),
  (75,31), (76,32), (77,33), (79,34), (80,35), (81,36), (82,37), (83,38), (85,39), (86,40),
  (87,41), (88,42), (90,43), (91,44), (92,45), (95,46), (96,47), (98,48), (101,49), (102,50),
  (103,51), (104,52), (105,53), (107,54), (108,55), (109,56), (110,57), (112,58), (113,59),
  (114,60), (116,61), (117,62), (119,63), (122,64), (123,65), (124,66), (125,67), (127,68),
  (128,69), (129,70), (131,71), (132,72), (134,73), (137,74), (138,75), (139,76), (141,77),
  (142,78), (144,79), (147,80), (148,81), (150,82), (153,83)]), (8, [(46,8), (54,15), (55,16),
  (56,17), (58,18), (59,19), (60,20), (61,21), (63,22), (64,23), (65,24), (67,25), (68,26),
  (70,27), (72,28), (73,29), (74,30), (75,31), (76,32), (77,33), (79,34), (80,35), (81,36),
  (82,37), (83,38), (85,39), (86,40), (87,41), (88,42), (90,43), (91,44), (92,45), (95,46),
  (96,47), (98,48), (101,49), (102,50), (103,51), (104,52), (105,53), (107,54), (108,55),
  (109,56), (110,57), (112,58), (113,59), (114,60), (116,61), (117,62), (119,63), (122,64),
  (123,65), (124,66), (125,67), (127,68), (128,69), (129,70), (131,71), (132,72), (134,73),
  (137,74), (138,75), (139,76), (141,77), (142,78), (144,79), (147,80), (148,81), (150,82),
  (153,83)]), (9, [(47,9), (54,15), (55,16), (56,17), (58,18), (59,19), (60,20), (61,21), (63,22),
  (64,23), (65,24), (67,25), (68,26), (70,27), (72,28), (73,29), (74,30), (75,31), (76,32),
  (77,33), (79,34), (80,35), (81,36), (82,37), (83,38), (85,39), (86,40), (87,41), (88,42),
  (90,43), (91,44), (92,45), (95,46), (96,47), (98,48), (101,49), (102,50), (103,51), (104,52),
  (105,53), (107,54), (108,55), (109,56), (110,57), (112,58), (113,59), (114,60), (116,61),
  (117,62), (119,63), (122,64), (123,65), (124,66), (125,67), (127,68), (128,69), (129,70),
  (131,71), (132,72), (134,73), (137,74), (138,75), (139,76), (141,77), (142,78), (144,79),
  (147,80), (148,81), (150,82), (153,83)]), (10, [(48,10), (54,15), (55,16), (56,17), (58,18),
  (59,19), (60,20), (61,21), (63,22), (64,23), (65,24), (67,25), (68,26), (70,27), (72,28),
  (73,29), (74,30), (75,31), (76,32), (77,33), (79,34), (80,35), (81,36), (82,37), (83,38),
  (85,39), (86,40), (87,41), (88,42), (90,43), (91,44), (92,45), (95,46), (96,47), (98,48),
  (101,49), (102,50), (103,51), (104,52), (105,53), (107,54), (108,55), (109,56), (110,57),
  (112,58), (113,59), (114,60), (116,61), (117,62), (119,63), (122,64), (123,65), (124,66),
  (125,67), (127,68), (128,69), (129,70), (131,71), (132,72), (134,73), (137,74), (138,75),
  (139,76), (141,77), (142,78), (144,79), (147,80), (148,81), (150,82), (153,83)]), (11, [(49,11),
  (54,15), (55,16), (56,17), (58,18), (59,19), (60,20), (61,21), (63,22), (64,23), (65,24),
  (67,25), (68,26), (70,27), (72,28), (73,29), (74,30), (75,31), (76,32), (77,33), (79,34),
  (80,35), (81,36), (82,37), (83,38), (85,39), (86,40), (87,41), (88,42), (90,43), (91,44),
  (92,45), (95,46), (96,47), (98,48), (101,49), (102,50), (103,51), (104,52), (105,53), (107,54),
  (108,55), (109,56), (110,57), (112,58), (113,59), (114,60), (116,61), (117,62), (119,63),
  (122,64), (123,65), (124,66), (125,67), (127,68), (128,69), (129,70), (131,71), (132,72),
  (134,73), (137,74), (138,75), (139,76), (141,77), (142,78), (144,79), (147,80), (148,81),
  (150,82), (153,83)]), (12, [(50,12), (54,15), (55,16), (56,17), (58,18), (59,19), (60,20),
  (61,21), (63,22), (64,23), (65,24), (67,25), (68,26), (70,27), (72,28), (73,29), (74,30),
  (75,31), (76,32), (77,33), (79,34), (80,35), (81,36), (82,37), (83,38), (85,39), (86,40),
  (87,41), (88,42), (90,43), (91,44), (92,45), (95,46), (96,47), (98,48), (101,49), (102,50),
  (103,51), (104,52), (105,53), (107,54), (108,55), (109,56), (110,57), (112,58), (113,59),
  (114,60), (116,61), (117,62), (119,63), (122,64), (123,65), (124,66), (125,67), (127,68),
  (128,69), (129,70), (131,71), (132,72), (134,73), (137,74), (138,75), (139,76), (141,77),
  (142,78), (144,79), (147,80), (148,81), (150,82), (153,83)]), (13, [(52,13), (54,15), (55,16),
  (56,17), (58,18), (59,19), (60,20), (61,21), (63,22), (64,23), (65,24), (67,25), (68,26),
  (70,27), (72,28), (73,29), (74,30), (75,31), (76,32), (77,33), (79,34), (80,35), (81,36),
  (82,37), (83,38), (85,39), (86,40), (87,41), (88,42), (90,43), (91,44), (92,45), (95,46),
  (96,47), (98,48), (101,49), (102,50), (103,51), (104,52), (105,53), (107,54), (108,55),
  (109,56), (110,57), (112,58), (113,59), (114,60), (116,61), (117,62), (119,63), (122,64),
  (123,65), (124,66), (125,67), (127,68), (128,69), (129,70), (131,71), (132,72), (134,73),
  (137,74), (138,75), (139,76), (141,77), (142,78), (144,79), (147,80), (148,81), (150,82),
  (153,83)]), (14, [(53,14), (54,15), (55,16), (56,17), (58,18), (59,19), (60,20), (61,21),
  (63,22), (64,23), (65,24), (67,25), (68,26), (70,27), (72,28), (73,29), (74,30), (75,31),
  (76,32), (77,33), (79,34), (80,35), (81,36), (82,37), (83,38), (85,39), (86,40), (87,41),
  (88,42), (90,43), (91,44), (92,45), (95,46), (96,47), (98,48), (101,49), (102,50), (103,51),
  (104,52), (105,53), (107,54), (108,55), (109,56), (110,57), (112,58), (113,59), (114,60),
  (116,61), (117,62), (119,63), (122,64), (123,65), (124,66), (125,67), (127,68), (128,69),
  (129,70), (131,71), (132,72), (134,73), (137,74), (138,75), (139,76), (141,77), (142,78),
  (144,79), (147,80), (148,81), (150,82), (153,83)]), (0, [(72,0), (87,15), (88,16), (89,17),
  (90,18), (91,19), (92,20), (94,21), (95,22), (96,23), (97,24), (98,25), (99,26), (100,27),
  (101,28), (102,29), (103,30), (104,31), (105,32), (106,33), (107,34), (108,35), (109,36),
  (110,37), (111,38), (112,39), (113,40), (114,41), (115,42), (116,43), (117,44), (118,45),
  (119,46), (120,47), (121,48), (122,49), (123,50), (124,51), (125,52), (126,53), (127,54),
  (128,55), (129,56), (130,57), (131,58), (132,59), (133,60), (134,61), (135,62), (136,63),
  (137,64), (138,65), (139,66), (140,67), (141,68), (142,69), (143,70), (144,71), (145,72),
  (146,73), (147,74), (148,75), (149,76), (150,77), (151,78), (152,79), (153,80), (154,81),
  (155,82), (156,83)]), (1, [(73,1), (87,15), (88,16), (89,17), (90,18), (91,19), (92,20),
  (94,21), (95,22), (96,23), (97,24), (98,25), (99,26), (100,27), (101,28), (102,29), (103,30),
  (104,31), (105,32), (106,33), (107,34), (108,35), (109,36), (110,37), (111,38), (112,39),
  (113,40), (114,41), (115,42), (116,43), (117,44), (118,45), (119,46), (120,47), (121,48),
  (122,49), (123,50), (124,51), (125,52), (126,53), (127,54), (128,55), (129,56), (130,57),
  (131,58), (132,59), (133,60), (134,61), (135,62), (136,63), (137,64), (138,65), (139,66),
  (140,67), (141,68), (142,69), (143,70), (144,71), (145,72), (146,73), (147,74), (148,75),
  (149,76), (150,77), (151,78), (152,79), (153,80), (154,81), (155,82), (156,83)])]

/-- Rows 80 to 92 (src/relative_pose/modules/sixpt/modules2.cpp lines 343-355). -/
def sixTable5 : List (ℕ × List (ℕ × ℕ)) :=
  [(2, [(74,2), (87,15), (88,16), (89,17), (90,18), (91,19), (92,20), (94,21), (95,22), (96,23),
  (97,24), (98,25), (99,26), (100,27), (101,28), (102,29), (103,30), (104,31), (105,32), (106,33),
  (107,34), (108,35), (109,36), (110,37), (111,38), (112,39), (113,40), (114,41), (115,42),
  (116,43), (117,44), (118,45), (119,46), (120,47), (121,48), (122,49), (123,50), (124,51),
  (125,52), (126,53), (127,54), (128,55), (129,56), (130,57), (131,58), (132,59), (133,60),
  (134,61), (135,62), (136,63), (137,64), (138,65), (139,66), (140,67), (141,68), (142,69),
  (143,70), (144,71), (145,72), (146,73), (147,74), (148,75), (149,76), (150,77), (151,78),
  (152,79), (153,80), (154,81), (155,82), (156,83)]), (3, [(75,3), (87,15), (88,16), (89,17),
  (90,18), (91,19), (92,20), (94,21), (95,22), (96,23), (97,24), (98,25), (99,26), (100,27),
  (101,28), (102,29), (103,30), (104,31), (105,32), (106,33), (107,34), (108,35), (109,36),
  (110,37), (111,38), (112,39), (113,40), (114,41), (115,42), (116,43), (117,44), (118,45),
  (119,46), (120,47), (121,48), (122,49), (123,50), (124,51), (125,52), (126,53), (127,54),
  (128,55), (129,56), (130,57), (131,58), (132,59), (133,60), (134,61), (135,62), (136,63),
  (137,64), (138,65), (139,66), (140,67), (141,68), (142,69), (143,70), (144,71), (145,72),
  (146,73), (147,74), (148,75), (149,76), (150,77), (151,78), (152,79), (153,80), (154,81),
  (155,82), (156,83)]), (4, [(76,4), (87,15), (88,16), (89,17), (90,18), (91,19), (92,20),
  (94,21), (95,22), (96,23), (97,24), (98,25), (99,26), (100,27), (101,28), (102,29), (103,30),
  (104,31), (105,32), (106,33), (107,34), (108,35), (109,36), (110,37), (111,38), (112,39),
  (113,40), (114,41), (115,42), (116,43), (117,44), (118,45), (119,46), (120,47), (121,48),
  (122,49), (123,50), (124,51), (125,52), (126,53), (127,54), (128,55), (129,56), (130,57),
  (131,58), (132,59), (133,60), (134,61), (135,62), (136,63), (137,64), (138,65), (139,66),
  (140,67), (141,68), (142,69), (143,70), (144,71), (145,72), (146,73), (147,74), (148,75),
  (149,76), (150,77), (151,78), (152,79), (153,80), (154,81), (155,82), (156,83)]), (5, [(77,5),
  (87,15), (88,16), (89,17), (90,18), (91,19), (92,20), (94,21), (95,22), (96,23), (97,24),
  (98,25), (99,26), (100,27), (101,28), (102,29), (103,30), (104,31), (105,32), (106,33),
  (107,34), (108,35), (109,36), (110,37), (111,38), (112,39), (113,40), (114,41), (115,42),
  (116,43), (117,44), (118,45), (119,46), (120,47), (121,48), (122,49), (123,50), (124,51),
  (125,52), (126,53), (127,54), (128,55), (129,56), (130,57), (131,58), (132,59), (133,60),
  (134,61), (135,62), (136,63), (137,64), (138,65), (139,66), (140,67), (141,68), (142,69),
  (143,70), (144,71), (145,72), (146,73), (147,74), (148,75), (149,76), (150,77), (151,78),
  (152,79), (153,80), (154,81), (155,82), (156,83)]), (6, [(78,6), (87,15), (88,16), (89,17),
  (90,18), (91,19), (92,20), (94,21), (95,22), (96,23), (97,24), (98,25), (99,26), (100,27),
  (101,28), (102,29), (103,30), (104,31), (105,32), (106,33), (107,34), (108,35), (109,36),
  (110,37), (111,38), (112,39), (113,40), (114,41), (115,42), (116,43), (117,44), (118,45),
  (119,46), (120,47), (121,48), (122,49), (123,50), (124,51), (125,52), (126,53), (127,54),
  (128,55), (129,56), (130,57), (131,58), (132,59), (133,60), (134,61), (135,62), (136,63),
  (137,64), (138,65), (139,66), (140,67), (141,68), (142,69), (143,70), (144,71), (145,72),
  (146,73), (147,74), (148,75), (149,76), (150,77), (151,78), (152,79), (153,80), (154,81),
  (155,82), (156,83)]), (7, [(79,7), (87,15), (88,16), (89,17), (90,18), (91,19), (92,20),
  (94,21), (95,22), (96,23), (97,24), (98,25), (99,26), (100,27), (101,28), (102,29), (103,30),
  (104,31), (105,32), (106,33), (107,34), (108,35), (109,36), (110,37), (111,38), (112,39),
  (113,40), (114,41), (115,42), (116,43), (117,44), (118,45), (119,46), (120,47), (121,48),
  (122,49), (123,50), (124,51), (125,52), (126,53), (127,54), (128,55), (129,56), (130,57),
  (131,58), (132,59), (133,60), (134,61), (135,62), (136,63), (137,64), (138,65), (139,66),
  (140,67), (141,68), (142,69), (143,70), (144,71), (145,72), (146,73), (147,74), (148,75),
  (149,76), (150,77), (151,78), (152,79), (153,80), (154,81), (155,82), (156,83)]), (8, [(80,8),
  (87,15), (88,16), (89,17), (90,18), (91,19), (92,20), (94,21), (95,22), (96,23), (97,24),
  (98,25), (99,26), (100,27), (101,28), (102,29), (103,30), (104,31), (105,32), (106,33),
  (107,34), (108,35), (109,36), (110,37), (111,38), (112,39), (113,40), (114,41), (115,42),
  (116,43), (117,44), (118,45), (119,46), (120,47), (121,48), (122,49), (123,50), (124,51),
  (125,52), (126,53), (127,54), (128,55), (129,56), (130,57), (131,58), (132,59), (133,60),
  (134,61), (135,62), (136,63), (137,64), (138,65), (139,66), (140,67), (141,68), (142,69),
  (143,70), (144,71), (145,72), (146,73), (147,74), (148,75), (149,76), (150,77), (151,78),
  (152,79), (153,80), (154,81), (155,82), (156,83)]), (9, [(81,9), (87,15), (88,16), (89,17),
  (90,18), (91,19), (92,20), (94,21), (95,22), (96,23), (97,24), (98,25), (99,26), (100,27),
  (101,28), (102,29), (103,30), (104,31), (105,32), (106,33), (107,34), (108,35), (109,36),
  (110,37), (111,38), (112,39), (113,40), (114,41), (115,42), (116,43), (117,44), (118,45),
  (119,46), (120,47), (121,48), (122,49), (123,50), (124,51), (125,52), (126,53), (127,54),
  (128,55), (129,56), (130,57), (131,58), (132,59), (133,60), (134,61), (135,62), (136,63),
  (137,64), (138,65), (139,66), (140,67), (141,68), (142,69), (143,70), (144,71), (145,72),
  (146,73), (147,74), (148,75), (149,76), (150,77), (151,78), (152,79), (153,80), (154,81),
  (155,82), (156,83)]), (10, [(82,10), (87,15), (88,16), (89,17), (90,18), (91,19), (92,20),
  (94,21), (95,22), (96,23), (97,24), (98,25), (99,26), (100,27), (101,28), (102,29), (103,30),
  (104,31), (105,32), (106,33), (107,34), (108,35), (109,36), (110,37), (111,38), (112,39),
  (113,40), (114,41), (115,42), (116,43), (117,44), (118,45), (119,46), (120,47), (121,48),
  (122,49), (123,50), (124,51), (125,52), (126,53), (127,54), (128,55), (129,56), (130,57),
  (131,58), (132,59), (133,60), (134,61), (135,62), (136,63), (137,64), (138,65), (139,66),
  (140,67), (141,68), (142,69), (143,70), (144,71), (145,72), (146,73), (147,74), (148,75),
  (149,76), (150,77), (151,78), (152,79), (153,80), (154,81), (155,82), (156,83)]), (11, [(83,11),
  (87,15), (88,16), (89,17), (90,18), (91,19), (92,20), (94,21), (95,22), (96,23), (97,24),
  (98,25), (99,26), (100,27), (101,28), (102,29), (103,30), (104,31), (105,32), (106,33),
  (107,34), (108,35), (109,36), (110,37), (111,38), (112,39), (113,40), (114,41), (115,42),
  (116,43), (117,44), (118,45), (119,46), (120,47), (121,48), (122,49), (123,50), (124,51),
  (125,52), (126,53), (127,54), (128,55), (129,56), (130,57), (131,58), (132,59), (133,60),
  (134,61), (135,62), (136,63), (137,64), (138,65), (139,66), (140,67), (141,68), (142,69),
  (143,70), (144,71), (145,72), (146,73), (147,74), (148,75), (149,76), (150,77), (151,78),
  (152,79), (153,80), (154,81), (155,82), (156,83)]), (12, [(84,12), (87,15), (88,16), (89,17),
  (90,18), (91,19), (92,20), (94,21), (95,22), (96,23), (97,24), (98,25), (99,26), (100,27),
  (101,28), (102,29), (103,30), (104,31), (105,32), (106,33), (107,34), (108,35), (109,36),
  (110,37), (111,38), (112,39), (113,40), (114,41), (115,42), (116,43), (117,44), (118,45),
  (119,46), (120,47), (121,48), (122,49), (123,50), (124,51), (125,52), (126,53), (127,54),
  (128,55), (129,56), (130,57), (131,58), (132,59), (133,60), (134,61), (135,62), (136,63),
  (137,64), (138,65), (139,66), (140,67), (141,68), (142,69), (143,70), (144,71), (145,72),
  (146,73), (147,74), (148,75), (149,76), (150,77), (151,78), (152,79), (153,80), (154,81),
  (155,82), (156,83)]), (13, [(85,13), (87,15), (88,16), (89,17), (90,18), (91,19), (92,20),
  (94,21), (95,22), (96,23), (97,24), (98,25), (99,26), (100,27), (101,28), (102,29), (103,30),
  (104,31), (105,32), (106,33), (107,34), (108,35), (109,36), (110,37), (111,38), (112,39),
  (113,40), (114,41), (115,42), (116,43), (117,44), (118,45), (119,46), (120,47), (121,48),
  (122,49), (123,50), (124,51), (125,52), (126,53), (127,54), (128,55), (129,56), (130,57),
  (131,58), (132,59), (133,60), (134,61), (135,62), (136,63), (137,64), (138,65), (139,66),
  (140,67), (141,68), (142,69), (143,70), (144,71), (145,72), (146,73), (147,74), (148,75),
  (149,76), (150,77), (151,78), (152,79), (153,80), (154,81), (155,82), (156,83)]), (14, [(86,14),
  (87,15), (88,16), (89,17), (90,18), (91,19), (92,20), (94,21), (95,22), (96,23), (97,24),
  (98,25), (99,26), (100,27), (101,28), (102,29), (103,30), (104,31), (105,32), (106,33),
  (107,34), (108,35), (109,36), (110,37), (111,38), (112,39), (113,40), (114,41), (115,42),
  (116,43), (117,44), (118,45), (119,46), (120,47), (121,48), (122,49), (123,50), (124,51),
  (125,52), (126,53), (127,54), (128,55), (129,56), (130,57), (131,58), (132,59), (133,60),
  (134,61), (135,62), (136,63), (137,64), (138,65), (139,66), (140,67), (141,68), (142,69),
  (143,70), (144,71), (145,72), (146,73), (147,74), (148,75), (149,76), (150,77), (151,78),
  (152,79), (153,80), (154,81), (155,82), (156,83)])]

/-- The assignments `M2(r,c) = M1(k,j)`: row `r` of the table has `k` and the pairs `(c,j)`
(src/relative_pose/modules/sixpt/modules2.cpp lines 263-355). -/
def sixTable : List (ℕ × List (ℕ × ℕ)) :=
  [sixTable0, sixTable1, sixTable2, sixTable3, sixTable4, sixTable5].flatten

end OpenGV
