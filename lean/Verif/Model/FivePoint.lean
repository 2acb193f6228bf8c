import Verif.Model.NisterTable
import Verif.Model.SteweniusTable
import Verif.Model.RelativePose
import Verif.Model.Sturm
import Mathlib.LinearAlgebra.Matrix.NonsingularInverse

/-!
# Model of the five-point solvers of Nister and Stewenius
-/

open Matrix

namespace OpenGV

/-- The variable `eij` of `composeA` has the number `10 i + j` and the value `EE(j,i)`
(fivept_nister/modules.cpp lines 60-95, fivept_stewenius/modules.cpp likewise). -/
def eVar (EE : Matrix (Fin 9) (Fin 4) ℝ) (n : ℕ) : ℝ :=
  if h : n % 10 < 9 ∧ n / 10 < 4 then EE ⟨n % 10, h.1⟩ ⟨n / 10, h.2⟩ else 0

/-- `composeA` of Nister's solver (fivept_nister/modules.cpp lines 37-369). -/
def nisterA (EE : Matrix (Fin 9) (Fin 4) ℝ) : Matrix (Fin 10) (Fin 20) ℝ :=
  Matrix.of fun r c => termsVal (eVar EE) ((nisterTable.getD r []).getD c [])

/-- `composeA` of Stewenius' solver (fivept_stewenius/modules.cpp lines 33-365). The numbers in the
table are in halves. -/
noncomputable def steweniusA (EE : Matrix (Fin 9) (Fin 4) ℝ) : Matrix (Fin 10) (Fin 20) ℝ :=
  Matrix.of fun r c => termsVal (eVar EE) ((steweniusTable.getD r []).getD c []) / 2

/-- The vector of monomials (fivept_nister/modules.cpp lines 484-504). -/
def nisterMonomials (x y z : ℝ) : Fin 20 → ℝ :=
  ![x ^ 3, y ^ 3, x ^ 2 * y, x * y ^ 2, x ^ 2 * z, x ^ 2, y ^ 2 * z, y ^ 2, x * y * z, x * y,
    x * z ^ 2, x * z, x, y * z ^ 2, y * z, y, z ^ 3, z ^ 2, z, 1]

/-- The matrix `A3` of both solvers (modules/main.cpp lines 57-64 and 140-147): the inverse of the
left half of `A` times the right half. `none` is the inversion of a singular matrix. -/
noncomputable def reducedA (A : Matrix (Fin 10) (Fin 20) ℝ) : Option (Matrix (Fin 10) (Fin 10) ℝ) :=
  let A1 : Matrix (Fin 10) (Fin 10) ℝ := Matrix.of fun i j => A i (Fin.castLE (by omega) j)
  let A2 : Matrix (Fin 10) (Fin 10) ℝ := Matrix.of fun i j => A i (Fin.natAdd 10 j)
  if A1.det = 0 then none else some (A1⁻¹ * A2)

/-! ## Nister's solver -/

/-- The loop of `polyVal` (fivept_nister/modules.cpp lines 371-382): `power` terms are left,
`degree` is `p.cols()`. -/
def polyValLoop (degree : ℕ) (p : ℕ → ℝ) (x : ℝ) : (power : ℕ) → (value : ℝ) → ℝ
  | 0, value => value
  | power + 1, value =>
    polyValLoop degree p x power (value + p (degree - (power + 1)) * x ^ power)

/-- `polyVal` of a vector of `degree` coefficients. -/
def polyVal (degree : ℕ) (p : ℕ → ℝ) (x : ℝ) : ℝ := polyValLoop degree p x degree 0

/-- The entries of a vector of fixed length, for `polyVal` and the Sturm chain. -/
def entries {n : ℕ} (p : Fin n → ℝ) (i : ℕ) : ℝ := if h : i < n then p ⟨i, h⟩ else 0

/-- The cubics `b11`, `b21`, `b31`, `b12`, `b22`, `b32` (modules/main.cpp lines 149-183): from the
rows `r` and `r+1` of `A3` and the columns from `c` on. -/
def bCubic (A3 : Matrix (Fin 10) (Fin 10) ℝ) (r r1 c0 c1 c2 : Fin 10) : Fin 4 → ℝ :=
  ![0, A3 r c0, A3 r c1, A3 r c2] - ![A3 r1 c0, A3 r1 c1, A3 r1 c2, 0]

/-- The quartics `b13`, `b23`, `b33` (modules/main.cpp lines 185-201). -/
def bQuartic (A3 : Matrix (Fin 10) (Fin 10) ℝ) (r r1 : Fin 10) : Fin 5 → ℝ :=
  ![0, A3 r 6, A3 r 7, A3 r 8, A3 r 9] - ![A3 r1 6, A3 r1 7, A3 r1 8, A3 r1 9, 0]

/-- `computeSeventhOrderPolynomial` (fivept_nister/modules.cpp lines 384-401). -/
def poly7 (p1 : Fin 5 → ℝ) (p2 : Fin 4 → ℝ) : Fin 8 → ℝ :=
  ![p1 0 * p2 0,
    p1 0 * p2 1 + p1 1 * p2 0,
    p1 0 * p2 2 + p1 1 * p2 1 + p1 2 * p2 0,
    p1 0 * p2 3 + p1 1 * p2 2 + p1 2 * p2 1 + p1 3 * p2 0,
    p1 1 * p2 3 + p1 2 * p2 2 + p1 3 * p2 1 + p1 4 * p2 0,
    p1 2 * p2 3 + p1 3 * p2 2 + p1 4 * p2 1,
    p1 3 * p2 3 + p1 4 * p2 2,
    p1 4 * p2 3]

/-- `computeSixthOrderPolynomial` (fivept_nister/modules.cpp lines 403-419). -/
def poly6 (p1 p2 : Fin 4 → ℝ) : Fin 7 → ℝ :=
  ![p1 0 * p2 0,
    p1 0 * p2 1 + p1 1 * p2 0,
    p1 0 * p2 2 + p1 1 * p2 1 + p1 2 * p2 0,
    p1 0 * p2 3 + p1 1 * p2 2 + p1 2 * p2 1 + p1 3 * p2 0,
    p1 1 * p2 3 + p1 2 * p2 2 + p1 3 * p2 1,
    p1 2 * p2 3 + p1 3 * p2 2,
    p1 3 * p2 3]

/-- `computeTenthOrderPolynomialFrom73` (fivept_nister/modules.cpp lines 421-441). -/
def poly73 (p1 : Fin 8 → ℝ) (p2 : Fin 4 → ℝ) : Fin 11 → ℝ :=
  ![p1 0 * p2 0,
    p1 0 * p2 1 + p1 1 * p2 0,
    p1 0 * p2 2 + p1 1 * p2 1 + p1 2 * p2 0,
    p1 0 * p2 3 + p1 1 * p2 2 + p1 2 * p2 1 + p1 3 * p2 0,
    p1 1 * p2 3 + p1 2 * p2 2 + p1 3 * p2 1 + p1 4 * p2 0,
    p1 2 * p2 3 + p1 3 * p2 2 + p1 4 * p2 1 + p1 5 * p2 0,
    p1 3 * p2 3 + p1 4 * p2 2 + p1 5 * p2 1 + p1 6 * p2 0,
    p1 4 * p2 3 + p1 5 * p2 2 + p1 6 * p2 1 + p1 7 * p2 0,
    p1 5 * p2 3 + p1 6 * p2 2 + p1 7 * p2 1,
    p1 6 * p2 3 + p1 7 * p2 2,
    p1 7 * p2 3]

/-- `computeTenthOrderPolynomialFrom64` (fivept_nister/modules.cpp lines 443-463). -/
def poly64 (p1 : Fin 7 → ℝ) (p2 : Fin 5 → ℝ) : Fin 11 → ℝ :=
  ![p1 0 * p2 0,
    p1 0 * p2 1 + p1 1 * p2 0,
    p1 0 * p2 2 + p1 1 * p2 1 + p1 2 * p2 0,
    p1 0 * p2 3 + p1 1 * p2 2 + p1 2 * p2 1 + p1 3 * p2 0,
    p1 0 * p2 4 + p1 1 * p2 3 + p1 2 * p2 2 + p1 3 * p2 1 + p1 4 * p2 0,
    p1 1 * p2 4 + p1 2 * p2 3 + p1 3 * p2 2 + p1 4 * p2 1 + p1 5 * p2 0,
    p1 2 * p2 4 + p1 3 * p2 3 + p1 4 * p2 2 + p1 5 * p2 1 + p1 6 * p2 0,
    p1 3 * p2 4 + p1 4 * p2 3 + p1 5 * p2 2 + p1 6 * p2 1,
    p1 4 * p2 4 + p1 5 * p2 3 + p1 6 * p2 2,
    p1 5 * p2 4 + p1 6 * p2 3,
    p1 6 * p2 4]

/-- The polynomials of Nister's solver. -/
structure NisterPolys where
  p1 : Fin 8 → ℝ
  p2 : Fin 8 → ℝ
  p3 : Fin 7 → ℝ
  p10 : Fin 11 → ℝ

/-- The polynomials computed from `A3` (modules/main.cpp lines 149-226). -/
def nisterPolys (A3 : Matrix (Fin 10) (Fin 10) ℝ) : NisterPolys :=
  let b11 := bCubic A3 4 5 0 1 2
  let b21 := bCubic A3 6 7 0 1 2
  let b31 := bCubic A3 8 9 0 1 2
  let b12 := bCubic A3 4 5 3 4 5
  let b22 := bCubic A3 6 7 3 4 5
  let b32 := bCubic A3 8 9 3 4 5
  let b13 := bQuartic A3 4 5
  let b23 := bQuartic A3 6 7
  let b33 := bQuartic A3 8 9
  let p1 := poly7 b23 b12 - poly7 b13 b22
  let p2 := poly7 b13 b21 - poly7 b23 b11
  let p3 := poly6 b11 b22 - poly6 b12 b21
  { p1 := p1, p2 := p2, p3 := p3, p10 := poly73 p1 b31 + poly73 p2 b32 + poly64 p3 b33 }

/-- The matrix with the given rows in one vector (modules/main.cpp lines 266-275), divided by the
root of the sum of its squares (lines 245-264). `none` is a division by zero. -/
noncomputable def normalizeE (E : Fin 9 → ℝ) : Option Mat3 :=
  let norm := √(∑ r, E r ^ 2)
  if norm = 0 then none
  else
    let e := fun i => E i / norm
    some !![e 0, e 1, e 2; e 3, e 4, e 5; e 6, e 7, e 8]

/-- The essential matrix for one root (modules/main.cpp lines 233-242). `pollish` is the effect of
`pollishCoefficients`, which is not modelled. `none` is a division by zero. -/
noncomputable def nisterOne (EE : Matrix (Fin 9) (Fin 4) ℝ) (P : NisterPolys)
    (pollish : ℝ × ℝ × ℝ → ℝ × ℝ × ℝ) (z : ℝ) : Option Mat3 :=
  if polyVal 7 (entries P.p3) z = 0 then none
  else
    let x := polyVal 8 (entries P.p1) z / polyVal 7 (entries P.p3) z
    let y := polyVal 8 (entries P.p2) z / polyVal 7 (entries P.p3) z
    let q := pollish (x, y, z)
    normalizeE fun i => q.1 * EE i 0 + q.2.1 * EE i 1 + q.2.2 * EE i 2 + EE i 3

/-- `fivept_nister_main` (modules/main.cpp lines 135-276). The outer `none` is the inversion of a
singular matrix, or that the root finder does not end with the given fuel; a `none` in the list is
an essential matrix with entries that are not finite. -/
noncomputable def nisterMain (EE : Matrix (Fin 9) (Fin 4) ℝ)
    (pollish : Matrix (Fin 10) (Fin 20) ℝ → ℝ × ℝ × ℝ → ℝ × ℝ × ℝ) (fuel : ℕ) :
    Option (List (Option Mat3)) :=
  let A := nisterA EE
  match reducedA A with
  | none => none
  | some A3 =>
    let P := nisterPolys A3
    match findRoots 11 (entries P.p10) fuel with
    | none => none
    | some roots => some (roots.map (nisterOne EE P (pollish A)))

/-- The null space basis `EE` of both solvers: the last four right singular vectors of `Q`
(src/relative_pose/methods.cpp lines 191-212 and 248-270). `Q` is `epipolarA`. -/
def nullBasis (V : Matrix (Fin 9) (Fin 9) ℝ) : Matrix (Fin 9) (Fin 4) ℝ :=
  Matrix.of fun i j => V i (Fin.natAdd 5 j)

/-! ## Stewenius' solver -/

/-- The matrix `M` (modules/main.cpp lines 66-74). -/
def steweniusM (A3 : Matrix (Fin 10) (Fin 10) ℝ) : Matrix (Fin 10) (Fin 10) ℝ :=
  Matrix.of ![-A3 0, -A3 1, -A3 2, -A3 4, -A3 5, -A3 7,
    Pi.single 0 1, Pi.single 1 1, Pi.single 3 1, Pi.single 6 1]

/-- The essential matrix for one eigenvector `v` (modules/main.cpp lines 81-132), with complex
entries; the division is by the root of the sum of the squares. `none` is a division by zero. -/
noncomputable def steweniusOne (EE : Matrix (Fin 9) (Fin 4) ℝ) (v : Fin 10 → ℂ) :
    Option (Matrix (Fin 3) (Fin 3) ℂ) :=
  if v 9 = 0 then none
  else
    let E : Fin 9 → ℂ := fun i =>
      EE i 0 * (v 6 / v 9) + EE i 1 * (v 7 / v 9) + EE i 2 * (v 8 / v 9) + EE i 3
    let norm := (∑ r, E r ^ 2) ^ ((2 : ℕ) : ℂ)⁻¹
    if norm = 0 then none
    else
      let e := fun i => E i / norm
      some !![e 0, e 1, e 2; e 3, e 4, e 5; e 6, e 7, e 8]

/-- `fivept_stewenius_main` (modules/main.cpp lines 52-133); `eigv M` are the eigenvectors of `M`
computed by Eigen, as the columns of a matrix. -/
noncomputable def steweniusMain (EE : Matrix (Fin 9) (Fin 4) ℝ)
    (eigv : Matrix (Fin 10) (Fin 10) ℝ → Matrix (Fin 10) (Fin 10) ℂ) :
    Option (List (Option (Matrix (Fin 3) (Fin 3) ℂ))) :=
  match reducedA (steweniusA EE) with
  | none => none
  | some A3 =>
    some ((List.finRange 10).map fun c => steweniusOne EE fun i => eigv (steweniusM A3) i c)

/-- The conversion of the complex matrices before the selection
(CentralRelativePoseSacProblem.cpp lines 58-69): the real parts of all entries are taken. -/
def realParts (E : Matrix (Fin 3) (Fin 3) ℂ) : Mat3 := Matrix.of fun r c => (E r c).re

end OpenGV
