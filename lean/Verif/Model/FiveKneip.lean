import Verif.Model.FiveKneipTable
import Verif.Model.FiveKneipInit
import Verif.Model.Geometry
import Mathlib.Data.Complex.Basic

/-!
# Model of `fivept_kneip`

The five-point solver for the rotation (src/relative_pose/methods.cpp l.289-309,
src/relative_pose/modules/main.cpp l.278-569). The results of Eigen's `EigenSolver` are an argument.
-/

open Matrix

namespace OpenGV

/-- One term of `initEpncpRowR`; the digits of `m` are explained at `FiveKneip.initTerms`. -/
def kneipTerm (c1 c2 : Fin 3 → Mat3) (m : ℕ) : ℝ :=
  (if 2000000 ≤ m then -1 else 1) *
    (c1 (Fin.ofNat 3 (m / 100000 % 10)) (Fin.ofNat 3 (m / 10000 % 10)) (Fin.ofNat 3 (m / 1000 % 10)) *
      c2 (Fin.ofNat 3 (m / 100 % 10)) (Fin.ofNat 3 (m / 10 % 10)) (Fin.ofNat 3 (m % 10)))

/-- `initEpncpRowR` (fivept_kneip/init.cpp l.35-156). -/
def initEpncpRow (c1 c2 : Fin 3 → Mat3) (x : ℕ) : ℝ :=
  ((FiveKneip.initTerms.getD x []).map (kneipTerm c1 c2)).sum

/-- `c_1` and `c_2` for three features: `c[k] = f_a * f_b^T * f_c(k)` (modules/main.cpp
l.304-313). -/
def kneipC (fa fb fc : Vec3) (k : Fin 3) : Mat3 := fc k • vecMulVec fa fb

/-- The features of the rows, in the order of the three loops (modules/main.cpp l.300-318). -/
def kneipTriples : List (Fin 5 × Fin 5 × Fin 5) :=
  (List.finRange 5).flatMap fun a =>
    ((List.finRange 5).filter (a < ·)).flatMap fun b =>
      ((List.finRange 5).filter (b < ·)).map fun c => (a, b, c)

/-- The matrix before the elimination: zero (l.284-285), the ten rows of the features (l.298-319) and
`initMatrix` (l.321, fivept_kneip/init.cpp l.158-227). -/
def kneipInit (f1 f2 : Fin 5 → Vec3) : GMat ℝ := fun r x =>
  match kneipTriples[r]? with
  | some (a, b, c) => initEpncpRow (kneipC (f1 a) (f1 b) (f1 c)) (kneipC (f2 a) (f2 b) (f2 c)) x
  | none => ((((FiveKneip.constRows.getD (r - 10) []).find? (·.1 == x)).getD (x, 0)).2 : ℤ)

/-- The action matrix `M` (modules/main.cpp l.324-335). -/
def kneipM (G : GMat ℝ) : Matrix (Fin 20) (Fin 20) ℝ := Matrix.of fun i j =>
  if (i : ℕ) < 10 then -G (51 + i) (177 + j)
  else if (i : ℕ) < 19 then if (j : ℕ) + 9 = i then 1 else 0
  else if (j : ℕ) = 18 then 1 else 0

open Classical in
/-- The matrix read from an eigenvector, with its second and third row normalised (l.351-375).
`none` is a division by zero; the matrix then contains a NaN in the second or third row and does not
pass the comparison of the determinant. -/
noncomputable def kneipRead (v : Fin 20 → ℂ) : Option Mat3 :=
  if v 19 = 0 then none
  else
    let F : Mat3 := Matrix.of fun i j => (v (Fin.ofNat 20 (18 - (3 * i + j))) / v 19).re
    if norm3 (F 1) = 0 ∨ norm3 (F 2) = 0 then none
    else some (Matrix.of ![F 0, (norm3 (F 1))⁻¹ • F 1, (norm3 (F 2))⁻¹ • F 2])

/-- The matrix `eval` of three normal vectors as columns. -/
def kneipNormals (f1 f2 : Fin 5 → Vec3) (R : Mat3) (a b c : Fin 5) : Mat3 :=
  (Matrix.of ![crossProduct (f1 a) (R *ᵥ f2 a), crossProduct (f1 b) (R *ᵥ f2 b),
    crossProduct (f1 c) (R *ᵥ f2 c)]).transpose

/-- `totalEval` (l.380-455): the ten determinants, then the products of the rows and three of the
cofactors. -/
def kneipEval (f1 f2 : Fin 5 → Vec3) (R : Mat3) : ℝ :=
  (kneipTriples.map fun t => |(kneipNormals f1 f2 R t.1 t.2.1 t.2.2).det|).sum +
    |R 0 0 * R 0 0 + R 0 1 * R 0 1 + R 0 2 * R 0 2 - 1| +
    |R 0 0 * R 1 0 + R 0 1 * R 1 1 + R 0 2 * R 1 2| +
    |R 0 0 * R 2 0 + R 0 1 * R 2 1 + R 0 2 * R 2 2| +
    |R 1 0 * R 1 0 + R 1 1 * R 1 1 + R 1 2 * R 1 2 - 1| +
    |R 1 0 * R 2 0 + R 1 1 * R 2 1 + R 1 2 * R 2 2| +
    |R 2 0 * R 2 0 + R 2 1 * R 2 1 + R 2 2 * R 2 2 - 1| +
    |R 1 0 * R 2 1 - R 2 0 * R 1 1 - R 0 2| +
    |R 2 0 * R 0 1 - R 0 0 * R 2 1 - R 1 2| +
    |R 0 0 * R 1 1 - R 1 0 * R 0 1 - R 2 2|

/-- The check of the directions (l.460-562): no translation computed from two normal vectors puts a
feature in front of one camera and behind the other. -/
def kneipPositive (f1 f2 : Fin 5 → Vec3) (R : Mat3) : Prop :=
  ∀ i a b : Fin 5, a < b →
    let t := crossProduct (crossProduct (f1 a) (R *ᵥ f2 a)) (crossProduct (f1 b) (R *ᵥ f2 b))
    ¬ crossProduct t (f1 i) ⬝ᵥ crossProduct t (R *ᵥ f2 i) < 0

open Classical in
/-- One pass of the loop over the eigenvalues (l.344-568). -/
noncomputable def kneipCandidate (f1 f2 : Fin 5 → Vec3) (d : ℂ) (v : Fin 20 → ℂ) : Option Mat3 :=
  if |d.im| < 0.1 then
    match kneipRead v with
    | none => none
    | some R =>
      if |R.det - 1| < 0.1 then
        if kneipEval f1 f2 R < 0.001 then
          if kneipPositive f1 f2 R then some R else none
        else none
      else none
  else none

/-- `fivept_kneip_main` (l.278-569). `eig` gives the results of `EigenSolver`; the outer `none` is a
division by zero in the elimination. -/
noncomputable def kneipMain (f1 f2 : Fin 5 → Vec3)
    (eig : Matrix (Fin 20) (Fin 20) ℝ → (Fin 20 → ℂ) × Matrix (Fin 20) (Fin 20) ℂ) :
    Option (List Mat3) :=
  (gRun (kneipInit f1 f2) FiveKneip.compute).map fun G =>
    (List.finRange 20).filterMap fun i =>
      kneipCandidate f1 f2 ((eig (kneipM G)).1 i) fun k => (eig (kneipM G)).2 k i

end OpenGV
