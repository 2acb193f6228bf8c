import Verif.Model.Geometry
import Verif.Model.MultiAdapter

/-!
# Model of `src/triangulation/methods.cpp` and of the multi-camera relative scores
-/

namespace OpenGV

open Matrix

/-- `triangulate2` (src/triangulation/methods.cpp lines 66-90), with the bearing vectors and the
relative pose read from the adapter passed as arguments. `A.inverse()` of a 2x2 matrix is the
adjugate over the determinant; `none` is a zero determinant (non-finite result). -/
noncomputable def triangulate2 (t12 : Vec3) (R12 : Mat3) (f1 f2 : Vec3) : Option Vec3 :=
  let f2u := R12 *ᵥ f2
  let b0 := t12 ⬝ᵥ f1
  let b1 := t12 ⬝ᵥ f2u
  let a00 := f1 ⬝ᵥ f1
  let a10 := f1 ⬝ᵥ f2u
  let a01 := -a10
  let a11 := -(f2u ⬝ᵥ f2u)
  let det := a00 * a11 - a01 * a10
  if det = 0 then none
  else
    let l0 := (a11 * b0 - a01 * b1) / det
    let l1 := (-a10 * b0 + a00 * b1) / det
    let xm := l0 • f1
    let xn := t12 + l1 • f2u
    some ((1 / 2 : ℝ) • (xm + xn))

/-- The matrix of `triangulate` (src/triangulation/methods.cpp lines 40-54): `P1 = [I | 0]`,
`P2 = [R12ᵀ | -R12ᵀ t12]`. -/
noncomputable def triangulateA (t12 : Vec3) (R12 : Mat3) (f1 f2 : Vec3) :
    Matrix (Fin 4) (Fin 4) ℝ :=
  let P1 : Matrix (Fin 3) (Fin 4) ℝ := !![1, 0, 0, 0; 0, 1, 0, 0; 0, 0, 1, 0]
  let u := -(R12.transpose *ᵥ t12)
  let P2 : Matrix (Fin 3) (Fin 4) ℝ := Matrix.of fun i => ![R12 0 i, R12 1 i, R12 2 i, u i]
  Matrix.of ![f1 0 • P1 2 - f1 2 • P1 0, f1 1 • P1 2 - f1 2 • P1 1,
    f2 0 • P2 2 - f2 2 • P2 0, f2 1 • P2 2 - f2 2 • P2 1]

/-- The result of `triangulate` from the matrix `V` of the decomposition (lines 56-61); `none` is a
division by zero. -/
noncomputable def triangulateFromV (V : Matrix (Fin 4) (Fin 4) ℝ) : Option Vec3 :=
  if V 3 3 = 0 then none else some ![V 0 3 / V 3 3, V 1 3 / V 3 3, V 2 3 / V 3 3]

/-! ## Scores -/

/-- The reprojection part of the two-view scores, e.g.
MultiNoncentralRelativePoseSacProblem.cpp lines 296-328: normalise the point and its coordinates in
the second frame, and compare with `m1`, `m2`. -/
noncomputable def reprojScore (t : Vec3) (R : Mat3) (p m1 m2 : Vec3) : Option ℝ :=
  match normalize3 p, normalize3 (R.transpose *ᵥ p + -(R.transpose *ᵥ t)) with
  | some r1, some r2 => some ((1 - m1 ⬝ᵥ r1) + (1 - m2 ⬝ᵥ r2))
  | _, _ => none

/-- The two-view score of one correspondence: triangulate, then compare
(CentralRelativePoseSacProblem.cpp lines 273-289, and likewise in TranslationOnly-, Eigensolver- and
NoncentralRelativePoseSacProblem.cpp). -/
noncomputable def relScore (t : Vec3) (R : Mat3) (f1 f2 : Vec3) : Option ℝ :=
  match triangulate2 t R f1 f2 with
  | none => none
  | some p => reprojScore t R p f1 f2

/-- The relative pose between two camera positions from the body pose and the extrinsics
(MultiNoncentralRelativePoseSacProblem.cpp lines 287-291,
NoncentralRelativePoseSacProblem.cpp likewise). -/
noncomputable def directTranslation (t : Vec3) (R : Mat3) (o1 o2 : Vec3) (C1 : Mat3) : Vec3 :=
  C1.transpose *ᵥ ((t - o1) + R *ᵥ o2)

noncomputable def directRotation (R C1 C2 : Mat3) : Mat3 := C1.transpose * R * C2

open MultiAdapter in
/-- Inner loop of `getSelectedDistancesToModel` of the multi-camera relative problems
(MultiNoncentralRelativePoseSacProblem.cpp lines 302-328, MultiCentralRelativePoseSacProblem.cpp
lines 129-160): `todo` are the remaining entries of `indices[camIndex]`, `k` is
`correspondenceIndex`. The triangulation uses the entry, the comparison uses `k`. -/
noncomputable def multiScoresInner (tb : Tables) (data1 data2 : List (List Vec3)) (t : Vec3)
    (R : Mat3) (cam : ℕ) : (todo : List ℕ) → (k : ℕ) → (acc : List ℝ) → Option (List ℝ)
  | [], _, acc => some acc
  | i :: is, k, acc =>
    match convertMultiIndex tb cam i with
    | none => none
    | some s =>
      match getSerial tb data1 s, getSerial tb data2 s, getMulti data1 cam k,
        getMulti data2 cam k with
      | some g1, some g2, some f1, some f2 =>
        match triangulate2 t R g1 g2 with
        | none => none
        | some p =>
          match reprojScore t R p f1 f2 with
          | none => none
          | some sc => multiScoresInner tb data1 data2 t R cam is (k + 1) (acc ++ [sc])
      | _, _, _, _ => none

open MultiAdapter in
/-- Outer loop of `getSelectedDistancesToModel` (MultiNoncentralRelativePoseSacProblem.cpp
lines 280-329; `poses` gives the relative pose of each camera pair, i.e. `directTranslation` and
`directRotation`, or `model[pairIndex]` in MultiCentralRelativePoseSacProblem.cpp lines 124-161). -/
noncomputable def multiScoresOuter (tb : Tables) (data1 data2 : List (List Vec3))
    (poses : ℕ → Vec3 × Mat3) : (cam : ℕ) → List (List ℕ) → Option (List (List ℝ))
  | _, [] => some []
  | cam, ix :: ixs =>
    match multiScoresInner tb data1 data2 (poses cam).1 (poses cam).2 cam ix 0 [] with
    | none => none
    | some sc =>
      match multiScoresOuter tb data1 data2 poses (cam + 1) ixs with
      | none => none
      | some rest => some (sc :: rest)

open MultiAdapter in
/-- `getSelectedDistancesToModel` of the multi-camera relative problems. -/
noncomputable def multiScores (data1 data2 : List (List Vec3)) (poses : ℕ → Vec3 × Mat3)
    (indices : List (List ℕ)) : Option (List (List ℝ)) :=
  multiScoresOuter (tables (data2.map List.length)) data1 data2 poses 0 indices

end OpenGV
