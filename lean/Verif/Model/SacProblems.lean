import Verif.Model.Triangulation

/-!
# Model of the sample consensus problems (`src/sac_problems`)

A pose is a pair `(t, R)`, the columns of the 3x4 `model_t`. A score is `none` when it is NaN; a NaN
never compares as smaller.
-/

namespace OpenGV

open Matrix

/-- A transformation `(t, R)`. -/
abbrev Pose := Vec3 × Mat3

/-! ## Choosing among candidates -/

/-- The search loop `if( score < minScore ) { minScore = score; minIndex = i; }`
(AbsolutePoseSacProblem.cpp lines 120-154, MultiNoncentralAbsolutePoseSacProblem.cpp lines 73-106,
CentralRelativePoseSacProblem.cpp lines 190-197, NoncentralRelativePoseSacProblem.cpp
lines 187-192). `i` is the index of the head of the remaining scores; `best` is the current minimum
and its index (`-1` is `none`). -/
noncomputable def minLoop : (scores : List (Option ℝ)) → (i : ℕ) → (minScore : ℝ) →
    (minIndex : Option ℕ) → Option ℕ
  | [], _, _, minIndex => minIndex
  | none :: ss, i, minScore, minIndex => minLoop ss (i + 1) minScore minIndex
  | some s :: ss, i, minScore, minIndex =>
    open Classical in
    if s < minScore then minLoop ss (i + 1) s (some i) else minLoop ss (i + 1) minScore minIndex

/-- `minScore = 1000000.0`. -/
def initialScore : ℝ := 1000000

/-- The end of `computeModelCoefficients` (AbsolutePoseSacProblem.cpp lines 112-160,
MultiNoncentralAbsolutePoseSacProblem.cpp lines 67-112): a single candidate is taken without
scoring; otherwise the candidate with the smallest score. `none` is `return false`. -/
noncomputable def pickCandidate {M : Type} (score : M → Option ℝ) (solutions : List M) : Option M :=
  match solutions with
  | [m] => some m
  | _ =>
    match minLoop (solutions.map score) 0 initialScore none with
    | none => none
    | some i => solutions[i]?

/-! ## Body frame -/

/-- Camera pose to body pose in the absolute problems (AbsolutePoseSacProblem.cpp lines 50-54,
69-76, 86-93, 103-106; MultiNoncentralAbsolutePoseSacProblem.cpp lines 54-64). -/
def toBodyAbs (P : Pose) (o : Vec3) (C : Mat3) : Pose :=
  (P.1 - (P.2 * C.transpose) *ᵥ o, P.2 * C.transpose)

/-- Camera-to-camera pose to body pose in the relative problems
(NoncentralRelativePoseSacProblem.cpp lines 213-223, and with one camera
MultiNoncentralRelativePoseSacProblem.cpp lines 256-265). -/
def toBodyRel (P : Pose) (o1 o2 : Vec3) (C1 C2 : Mat3) : Pose :=
  let R := C1 * P.2 * C2.transpose
  (o1 + C1 *ᵥ P.1 - R *ᵥ o2, R)

/-! ## Scores -/

/-- The coordinates of a world point in a camera on the body: `inverseSolution * p_hom`, then the
camera's extrinsics (AbsolutePoseSacProblem.cpp lines 124-138, 170-190). -/
def absReprojection (P : Pose) (o : Vec3) (C : Mat3) (p : Vec3) : Vec3 :=
  C.transpose *ᵥ ((P.2.transpose *ᵥ p + -(P.2.transpose *ᵥ P.1)) - o)

/-- The absolute pose score (AbsolutePoseSacProblem.cpp lines 140-145, 191-195). -/
noncomputable def absScore (P : Pose) (o : Vec3) (C : Mat3) (p f : Vec3) : Option ℝ :=
  match normalize3 (absReprojection P o C p) with
  | none => none
  | some r => some (1 - r ⬝ᵥ f)

/-- Score of the non-central relative problems for one correspondence
(NoncentralRelativePoseSacProblem.cpp lines 240-281). -/
noncomputable def noncentralRelScore (P : Pose) (o1 o2 : Vec3) (C1 C2 : Mat3) (f1 f2 : Vec3) :
    Option ℝ :=
  relScore (directTranslation P.1 P.2 o1 o2 C1) (directRotation P.2 C1 C2) f1 f2

/-- Score of the rotation-only problem (RotationOnlySacProblem.cpp lines 57-67). -/
noncomputable def rotScore (R : Mat3) (f1 f2 : Vec3) : ℝ := 1 - f1 ⬝ᵥ (R *ᵥ f2)

/-- Score of the point cloud problem (PointCloudSacProblem.cpp lines 52-61). -/
noncomputable def cloudScore (P : Pose) (p1 p2 : Vec3) : ℝ := norm3 (p1 - (P.2 *ᵥ p2 + P.1))

/-- The score loops: `scores.push_back(...)` for every entry of `indices`, e.g.
AbsolutePoseSacProblem.cpp lines 176-196. `data i` is the score of correspondence `i`, `acc` the
content of the output vector before the call. A NaN score is pushed like any other. -/
def scoreLoop (data : ℕ → Option ℝ) : (indices : List ℕ) → (acc : List (Option ℝ)) →
    List (Option ℝ)
  | [], acc => acc
  | i :: is, acc => scoreLoop data is (acc ++ [data i])

/-- The quality of a candidate in the relative problems: the sum of the scores of some
correspondences (CentralRelativePoseSacProblem.cpp lines 169-190,
NoncentralRelativePoseSacProblem.cpp lines 143-184); NaN if one of them is. -/
noncomputable def quality (score : ℕ → Option ℝ) : List ℕ → Option ℝ
  | [] => some 0
  | k :: ks =>
    match score k, quality score ks with
    | some s, some q => some (s + q)
    | _, _ => none

end OpenGV
