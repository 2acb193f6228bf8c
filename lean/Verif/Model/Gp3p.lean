import Verif.Model.Gp3pTable
import Verif.Model.Gp3pInit
import Verif.Model.Adapters
import Verif.Model.Cayley
import Mathlib.Data.Complex.Basic

/-!
# Model of `gp3p`

The solver for the pose of a non-central camera from three points
(src/absolute_pose/methods.cpp l.190-232, src/absolute_pose/modules/main.cpp l.375-436). The results
of Eigen's `EigenSolver` are an argument.
-/

open Matrix

namespace OpenGV

/-- The action matrix `M` (modules/main.cpp l.387-390). -/
def gp3pM (G : GMat ℝ) : Matrix (Fin 8) (Fin 8) ℝ := Matrix.of fun i j =>
  if (i : ℕ) < 6 then -G (36 + i) (77 + j)
  else if (i : ℕ) = 6 then if (j : ℕ) = 0 then 1 else 0
  else if (j : ℕ) = 6 then 1 else 0

/-- `cayley` and `n` read from an eigenvector (l.402-411). -/
noncomputable def gp3pRead (w : Fin 8 → ℂ) : Vec3 × Vec3 :=
  (![(w 6 / w 7).re, (w 5 / w 7).re, (w 4 / w 7).re], ![(w 3 / w 7).re, (w 2 / w 7).re, (w 1 / w 7).re])

/-- The pose from `cayley` and `n` (l.413-433): the rotation and the translation. The columns of `f`,
`v` and `p` belong to the three correspondences. -/
noncomputable def gp3pPose (f v p : Mat3) (cayley n : Vec3) : Mat3 × Vec3 :=
  let rotation := (cayley2rot cayley)ᵀ
  let centerCam := ∑ i, rotation *ᵥ (n i • f.col i + v.col i)
  let centerWorld := ∑ i, p.col i
  (rotation, (1 / 3 : ℝ) • centerWorld - (1 / 3 : ℝ) • centerCam)

open Classical in
/-- One pass of the loop over the eigenvalues (l.396-435): `none` if nothing is pushed; `some none` is
a matrix with NaN entries, from a division by zero. -/
noncomputable def gp3pCandidate (f v p : Mat3) (d : ℂ) (w : Fin 8 → ℂ) :
    Option (Option (Mat3 × Vec3)) :=
  if d.im < 0.0001 then
    if w 7 = 0 then some none
    else some (some (gp3pPose f v p (gp3pRead w).1 (gp3pRead w).2))
  else none

/-- `gp3p_main` (l.375-436). `eig` gives the results of `EigenSolver`; `none` is a division by zero in
the elimination. -/
noncomputable def gp3pMain (f v p : Mat3)
    (eig : Matrix (Fin 8) (Fin 8) ℝ → (Fin 8 → ℂ) × Matrix (Fin 8) (Fin 8) ℂ) :
    Option (List (Option (Mat3 × Vec3))) :=
  (gRun (Gp3p.init f v p) Gp3p.compute).map fun G =>
    (List.finRange 8).filterMap fun i =>
      gp3pCandidate f v p ((eig (gp3pM G)).1 i) fun k => (eig (gp3pM G)).2 k i

/-- The columns `f`, `v` and `p` of three correspondences (methods.cpp l.201-212). -/
def gp3pCols (obs : Fin 3 → Adapters.AbsObs) : Mat3 × Mat3 × Mat3 :=
  (Matrix.of fun k i => ((obs i).rot *ᵥ (obs i).f) k,
    Matrix.of fun k i => (obs i).off k, Matrix.of fun k i => (obs i).p k)

/-- `gp3p` for three indices (methods.cpp l.190-232). The outer `none` is an access outside the
vectors. -/
noncomputable def gp3p (A : Adapters.AbsAdapter) (i0 i1 i2 : ℕ)
    (eig : Matrix (Fin 8) (Fin 8) ℝ → (Fin 8 → ℂ) × Matrix (Fin 8) (Fin 8) ℂ) :
    Option (Option (List (Option (Mat3 × Vec3)))) :=
  match A.read i0, A.read i1, A.read i2 with
  | some a, some b, some c =>
    let m := gp3pCols ![a, b, c]
    some (gp3pMain m.1 m.2.1 m.2.2 eig)
  | _, _, _ => none

end OpenGV
