import Verif.Model.Adapters
import Verif.Model.RelativePose

/-!
# Model of `seventeenpt` (src/relative_pose/methods.cpp lines 859-1059)

The generalised relative pose from lines in two body frames. The observations are those read from
the adapter. Eigen's `JacobiSVD` enters through the structure `SvdDeps`.
-/

namespace OpenGV.Seventeen

open Matrix Adapters

/-- The bearing vectors in the body frame, `d1 = R1*d1`, and the Plücker moments `v.cross(d)`
(lines 872-888 and 975-983, 998-999). -/
def dir1 (o : RelObs) : Vec3 := o.rot1 *ᵥ o.f1
def dir2 (o : RelObs) : Vec3 := o.rot2 *ᵥ o.f2
def mom1 (o : RelObs) : Vec3 := crossProduct o.off1 (dir1 o)
def mom2 (o : RelObs) : Vec3 := crossProduct o.off2 (dir2 o)

/-- A row of `AE` (lines 891-899). -/
def rowE (o : RelObs) : Fin 9 → ℝ :=
  let d1 := dir1 o
  let d2 := dir2 o
  ![d2 0 * d1 0, d2 0 * d1 1, d2 0 * d1 2, d2 1 * d1 0, d2 1 * d1 1, d2 1 * d1 2,
    d2 2 * d1 0, d2 2 * d1 1, d2 2 * d1 2]

/-- A row of `AR` (lines 901-909). -/
def rowR (o : RelObs) : Fin 9 → ℝ :=
  let d1 := dir1 o
  let d2 := dir2 o
  let m1 := mom1 o
  let m2 := mom2 o
  ![d2 0 * m1 0 + m2 0 * d1 0, d2 0 * m1 1 + m2 0 * d1 1, d2 0 * m1 2 + m2 0 * d1 2,
    d2 1 * m1 0 + m2 1 * d1 0, d2 1 * m1 1 + m2 1 * d1 1, d2 1 * m1 2 + m2 1 * d1 2,
    d2 2 * m1 0 + m2 2 * d1 0, d2 2 * m1 1 + m2 2 * d1 1, d2 2 * m1 2 + m2 2 * d1 2]

def matE (obs : List RelObs) : Matrix (Fin obs.length) (Fin 9) ℝ := Matrix.of fun i => rowE obs[i]

def matR (obs : List RelObs) : Matrix (Fin obs.length) (Fin 9) ℝ := Matrix.of fun i => rowR obs[i]

/-- `NumTraits<double>::epsilon()`. -/
noncomputable def machineEps : ℝ := 1 / 2 ^ 52

/-- The tolerance `sigma_(0)*numberCorrespondences*NumTraits<double>::epsilon()`
(lines 917-918, 1010-1011, 1028). -/
noncomputable def tolerance (n : ℕ) (s0 : ℝ) : ℝ := s0 * n * machineEps

open Classical in
/-- The diagonal of `SigmaInverse` (lines 919-926, 1012-1019, 1029-1035). -/
noncomputable def sigmaInverse {k : ℕ} (tol : ℝ) (σ : Fin k → ℝ) : Fin k → ℝ :=
  fun i => if σ i > tol then 1 / σ i else 0

/-- `matrixV()*SigmaInverse*matrixU().transpose()` (lines 929, 1022, 1037). -/
noncomputable def pinv {n k : ℕ} (tol : ℝ) (U : Matrix (Fin n) (Fin k) ℝ) (σ : Fin k → ℝ)
    (V : Matrix (Fin k) (Fin k) ℝ) : Matrix (Fin k) (Fin n) ℝ :=
  V * diagonal (sigmaInverse tol σ) * U.transpose

/-- The singular value decompositions used: of `AR` (thin, line 911), of `C` (the matrix `V`,
line 937), of the essential matrix (full, line 948) and of the translation systems (thin, lines
1004, 1024). -/
structure SvdDeps where
  svd9 : ∀ n, Matrix (Fin n) (Fin 9) ℝ →
    Matrix (Fin n) (Fin 9) ℝ × (Fin 9 → ℝ) × Matrix (Fin 9) (Fin 9) ℝ
  svdC : ∀ n, Matrix (Fin n) (Fin 9) ℝ → Matrix (Fin 9) (Fin 9) ℝ
  svdE : Mat3 → Mat3 × Mat3
  svd3 : ∀ n, Matrix (Fin n) (Fin 3) ℝ → Matrix (Fin n) (Fin 3) ℝ × (Fin 3 → ℝ) × Mat3

/-- `C = (AR*ARP - I)*AE` (lines 928-935). -/
noncomputable def matC (D : SvdDeps) (obs : List RelObs) : Matrix (Fin obs.length) (Fin 9) ℝ :=
  let s := D.svd9 obs.length (matR obs)
  let ARP := pinv (tolerance obs.length (s.2.1 0)) s.1 s.2.1 s.2.2
  (-1 + matR obs * ARP) * matE obs

/-- The essential matrix (lines 937-946). -/
noncomputable def essential (D : SvdDeps) (obs : List RelObs) : Mat3 :=
  unvec fun i => D.svdC obs.length (matC D obs) i 8

/-- `Ra` and `Rb` (lines 953-968). -/
noncomputable def rotations (D : SvdDeps) (E : Mat3) : Mat3 × Mat3 :=
  let s := D.svdE E
  ((fixSign (s.1 * wMat * s.2.transpose)).transpose,
    (fixSign (s.1 * wMat.transpose * s.2.transpose)).transpose)

/-- A row of `A_tra`, resp. `A_trb` (lines 985-997). -/
def rowT (R : Mat3) (o : RelObs) : Vec3 :=
  let d1 := dir1 o
  let d2 := dir2 o
  ![d1 2 * d2 0 * R 1 0 + d1 2 * d2 1 * R 1 1 + d1 2 * d2 2 * R 1 2
      - d1 1 * d2 0 * R 2 0 - d1 1 * d2 1 * R 2 1 - d1 1 * d2 2 * R 2 2,
    d1 0 * d2 0 * R 2 0 + d1 0 * d2 1 * R 2 1 + d1 0 * d2 2 * R 2 2
      - d1 2 * d2 0 * R 0 0 - d1 2 * d2 1 * R 0 1 - d1 2 * d2 2 * R 0 2,
    d1 1 * d2 0 * R 0 0 + d1 1 * d2 1 * R 0 1 + d1 1 * d2 2 * R 0 2
      - d1 0 * d2 0 * R 1 0 - d1 0 * d2 1 * R 1 1 - d1 0 * d2 2 * R 1 2]

/-- An entry of `b_tra`, resp. `b_trb` (lines 998-1001). -/
def rhsT (R : Mat3) (o : RelObs) : ℝ :=
  -(dir1 o ⬝ᵥ (R *ᵥ mom2 o)) - mom1 o ⬝ᵥ (R *ᵥ dir2 o)

def matT (R : Mat3) (obs : List RelObs) : Matrix (Fin obs.length) (Fin 3) ℝ :=
  Matrix.of fun i => rowT R obs[i]

def vecT (R : Mat3) (obs : List RelObs) : Fin obs.length → ℝ := fun i => rhsT R obs[i]

/-- `ta`, resp. `tb` (lines 1004-1023, 1024-1038). -/
noncomputable def translation (D : SvdDeps) (R : Mat3) (obs : List RelObs) : Vec3 :=
  let s := D.svd3 obs.length (matT R obs)
  pinv (tolerance obs.length (s.2.1 0)) s.1 s.2.1 s.2.2 *ᵥ vecT R obs

/-- `fita.norm()`, resp. `fitb.norm()` (lines 1040-1041, 1044). -/
noncomputable def fit (D : SvdDeps) (R : Mat3) (obs : List RelObs) : ℝ :=
  let r := matT R obs *ᵥ translation D R obs - vecT R obs
  Real.sqrt (r ⬝ᵥ r)

open Classical in
/-- `seventeenpt`. With fewer than nine correspondences `sigma_(i)` is read out of range (`none`); the
assert asks for 17. -/
noncomputable def seventeenpt (D : SvdDeps) (obs : List RelObs) : Option Pose :=
  if obs.length < 9 then none
  else
    let Ra := (rotations D (essential D obs)).1
    let Rb := (rotations D (essential D obs)).2
    if fit D Ra obs < fit D Rb obs then some (translation D Ra obs, Ra)
    else some (translation D Rb obs, Rb)

end OpenGV.Seventeen
