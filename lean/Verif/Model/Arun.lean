import Verif.Model.Geometry
import Mathlib.LinearAlgebra.Matrix.Trace

/-!
# Model of `src/math/arun.cpp`, `src/point_cloud/methods.cpp` (threept_arun) and the rotation-only
solvers of `src/relative_pose/methods.cpp`

The decomposition computed by Eigen is a parameter `(U, V)`; theorems assume its contract.
-/

namespace OpenGV

open Matrix

open Classical in
/-- `arun` (src/math/arun.cpp lines 32-55) on the factors `U`, `V` of its argument. -/
noncomputable def arunR (U V : Mat3) : Mat3 :=
  let R := V * U.transpose
  if R.det < 0 then
    let V' : Mat3 := Matrix.of fun i => ![V i 0, V i 1, -V i 2]
    V' * U.transpose
  else R

/-- The sums of the two centroid loops (src/math/arun.cpp lines 64-74,
src/point_cloud/methods.cpp lines 54-64). -/
def sumLoop : List (Vec3 × Vec3) → Vec3 × Vec3 → Vec3 × Vec3
  | [], acc => acc
  | p :: ps, acc => sumLoop ps (acc.1 + p.1, acc.2 + p.2)

/-- The centroids; `none` is a division by zero. -/
noncomputable def centers (ps : List (Vec3 × Vec3)) : Option (Vec3 × Vec3) :=
  if ps.length = 0 then none
  else
    let s := sumLoop ps (0, 0)
    some ((ps.length : ℝ)⁻¹ • s.1, (ps.length : ℝ)⁻¹ • s.2)

/-- The loop for `Hcross` (src/math/arun.cpp lines 80-86, src/point_cloud/methods.cpp
lines 70-76). -/
def hcrossLoop (c1 c2 : Vec3) : List (Vec3 × Vec3) → Mat3 → Mat3
  | [], H => H
  | p :: ps, H => hcrossLoop c1 c2 ps (H + vecMulVec (p.2 - c2) (p.1 - c1))

def hcross (c1 c2 : Vec3) (ps : List (Vec3 × Vec3)) : Mat3 := hcrossLoop c1 c2 ps 0

/-- `arun_complete` (src/math/arun.cpp lines 57-97) and `threept_arun`
(src/point_cloud/methods.cpp lines 47-86), which differ in the access to the points only. `svd` is
Eigen's decomposition. The result is `(t, R)`. -/
noncomputable def arunComplete (svd : Mat3 → Mat3 × Mat3) (ps : List (Vec3 × Vec3)) :
    Option (Vec3 × Mat3) :=
  match centers ps with
  | none => none
  | some (c1, c2) =>
    let UV := svd (hcross c1 c2 ps)
    let R := arunR UV.1 UV.2
    some (c1 - R *ᵥ c2, R)

/-- `rotationOnly` (src/relative_pose/methods.cpp lines 128-159). -/
noncomputable def rotationOnly (svd : Mat3 → Mat3 × Mat3) (ps : List (Vec3 × Vec3)) : Option Mat3 :=
  match centers ps with
  | none => none
  | some (c1, c2) =>
    let UV := svd (hcross c1 c2 ps)
    some (arunR UV.1 UV.2)

/-- `twopt_rotationOnly` (src/relative_pose/methods.cpp lines 97-121); `(a1, a2)` and `(b1, b2)` are
the two correspondences. The sums are divided by 3, not by 2. -/
noncomputable def twoptRotationOnly (svd : Mat3 → Mat3 × Mat3) (a b : Vec3 × Vec3) : Mat3 :=
  let c1 := (3 : ℝ)⁻¹ • (a.1 + b.1)
  let c2 := (3 : ℝ)⁻¹ • (a.2 + b.2)
  let H := 0 + vecMulVec (a.2 - c2) (a.1 - c1) + vecMulVec (b.2 - c2) (b.1 - c1)
  let UV := svd H
  arunR UV.1 UV.2

end OpenGV
