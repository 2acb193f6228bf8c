import Verif.Model.GpnpInit
import Verif.Model.Gpnp1Table
import Verif.Model.Gpnp2Table
import Verif.Model.Gpnp3Table
import Verif.Model.Gpnp4Table
import Verif.Model.Gpnp5Table
import Verif.Model.Arun
import Verif.Model.Epnp

/-!
# Model of GPnP

`gpnp` (src/absolute_pose/methods.cpp l.307-419) and `gpnp_main`, `gpnp_evaluate`, `gpnp_optimize`
(src/absolute_pose/modules/main.cpp l.438-704). Line numbers without a file refer to the latter.

Real arithmetic is exact. Eigen's decompositions and its Levenberg-Marquardt solver are parameters.
A candidate with a factor that is not finite has the error NaN.
-/

namespace OpenGV

open Matrix

/-- One correspondence: the point, the offset and rotation of its camera and the bearing vector. -/
structure GpnpObs where
  P : Vec3
  off : Vec3
  rot : Mat3
  b : Vec3

/-- The bearing vector in the viewpoint frame (methods.cpp l.367). -/
def GpnpObs.f (o : GpnpObs) : Vec3 := o.rot *ᵥ o.b

/-- Centroid (methods.cpp l.314-317). -/
noncomputable def gpnpCentroid (obs : List GpnpObs) : Vec3 :=
  (obs.length : ℝ)⁻¹ • (obs.map GpnpObs.P).sum

/-- Centred points (methods.cpp l.320-322). -/
noncomputable def gpnpCloud (obs : List GpnpObs) : List Vec3 :=
  obs.map fun o => o.P - gpnpCentroid obs

/-- Control points (methods.cpp l.330-337). -/
def gpnpCtrl (c0 : Vec3) (U : Mat3) : Fin 4 → Vec3 :=
  ![c0, c0 + (15 : ℝ) • U.transpose 0, c0 + (15 : ℝ) • U.transpose 1, c0 + (15 : ℝ) • U.transpose 2]

/-- Weights of a centred point (methods.cpp l.340-357). -/
noncomputable def gpnpWeights (c : Fin 4 → Vec3) (p : Vec3) : Fin 4 → ℝ :=
  let w1 := p ⬝ᵥ (c 1 - c 0) / ((c 1 - c 0) ⬝ᵥ (c 1 - c 0))
  let w2 := p ⬝ᵥ (c 2 - c 0) / ((c 2 - c 0) ⬝ᵥ (c 2 - c 0))
  let w3 := p ⬝ᵥ (c 3 - c 0) / ((c 3 - c 0) ⬝ᵥ (c 3 - c 0))
  ![1 - (w1 + w2 + w3), w1, w2, w3]

/-- The rows `2*i` and `2*i+1` of `A` (methods.cpp l.369-385). -/
def gpnpRow (w : Fin 4 → ℝ) (f : Vec3) : Fin 2 → Fin 12 → ℝ :=
  ![![w 0 * f 2, 0, -w 0 * f 0, w 1 * f 2, 0, -w 1 * f 0,
      w 2 * f 2, 0, -w 2 * f 0, w 3 * f 2, 0, -w 3 * f 0],
    ![0, w 0 * f 2, -w 0 * f 1, 0, w 1 * f 2, -w 1 * f 1,
      0, w 2 * f 2, -w 2 * f 1, 0, w 3 * f 2, -w 3 * f 1]]

/-- The entries `2*i` and `2*i+1` of `b` (methods.cpp l.387-388). -/
def gpnpRhs (off f : Vec3) : Fin 2 → ℝ :=
  ![f 2 * off 0 - f 0 * off 2, f 2 * off 1 - f 1 * off 2]

/-- The matrix `A`; the row `2*i+j` has the index `(i, j)`. -/
noncomputable def gpnpA (obs : List GpnpObs) (c : Fin 4 → Vec3) :
    Matrix (Fin obs.length × Fin 2) (Fin 12) ℝ :=
  Matrix.of fun r => gpnpRow (gpnpWeights c ((obs.get r.1).P - c 0)) (obs.get r.1).f r.2

/-- The vector `b`. -/
def gpnpB (obs : List GpnpObs) : Fin obs.length × Fin 2 → ℝ :=
  fun r => gpnpRhs (obs.get r.1).off (obs.get r.1).f r.2

/-- The matrix `V * invD` applied to `U.transpose() * b` (methods.cpp l.397-414). -/
noncomputable def gpnpIntercept {m : Type} [Fintype m] (U : Matrix m (Fin 12) ℝ) (D : Fin 12 → ℝ)
    (V : Matrix (Fin 12) (Fin 12) ℝ) (b : m → ℝ) : Fin 12 → ℝ :=
  (V * Matrix.diagonal (fun i => if D i > 1 / 1000000 then 1 / D i else 0) * U.transpose) *ᵥ b

/-! ### Factors -/

/-- The factor of one null-space vector (l.477). -/
noncomputable def Gpnp1.factors (G : GMat ℝ) : Option (List ℝ) :=
  if G 3 1 = 0 then none else some [-G 3 2 / G 3 1]

/-- The factors of two null-space vectors (l.491-494). -/
noncomputable def Gpnp2.factors (G : GMat ℝ) : Option (List ℝ) :=
  if G 8 4 = 0 ∨ G 7 3 = 0 then none
  else
    let x0 := -G 8 5 / G 8 4
    let x1 := -(G 7 4 * x0 + G 7 5) / G 7 3
    some [x0, x1]

/-- The factors of three null-space vectors (l.508-514). -/
noncomputable def Gpnp3.factors (G : GMat ℝ) : Option (List ℝ) :=
  if G 13 16 = 0 ∨ G 12 15 = 0 ∨ G 11 14 = 0 then none
  else
    let x0 := -G 13 17 / G 13 16
    let x1 := -(G 12 16 * x0 + G 12 17) / G 12 15
    let x2 := -(G 11 15 * x1 + G 11 16 * x0 + G 11 17) / G 11 14
    some [x0, x1, x2]

/-- The factors of four null-space vectors (l.528-538). -/
noncomputable def Gpnp4.factors (G : GMat ℝ) : Option (List ℝ) :=
  if G 23 35 = 0 ∨ G 22 34 = 0 ∨ G 21 33 = 0 ∨ G 20 32 = 0 then none
  else
    let x0 := -G 23 36 / G 23 35
    let x1 := -(G 22 35 * x0 + G 22 36) / G 22 34
    let x2 := -(G 21 34 * x1 + G 21 35 * x0 + G 21 36) / G 21 33
    let x3 := -(G 20 33 * x2 + G 20 34 * x1 + G 20 35 * x0 + G 20 36) / G 20 32
    some [x0, x1, x2, x3]

/-- The factors of five null-space vectors (l.552-566). The last one takes `factors[1]` twice
(l.564-565). -/
noncomputable def Gpnp5.factors (G : GMat ℝ) : Option (List ℝ) :=
  if G 42 78 = 0 ∨ G 41 77 = 0 ∨ G 40 76 = 0 ∨ G 39 75 = 0 ∨ G 38 74 = 0 then none
  else
    let x0 := -G 42 79 / G 42 78
    let x1 := -(G 41 78 * x0 + G 41 79) / G 41 77
    let x2 := -(G 40 77 * x1 + G 40 78 * x0 + G 40 79) / G 40 76
    let x3 := -(G 39 76 * x2 + G 39 77 * x1 + G 39 78 * x0 + G 39 79) / G 39 75
    let x4 := -(G 38 75 * x3 + G 38 76 * x1 + G 38 77 * x1 + G 38 78 * x0 + G 38 79) / G 38 74
    some [x0, x1, x2, x3, x4]

/-- The factors before refinement, with `k` null-space vectors (l.446-450, 473-477, 488-494, 504-514,
524-538, 548-566). All four points passed to `init` are `c[0]` (l.452-455). -/
noncomputable def gpnpFactors (a : Fin 12 → ℝ) (V : Matrix (Fin 12) (Fin 12) ℝ) (c : Fin 4 → Vec3)
    (k : ℕ) : Option (List ℝ) :=
  let vec5 := V.transpose 7
  let vec4 := V.transpose 8
  let vec3 := V.transpose 9
  let vec2 := V.transpose 10
  let vec1 := V.transpose 11
  let c0 := c 0
  let c1 := c 0
  let c2 := c 0
  let c3 := c 0
  match k with
  | 1 => (gRun (Gpnp1.init a vec1 c0 c1 c2 c3) Gpnp1.compute).bind Gpnp1.factors
  | 2 => (gRun (Gpnp2.init a vec2 vec1 c0 c1 c2 c3) Gpnp2.compute).bind Gpnp2.factors
  | 3 => (gRun (Gpnp3.init a vec3 vec2 vec1 c0 c1 c2 c3) Gpnp3.compute).bind Gpnp3.factors
  | 4 => (gRun (Gpnp4.init a vec4 vec3 vec2 vec1 c0 c1 c2 c3) Gpnp4.compute).bind Gpnp4.factors
  | 5 => (gRun (Gpnp5.init a vec5 vec4 vec3 vec2 vec1 c0 c1 c2 c3) Gpnp5.compute).bind Gpnp5.factors
  | _ => none

/-! ### Candidates -/

/-- Eigen: `svdU` gives `U` of the centred points, `svdA` the thin decomposition of `A`, `svd3` the
factors of a 3x3 matrix, `lm` the result of `gpnp_optimize` (l.679-704). -/
structure GpnpDeps where
  svdU : List Vec3 → Mat3
  svdA : (obs : List GpnpObs) → Matrix (Fin obs.length × Fin 2) (Fin 12) ℝ →
    Matrix (Fin obs.length × Fin 2) (Fin 12) ℝ × (Fin 12 → ℝ) × Matrix (Fin 12) (Fin 12) ℝ
  svd3 : Mat3 → Mat3 × Mat3
  lm : (Fin 12 → ℝ) → Matrix (Fin 12) (Fin 12) ℝ → (Fin 4 → Vec3) → List ℝ → List ℝ

/-- `solution`: the intercept plus the combination of the last columns of `V` (l.479-481). -/
def gpnpSolution (a : Fin 12 → ℝ) (V : Matrix (Fin 12) (Fin 12) ℝ) (factors : List ℝ) : Fin 12 → ℝ :=
  a + ∑ i : Fin factors.length, factors.get i • V.transpose (Fin.ofNat 12 (12 - factors.length + i))

/-- The control points in the camera frame (l.598-600). -/
def gpnpCcam (x : Fin 12 → ℝ) (i : Fin 4) : Vec3 := fun k => x ⟨3 * i + k, by omega⟩

/-- One summand of the error (l.608-613); the quotient of zeros is NaN. -/
noncomputable def gpnpErr1 (R : Mat3) (t c ccam : Vec3) : FErr :=
  let rep := R.transpose *ᵥ (c - t)
  if norm3 ccam * norm3 rep = 0 then .nan else .fin (1 - rep ⬝ᵥ ccam / (norm3 ccam * norm3 rep))

/-- `gpnp_evaluate` (l.591-617). -/
noncomputable def gpnpEvaluate (svd : Mat3 → Mat3 × Mat3) (x : Fin 12 → ℝ) (c : Fin 4 → Vec3) :
    FErr × Vec3 × Mat3 :=
  match arunComplete svd [(c 0, gpnpCcam x 0), (c 1, gpnpCcam x 1), (c 2, gpnpCcam x 2),
      (c 3, gpnpCcam x 3)] with
  | none => (.nan, 0, 0)
  | some (t, R) =>
    (((((FErr.fin 0).add (gpnpErr1 R t (c 0) (gpnpCcam x 0))).add
      (gpnpErr1 R t (c 1) (gpnpCcam x 1))).add (gpnpErr1 R t (c 2) (gpnpCcam x 2))).add
      (gpnpErr1 R t (c 3) (gpnpCcam x 3)), t, R)

/-- The candidate with `k` null-space vectors (l.478-484 and the repetitions below). -/
noncomputable def gpnpCandidate (D : GpnpDeps) (a : Fin 12 → ℝ) (V : Matrix (Fin 12) (Fin 12) ℝ)
    (c : Fin 4 → Vec3) (k : ℕ) : FErr × Vec3 × Mat3 :=
  match gpnpFactors a V c k with
  | none => (.nan, 0, 0)
  | some fs => gpnpEvaluate D.svd3 (gpnpSolution a V (D.lm a V c fs)) c

open Classical in
/-- The choice of the least error (l.575-588). -/
noncomputable def gpnpSelect (best : FErr × Vec3 × Mat3) (rest : List (FErr × Vec3 × Mat3)) :
    FErr × Vec3 × Mat3 :=
  rest.foldl (fun best x => if x.1.lt best.1 then x else best) best

/-- `gpnp_main` (l.438-589). -/
noncomputable def gpnpMain (D : GpnpDeps) (a : Fin 12 → ℝ) (V : Matrix (Fin 12) (Fin 12) ℝ)
    (c : Fin 4 → Vec3) : Vec3 × Mat3 :=
  (gpnpSelect (gpnpEvaluate D.svd3 a c) ([1, 2, 3, 4, 5].map (gpnpCandidate D a V c))).2

/-- `gpnp` (methods.cpp l.307-419); `none` is a failed assertion. -/
noncomputable def gpnp (D : GpnpDeps) (obs : List GpnpObs) : Option (Vec3 × Mat3) :=
  if obs.length ≤ 5 then none
  else
    let c := gpnpCtrl (gpnpCentroid obs) (D.svdU (gpnpCloud obs))
    let S := D.svdA obs (gpnpA obs c)
    some (gpnpMain D (gpnpIntercept S.1 S.2.1 S.2.2 (gpnpB obs)) S.2.2 c)

end OpenGV
