import Verif.Model.Cayley
import Mathlib.LinearAlgebra.Matrix.NonsingularInverse
import Mathlib.Data.Matrix.Mul

/-!
# Model of UPnP

`upnp` of `src/absolute_pose/methods.cpp`, `upnp_fill_s`, `upnp_main` and `upnp_main_sym` of
`src/absolute_pose/modules/main.cpp`. The eigenvectors of the action matrix enter as an argument.
-/

namespace OpenGV

open Matrix

/-- One correspondence: `f` is `getCamRotation * getBearingVector`, `v` is `getCamOffset`, `p` is
`getPoint`. -/
structure UpnpObs where
  f : Vec3
  v : Vec3
  p : Vec3

/-- `fill3x10` (src/absolute_pose/methods.cpp lines 445-454). -/
def fill3x10 (x : Vec3) : Matrix (Fin 3) (Fin 10) ℝ :=
  let x1 := x 0
  let x2 := x 1
  let x3 := x 2
  !![x1, x1, -x1, -x1, 0, 2 * x3, -2 * x2, 2 * x2, 2 * x3, 0;
     x2, -x2, x2, -x2, -2 * x3, 0, 2 * x1, 2 * x1, 0, 2 * x3;
     x3, -x3, -x3, x3, 2 * x2, -2 * x1, 0, 0, 2 * x1, 2 * x2]

/-- `upnp_fill_s` (src/absolute_pose/modules/main.cpp lines 706-721). -/
def upnpFillS (q : Quat) : Fin 10 → ℝ :=
  ![q 0 * q 0, q 1 * q 1, q 2 * q 2, q 3 * q 3, q 0 * q 1, q 0 * q 2, q 0 * q 3, q 1 * q 2,
    q 1 * q 3, q 2 * q 3]

/-- `f * f.transpose() - Identity` (src/absolute_pose/methods.cpp lines 507, 527, 601 and 619). -/
def upnpTemp (f : Vec3) : Mat3 := vecMulVec f f - 1

/-- `H_inv` (src/absolute_pose/methods.cpp lines 490-497). -/
noncomputable def upnpHinv (obs : List UpnpObs) : Mat3 :=
  (obs.length : ℝ) • (1 : Mat3) - (obs.map fun o => vecMulVec o.f o.f).sum

/-- `H` (src/absolute_pose/methods.cpp line 498), meaningful if `H_inv` has an inverse. -/
noncomputable def upnpH (obs : List UpnpObs) : Mat3 := (upnpHinv obs)⁻¹

/-- `I` (src/absolute_pose/methods.cpp lines 500-514, and `I_cay` lines 595-606 for the rotated
points). -/
noncomputable def upnpI (obs : List UpnpObs) : Matrix (Fin 3) (Fin 10) ℝ :=
  (obs.map fun o => upnpH obs * upnpTemp o.f * fill3x10 o.p).sum

/-- `J` (src/absolute_pose/methods.cpp lines 501-514). -/
noncomputable def upnpJ (obs : List UpnpObs) : Vec3 :=
  (obs.map fun o => (upnpH obs * upnpTemp o.f) *ᵥ o.v).sum

/-- `Ai` (src/absolute_pose/methods.cpp line 528). -/
noncomputable def upnpA (obs : List UpnpObs) (o : UpnpObs) : Matrix (Fin 3) (Fin 10) ℝ :=
  upnpTemp o.f * (fill3x10 o.p + upnpI obs)

/-- `bi` (src/absolute_pose/methods.cpp line 529). -/
noncomputable def upnpB (obs : List UpnpObs) (o : UpnpObs) : Vec3 :=
  -(upnpTemp o.f *ᵥ (o.v + upnpJ obs))

/-- `M` (src/absolute_pose/methods.cpp lines 516-534; `M_cay` lines 608-626 for the rotated points:
`J` does not depend on the points). -/
noncomputable def upnpM (obs : List UpnpObs) : Matrix (Fin 10) (Fin 10) ℝ :=
  (obs.map fun o => (upnpA obs o).transpose * upnpA obs o).sum

/-- `C` (src/absolute_pose/methods.cpp lines 517-534). -/
noncomputable def upnpC (obs : List UpnpObs) : Fin 10 → ℝ :=
  (obs.map fun o => upnpB obs o ᵥ* upnpA obs o).sum

/-- `gamma` (src/absolute_pose/methods.cpp lines 518-534). -/
noncomputable def upnpGamma (obs : List UpnpObs) : ℝ :=
  (obs.map fun o => upnpB obs o ⬝ᵥ upnpB obs o).sum

/-- `value` (src/absolute_pose/modules/main.cpp lines 774-777 and 815-818). -/
def upnpEnergy (M : Matrix (Fin 10) (Fin 10) ℝ) (C : Fin 10 → ℝ) (gamma : ℝ) (q : Quat) : ℝ :=
  upnpFillS q ⬝ᵥ (M *ᵥ upnpFillS q) + 2 * (C ⬝ᵥ upnpFillS q) + gamma

/-! ## The list of candidates -/

/-- A candidate: the energy and the quaternion. `none` has NaN for both. -/
abbrev UpnpCand := Option (ℝ × Quat)

open Classical in
/-- `qidx->first < value` for the energies; a comparison with NaN is false. -/
def candLt : UpnpCand → UpnpCand → Prop
  | some a, some b => a.1 < b.1
  | _, _ => False

open Classical in
/-- Insertion before the first candidate that is not smaller (src/absolute_pose/modules/main.cpp
lines 779-784 and 822-827). -/
noncomputable def upnpInsert (c : UpnpCand) : List UpnpCand → List UpnpCand
  | [] => [c]
  | d :: l => if candLt d c then d :: upnpInsert c l else c :: d :: l

/-- The norm of the four numbers. -/
noncomputable def quatNorm (q : Quat) : ℝ := √(q 0 ^ 2 + q 1 ^ 2 + q 2 ^ 2 + q 3 ^ 2)

/-- Division by the norm, with the sign chosen such that the first component is not negative
(src/absolute_pose/modules/main.cpp lines 750-760). -/
noncomputable def upnpNormalize (q : Quat) : Option Quat :=
  if quatNorm q = 0 then none
  else
    let norm := if q 0 < 0 then -quatNorm q else quatNorm q
    some fun i => q i / norm

/-- Division by the norm (src/absolute_pose/modules/main.cpp lines 807-812). -/
noncomputable def upnpNormalizeSym (q : Quat) : Option Quat :=
  if quatNorm q = 0 then none else some fun i => q i / quatNorm q

open Classical in
/-- One pass of the loop of `upnp_main` (src/absolute_pose/modules/main.cpp lines 744-786): `v` has
the real parts of the four entries of an eigenvector. A difference with NaN is not below the
threshold. -/
noncomputable def upnpStep (M : Matrix (Fin 10) (Fin 10) ℝ) (C : Fin 10 → ℝ) (gamma : ℝ)
    (threshold : ℝ) (l : List UpnpCand) (v : Quat) : List UpnpCand :=
  match upnpNormalize v with
  | none => upnpInsert none l
  | some q =>
    if ∃ c ∈ l, ∃ e, c = some e ∧ quatNorm (q - e.2) < threshold then l
    else upnpInsert (some (upnpEnergy M C gamma q, q)) l

/-- `upnp_main` after the eigen-decomposition (src/absolute_pose/modules/main.cpp lines 724-787);
`doubleSolThreshold` is 1e-8. -/
noncomputable def upnpMain (M : Matrix (Fin 10) (Fin 10) ℝ) (C : Fin 10 → ℝ) (gamma : ℝ)
    (vs : List Quat) : List UpnpCand :=
  vs.foldl (upnpStep M C gamma (1 / 10 ^ 8)) []

/-- `upnp_main_sym` after the eigen-decomposition (src/absolute_pose/modules/main.cpp lines
789-844). -/
noncomputable def upnpMainSym (M : Matrix (Fin 10) (Fin 10) ℝ) (C : Fin 10 → ℝ) (gamma : ℝ)
    (vs : List Quat) : List UpnpCand :=
  vs.foldl (fun l v =>
    upnpInsert ((upnpNormalizeSym v).map fun q => (upnpEnergy M C gamma q, q)) l) []

/-! ## The selection and the last step -/

/-- `tinv` (src/absolute_pose/methods.cpp lines 552-554, 661-663 and 676-678). -/
noncomputable def upnpTinv (obs : List UpnpObs) (q : Quat) : Vec3 :=
  upnpI obs *ᵥ upnpFillS q - upnpJ obs

/-- The transformation for `Rinv` and `tinv` (src/absolute_pose/methods.cpp lines 558-560 and
665-667). -/
def upnpPose (Rinv : Mat3) (tinv : Vec3) : Vec3 × Mat3 :=
  (-(Rinv.transpose *ᵥ tinv), Rinv.transpose)

open Classical in
/-- `count_negative` (src/absolute_pose/methods.cpp lines 564-576). -/
noncomputable def upnpNegative (obs : List UpnpObs) (q : Quat) : ℕ :=
  (obs.filter fun o =>
    decide ((quaternion2rot q *ᵥ o.p + upnpTinv obs q - o.v) ⬝ᵥ o.f < 0)).length

/-- The test of the first round (src/absolute_pose/methods.cpp line 578). -/
def upnpFront (obs : List UpnpObs) (q : Quat) : Prop :=
  (upnpNegative obs q : ℤ) < ⌊(0.2 : ℝ) * obs.length + 0.5⌋

/-- The correspondences with rotated points (src/absolute_pose/methods.cpp lines 602 and 616). -/
def upnpRotate (Rinv : Mat3) (obs : List UpnpObs) : List UpnpObs :=
  obs.map fun o => { o with p := Rinv *ᵥ o.p }

/-- `f` (src/absolute_pose/methods.cpp lines 456-465). -/
def upnpGrad (M : Matrix (Fin 10) (Fin 10) ℝ) (C : Fin 10 → ℝ) : Vec3 :=
  ![2 * M 0 4 + 2 * C 4, 2 * M 0 5 + 2 * C 5, 2 * M 0 6 + 2 * C 6]

/-- `Jac` (src/absolute_pose/methods.cpp lines 467-482). -/
def upnpJac (M : Matrix (Fin 10) (Fin 10) ℝ) (C : Fin 10 → ℝ) : Mat3 :=
  !![2 * M 4 4 + 4 * M 0 1 - 4 * M 0 0 + 4 * C 1 - 4 * C 0, 2 * M 5 4 + 2 * M 0 7 + 2 * C 7,
      2 * M 6 4 + 2 * M 0 8 + 2 * C 8;
    2 * M 4 5 + 2 * M 0 7 + 2 * C 7, 2 * M 5 5 + 4 * M 0 2 - 4 * M 0 0 + 4 * C 2 - 4 * C 0,
      2 * M 6 5 + 2 * M 0 9 + 2 * C 9;
    2 * M 4 6 + 2 * M 0 8 + 2 * C 8, 2 * M 5 6 + 2 * M 0 9 + 2 * C 9,
      2 * M 6 6 + 4 * M 0 3 - 4 * M 0 0 + 4 * C 3 - 4 * C 0]

/-- The second round for one candidate (src/absolute_pose/methods.cpp lines 593-669). `none` is a
result with entries that are not finite: a singular `Jacobian`, or a NaN in `rot2quaternion`. The
characteristic polynomial of lines 633-637 is not used. -/
noncomputable def upnpPolish (obs : List UpnpObs) (q : Quat) : Option (Vec3 × Mat3) :=
  let Rinv := quaternion2rot q
  let M := upnpM (upnpRotate Rinv obs)
  let C := upnpC (upnpRotate Rinv obs)
  if (upnpJac M C).det = 0 then none
  else
    let cay := -((upnpJac M C)⁻¹ *ᵥ upnpGrad M C)
    let Rinv2 := cayley2rot cay * Rinv
    (rot2quaternion Rinv2).map fun q2 => upnpPose Rinv2 (upnpTinv obs q2)

open Classical in
/-- `upnp` after the computation of the candidates (src/absolute_pose/methods.cpp lines 543-687).
A candidate with NaN passes the test of the first round (no comparison is true), and gives NaN. The
second fallback (lines 672-685) is never reached. -/
noncomputable def upnpSelect (obs : List UpnpObs) (quats : List UpnpCand) :
    List (Option (Vec3 × Mat3)) :=
  let quats2 := quats.filter fun c =>
    decide (∀ e, c = some e → upnpFront obs e.2) &&
      decide (c = none → (0 : ℤ) < ⌊(0.2 : ℝ) * obs.length + 0.5⌋)
  if quats2 = [] then
    match quats with
    | [] => []
    | c :: _ => [c.map fun e => upnpPose (quaternion2rot e.2) (upnpTinv obs e.2)]
  else quats2.map fun c => c.bind fun e => upnpPolish obs e.2

open Classical in
/-- `upnp` (src/absolute_pose/methods.cpp lines 484-688). `vs` has the real parts of four entries of
each eigenvector of the action matrix (16 for at most four correspondences, otherwise 8). `none`:
`H_inv` is singular. -/
noncomputable def upnp (obs : List UpnpObs) (vs : List Quat) :
    Option (List (Option (Vec3 × Mat3))) :=
  if (upnpHinv obs).det = 0 then none
  else
    some (upnpSelect obs
      (if 4 < obs.length then upnpMainSym (upnpM obs) (upnpC obs) (upnpGamma obs) vs
        else upnpMain (upnpM obs) (upnpC obs) (upnpGamma obs) vs))

end OpenGV
