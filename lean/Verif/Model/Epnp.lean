import Verif.Model.Geometry
import Mathlib.LinearAlgebra.Matrix.NonsingularInverse
import Mathlib.Data.Matrix.Mul
import Mathlib.Analysis.Real.Sqrt

/-!
# Model of EPnP

`src/absolute_pose/modules/Epnp.cpp` and `epnp` of `src/absolute_pose/methods.cpp`. Eigen's
decompositions enter as functions (`EpnpSvds`); theorems assume their contracts.
-/

namespace OpenGV

open Matrix

/-! ## Correspondences and control points -/

/-- One correspondence: `pws`, `us` and `signs`. -/
structure EpnpCorr where
  pw : Vec3
  u : ℝ
  v : ℝ
  sgn : ℤ

open Classical in
/-- `add_correspondence` (src/absolute_pose/modules/Epnp.cpp lines 95-118). `none` is a division by
zero. -/
noncomputable def epnpAdd (P f : Vec3) : Option EpnpCorr :=
  if f 2 = 0 then none
  else some ⟨P, f 0 / f 2, f 1 / f 2, if f 2 > 0 then 1 else -1⟩

/-- `cws[0]` (lines 123-130). -/
noncomputable def epnpCentroid (cs : List EpnpCorr) : Vec3 :=
  (cs.length : ℝ)⁻¹ • (cs.map EpnpCorr.pw).sum

/-- `PW0tPW0` (lines 134-140). -/
noncomputable def epnpCov (cs : List EpnpCorr) : Mat3 :=
  (cs.map fun c => vecMulVec (c.pw - epnpCentroid cs) (c.pw - epnpCentroid cs)).sum

/-- `cws` (lines 144-152): `U` and `D` are the left singular vectors and the singular values of
`PW0tPW0`. -/
noncomputable def epnpCws (cs : List EpnpCorr) (U : Mat3) (D : Vec3) : Fin 4 → Vec3 :=
  ![epnpCentroid cs,
    epnpCentroid cs + √(D 0 / cs.length) • fun j => U j 0,
    epnpCentroid cs + √(D 1 / cs.length) • fun j => U j 1,
    epnpCentroid cs + √(D 2 / cs.length) • fun j => U j 2]

/-- `CC` (lines 159-163). -/
def epnpCC (cws : Fin 4 → Vec3) : Mat3 :=
  Matrix.of fun i j => cws j.succ i - cws 0 i

/-- `alphas` of one point (lines 165-178), meaningful if `CC` has an inverse. -/
noncomputable def epnpAlpha (cws : Fin 4 → Vec3) (p : Vec3) : Fin 4 → ℝ :=
  let a := (epnpCC cws)⁻¹ *ᵥ (p - cws 0)
  ![1 - a 0 - a 1 - a 2, a 0, a 1, a 2]

/-! ## The linear system -/

/-- The first row of `fill_M` (lines 181-199) for `fu = 1`, `uc = 0` (lines 53-56). -/
def epnpRowU (a : Fin 4 → ℝ) (u : ℝ) : Fin 12 → ℝ :=
  ![a 0, 0, a 0 * (0 - u), a 1, 0, a 1 * (0 - u), a 2, 0, a 2 * (0 - u), a 3, 0, a 3 * (0 - u)]

/-- The second row of `fill_M` (lines 181-199). -/
def epnpRowV (a : Fin 4 → ℝ) (v : ℝ) : Fin 12 → ℝ :=
  ![0, a 0, a 0 * (0 - v), 0, a 1, a 1 * (0 - v), 0, a 2, a 2 * (0 - v), 0, a 3, a 3 * (0 - v)]

/-- `MtM` (lines 242-247). -/
noncomputable def epnpMtM (cws : Fin 4 → Vec3) (cs : List EpnpCorr) : Matrix (Fin 12) (Fin 12) ℝ :=
  (cs.map fun c =>
    vecMulVec (epnpRowU (epnpAlpha cws c.pw) c.u) (epnpRowU (epnpAlpha cws c.pw) c.u) +
    vecMulVec (epnpRowV (epnpAlpha cws c.pw) c.v) (epnpRowV (epnpAlpha cws c.pw) c.v)).sum

/-- The index `3 * j + k`. -/
def idx12 (j : Fin 4) (k : Fin 3) : Fin 12 := ⟨3 * j + k, by omega⟩

/-- Row `11 - i` of `Ut` (lines 213 and 619). -/
def epnpV (U : Matrix (Fin 12) (Fin 12) ℝ) (i : Fin 4) : Fin 12 → ℝ := fun c => U c ⟨11 - i, by omega⟩

/-- `compute_ccs` (lines 201-215). -/
def epnpCcs (U : Matrix (Fin 12) (Fin 12) ℝ) (betas : Fin 4 → ℝ) : Fin 4 → Vec3 :=
  fun j k => 0 + betas 0 * epnpV U 0 (idx12 j k) + betas 1 * epnpV U 1 (idx12 j k) +
    betas 2 * epnpV U 2 (idx12 j k) + betas 3 * epnpV U 3 (idx12 j k)

/-- `compute_pcs` for one point (lines 217-232). -/
def epnpPc (a : Fin 4 → ℝ) (ccs : Fin 4 → Vec3) : Vec3 :=
  a 0 • ccs 0 + a 1 • ccs 1 + a 2 • ccs 2 + a 3 • ccs 3

/-! ## The coefficients -/

/-- The pairs `(a, b)` in the order of the loop (lines 616-629), which is also the order of
`compute_rho` (lines 651-656). -/
def epnpPair : Fin 6 → Fin 4 × Fin 4 := ![(0, 1), (0, 2), (0, 3), (1, 2), (1, 3), (2, 3)]

/-- `dv` (lines 612-630). -/
def epnpDv (U : Matrix (Fin 12) (Fin 12) ℝ) (i : Fin 4) (j : Fin 6) : Vec3 :=
  fun k => epnpV U i (idx12 (epnpPair j).1 k) - epnpV U i (idx12 (epnpPair j).2 k)

/-- `compute_L_6x10` (lines 607-645). -/
def epnpL (U : Matrix (Fin 12) (Fin 12) ℝ) : Matrix (Fin 6) (Fin 10) ℝ := Matrix.of fun i =>
  ![epnpDv U 0 i ⬝ᵥ epnpDv U 0 i, 2 * (epnpDv U 0 i ⬝ᵥ epnpDv U 1 i),
    epnpDv U 1 i ⬝ᵥ epnpDv U 1 i, 2 * (epnpDv U 0 i ⬝ᵥ epnpDv U 2 i),
    2 * (epnpDv U 1 i ⬝ᵥ epnpDv U 2 i), epnpDv U 2 i ⬝ᵥ epnpDv U 2 i,
    2 * (epnpDv U 0 i ⬝ᵥ epnpDv U 3 i), 2 * (epnpDv U 1 i ⬝ᵥ epnpDv U 3 i),
    2 * (epnpDv U 2 i ⬝ᵥ epnpDv U 3 i), epnpDv U 3 i ⬝ᵥ epnpDv U 3 i]

/-- `compute_rho` (lines 647-657) with `dist2` (lines 298-307). -/
def epnpRho (cws : Fin 4 → Vec3) : Fin 6 → ℝ := fun i =>
  (cws (epnpPair i).1 - cws (epnpPair i).2) ⬝ᵥ (cws (epnpPair i).1 - cws (epnpPair i).2)

/-- `L_6x4` (lines 493-501). -/
def epnpL4 (L : Matrix (Fin 6) (Fin 10) ℝ) : Matrix (Fin 6) (Fin 4) ℝ :=
  Matrix.of fun i => ![L i 0, L i 1, L i 3, L i 6]

/-- `L_6x3` (lines 534-541). -/
def epnpL3 (L : Matrix (Fin 6) (Fin 10) ℝ) : Matrix (Fin 6) (Fin 3) ℝ :=
  Matrix.of fun i => ![L i 0, L i 1, L i 2]

/-- `L_6x5` (lines 575-584). -/
def epnpL5 (L : Matrix (Fin 6) (Fin 10) ℝ) : Matrix (Fin 6) (Fin 5) ℝ :=
  Matrix.of fun i => ![L i 0, L i 1, L i 2, L i 3, L i 4]

/-- `find_betas_approx_1` after the solution of the linear system (lines 509-522). `none` is a
division by zero. -/
noncomputable def epnpApprox1 (b4 : Fin 4 → ℝ) : Option (Fin 4 → ℝ) :=
  if b4 0 < 0 then
    let b := √(-b4 0)
    some ![b, -b4 1 / b, -b4 2 / b, -b4 3 / b]
  else
    let b := √(b4 0)
    if b = 0 then none else some ![b, b4 1 / b, b4 2 / b, b4 3 / b]

/-- `find_betas_approx_2` after the solution of the linear system (lines 549-563). -/
noncomputable def epnpApprox2 (b3 : Fin 3 → ℝ) : Fin 4 → ℝ :=
  let b0 := if b3 0 < 0 then √(-b3 0) else √(b3 0)
  let b1 := if b3 0 < 0 then (if b3 2 < 0 then √(-b3 2) else 0) else (if b3 2 > 0 then √(b3 2) else 0)
  ![if b3 1 < 0 then -b0 else b0, b1, 0, 0]

/-- `find_betas_approx_3` after the solution of the linear system (lines 592-604). `none` is a
division by zero. -/
noncomputable def epnpApprox3 (b5 : Fin 5 → ℝ) : Option (Fin 4 → ℝ) :=
  let b0 := if b5 0 < 0 then √(-b5 0) else √(b5 0)
  let b1 := if b5 0 < 0 then (if b5 2 < 0 then √(-b5 2) else 0) else (if b5 2 > 0 then √(b5 2) else 0)
  let b := if b5 1 < 0 then -b0 else b0
  if b = 0 then none else some ![b, b1, b5 3 / b, 0]

/-! ## Gauss-Newton -/

/-- `A` of `compute_A_and_b_gauss_newton` (lines 669-676). -/
def epnpGnA (L : Matrix (Fin 6) (Fin 10) ℝ) (b : Fin 4 → ℝ) : Matrix (Fin 6) (Fin 4) ℝ :=
  Matrix.of fun i =>
    ![2 * L i 0 * b 0 + L i 1 * b 1 + L i 3 * b 2 + L i 6 * b 3,
      L i 1 * b 0 + 2 * L i 2 * b 1 + L i 4 * b 2 + L i 7 * b 3,
      L i 3 * b 0 + L i 4 * b 1 + 2 * L i 5 * b 2 + L i 8 * b 3,
      L i 6 * b 0 + L i 7 * b 1 + L i 8 * b 2 + 2 * L i 9 * b 3]

/-- `b` of `compute_A_and_b_gauss_newton` (lines 678-688). -/
def epnpGnB (L : Matrix (Fin 6) (Fin 10) ℝ) (rho : Fin 6 → ℝ) (b : Fin 4 → ℝ) : Fin 6 → ℝ :=
  fun i => rho i - (L i 0 * b 0 * b 0 + L i 1 * b 0 * b 1 + L i 2 * b 1 * b 1 + L i 3 * b 0 * b 2 +
    L i 4 * b 1 * b 2 + L i 5 * b 2 * b 2 + L i 6 * b 0 * b 3 + L i 7 * b 1 * b 3 +
    L i 8 * b 2 * b 3 + L i 9 * b 3 * b 3)

/-- The rows at which the search for the largest entry of column `k` looks (lines 743-749): the
pointer is advanced after the comparison, so row `k` is read twice and the last row is not read. -/
noncomputable def qrEta (A : Matrix (Fin 6) (Fin 4) ℝ) (k : Fin 4) : ℝ :=
  ((List.finRange 6).filter fun i : Fin 6 => k.val ≤ i.val ∧ i.val < 5).foldl
    (fun eta i => if eta < |A i k| then |A i k| else eta) |A (k.castLE (by omega)) k|

/-- The stored vector of column `k` (lines 759-769): the entries from row `k` on are divided by
`eta`, then `sigma` is added to the first one. -/
noncomputable def qrSigma (A : Matrix (Fin 6) (Fin 4) ℝ) (k : Fin 4) (eta : ℝ) : ℝ :=
  let s := √(∑ i : Fin 6, if k.val ≤ i.val then (A i k / eta) ^ 2 else 0)
  if A (k.castLE (by omega)) k / eta < 0 then -s else s

/-- The vector of the reflection of column `k`, with zeros above row `k`. -/
noncomputable def qrVec (A : Matrix (Fin 6) (Fin 4) ℝ) (k : Fin 4) (eta : ℝ) : Fin 6 → ℝ := fun i =>
  if i.val < k.val then 0
  else if i.val = k.val then A i k / eta + qrSigma A k eta
  else A i k / eta

/-- `A1[k]` (line 770). -/
noncomputable def qrA1 (A : Matrix (Fin 6) (Fin 4) ℝ) (k : Fin 4) (eta : ℝ) : ℝ :=
  qrSigma A k eta * qrVec A k eta (k.castLE (by omega))

/-- `A2[k]` (line 771). -/
noncomputable def qrA2 (A : Matrix (Fin 6) (Fin 4) ℝ) (k : Fin 4) (eta : ℝ) : ℝ :=
  -eta * qrSigma A k eta

/-- One pass of the elimination (lines 741-790). Entries of column `k` from row `k` on are replaced
by the vector; the columns to the right are reflected; entries above row `k` and columns to the left
stay. `none` is the message of line 754. -/
noncomputable def qrStep (A : Matrix (Fin 6) (Fin 4) ℝ) (k : Fin 4) :
    Option (Matrix (Fin 6) (Fin 4) ℝ × ℝ × ℝ) :=
  let eta := qrEta A k
  if eta = 0 then none
  else
    let v := qrVec A k eta
    let a1 := qrA1 A k eta
    some (Matrix.of fun i j =>
      if i.val < k.val then A i j
      else if j.val < k.val then A i j
      else if j = k then v i
      else A i j - ((∑ r, v r * A r j) / a1) * v i, a1, qrA2 A k eta)

/-- The update of `b` for column `j` (lines 794-810): `v` are the stored entries from row `j` on. -/
noncomputable def qrApply (A : Matrix (Fin 6) (Fin 4) ℝ) (j : Fin 4) (a1 : ℝ) (b : Fin 6 → ℝ) :
    Fin 6 → ℝ := fun i =>
  if i.val < j.val then b i
  else b i - ((∑ r : Fin 6, if r.val < j.val then 0 else A r j * b r) / a1) * A i j

/-- `qr_solve` (lines 714-826). `none`: the function returns early and leaves `X` as it is. -/
noncomputable def qrSolve (A : Matrix (Fin 6) (Fin 4) ℝ) (b : Fin 6 → ℝ) : Option (Fin 4 → ℝ) := do
  let (B0, p0, r0) ← qrStep A 0
  let (B1, p1, r1) ← qrStep B0 1
  let (B2, p2, r2) ← qrStep B1 2
  let (B, p3, r3) ← qrStep B2 3
  let c := qrApply B 3 p3 (qrApply B 2 p2 (qrApply B 1 p1 (qrApply B 0 p0 b)))
  let x3 := c 3 / r3
  let x2 := (c 2 - B 2 3 * x3) / r2
  let x1 := (c 1 - (B 1 2 * x2 + B 1 3 * x3)) / r1
  let x0 := (c 0 - (B 0 1 * x1 + B 0 2 * x2 + B 0 3 * x3)) / r0
  some ![x0, x1, x2, x3]

/-- The state of `gauss_newton`: `betas` and the last value of `X`; `none` is uninitialised. -/
abbrev GnState := (Fin 4 → ℝ) × Option (Fin 4 → ℝ)

/-- One pass of the loop of `gauss_newton` (lines 704-711). `none`: `X` is read without having been
set. -/
noncomputable def epnpGnStep (L : Matrix (Fin 6) (Fin 10) ℝ) (rho : Fin 6 → ℝ) (s : GnState) :
    Option GnState :=
  match (qrSolve (epnpGnA L s.1) (epnpGnB L rho s.1)).or s.2 with
  | none => none
  | some x => some (s.1 + x, some x)

/-- `gauss_newton` (lines 692-712) for the given number of iterations. -/
noncomputable def epnpGnLoop (L : Matrix (Fin 6) (Fin 10) ℝ) (rho : Fin 6 → ℝ) :
    ℕ → GnState → Option (Fin 4 → ℝ)
  | 0, s => some s.1
  | n + 1, s => (epnpGnStep L rho s).bind (epnpGnLoop L rho n)

/-- `gauss_newton` (lines 692-712). -/
noncomputable def epnpGn (L : Matrix (Fin 6) (Fin 10) ℝ) (rho : Fin 6 → ℝ) (b : Fin 4 → ℝ) :
    Option (Fin 4 → ℝ) := epnpGnLoop L rho 5 (b, none)

/-! ## Pose and error -/

/-- A number of the error computation. -/
inductive FErr where
  | fin (x : ℝ)
  | inf
  | nan

/-- The comparison `<` of lines 275-276. -/
def FErr.lt : FErr → FErr → Prop
  | fin a, fin b => a < b
  | fin _, inf => True
  | _, _ => False

/-- Addition of numbers that are not negative. -/
noncomputable def FErr.add : FErr → FErr → FErr
  | fin a, fin b => fin (a + b)
  | nan, _ => nan
  | _, nan => nan
  | _, _ => inf

/-- One summand of `reprojection_error` (lines 326-334). If the depth is zero, `Xc * inv_Zc` is
infinite or, for `Xc = 0`, NaN. -/
noncomputable def epnpErr1 (R : Mat3) (t : Vec3) (c : EpnpCorr) : FErr :=
  let X := R *ᵥ c.pw + t
  if X 2 = 0 then (if X 0 = 0 ∨ X 1 = 0 then .nan else .inf)
  else .fin (√((c.u - (0 + 1 * X 0 * (1 / X 2))) * (c.u - (0 + 1 * X 0 * (1 / X 2))) +
    (c.v - (0 + 1 * X 1 * (1 / X 2))) * (c.v - (0 + 1 * X 1 * (1 / X 2)))))

/-- `reprojection_error` (lines 317-338). -/
noncomputable def epnpErr (R : Mat3) (t : Vec3) (cs : List EpnpCorr) : FErr :=
  match cs.foldl (fun s c => FErr.add s (epnpErr1 R t c)) (.fin 0) with
  | .fin x => .fin (x / cs.length)
  | e => e

/-- `R` of `estimate_R_and_t` (lines 394-418) for the factors of `Abt`. -/
noncomputable def epnpR (U V : Mat3) : Mat3 :=
  let R := U * V.transpose
  if R.det < 0 then
    let V' : Mat3 := Matrix.of fun i => ![V i 0, V i 1, -V i 2]
    U * V'.transpose
  else R

/-- `estimate_R_and_t` (lines 340-423) on the pairs `(pc, pw)`; at least one pair. -/
noncomputable def epnpEstimate (svd : Mat3 → Mat3 × Mat3) (ps : List (Vec3 × Vec3)) : Vec3 × Mat3 :=
  let pc0 := (ps.length : ℝ)⁻¹ • (ps.map Prod.fst).sum
  let pw0 := (ps.length : ℝ)⁻¹ • (ps.map Prod.snd).sum
  let Abt := (ps.map fun p => vecMulVec (p.1 - pc0) (p.2 - pw0)).sum
  let R := epnpR (svd Abt).1 (svd Abt).2
  (pc0 - R *ᵥ pw0, R)

/-- Eigen's decompositions: `svd3` gives the matrices `U`, `V` and the singular values of a 3x3
matrix, `svd12` the matrix `U` of a 12x12 matrix, the others the solutions of linear systems. -/
structure EpnpSvds where
  svd3 : Mat3 → Mat3 × Mat3 × Vec3
  svd12 : Matrix (Fin 12) (Fin 12) ℝ → Matrix (Fin 12) (Fin 12) ℝ
  solve3 : Matrix (Fin 6) (Fin 3) ℝ → (Fin 6 → ℝ) → Fin 3 → ℝ
  solve4 : Matrix (Fin 6) (Fin 4) ℝ → (Fin 6 → ℝ) → Fin 4 → ℝ
  solve5 : Matrix (Fin 6) (Fin 5) ℝ → (Fin 6 → ℝ) → Fin 5 → ℝ

open Classical in
/-- The test of `solve_for_sign` (line 452) on the third entry of the first point. -/
def epnpFlip (z : ℝ) (sgn : ℤ) : Prop := (z < 0 ∧ sgn > 0) ∨ (z > 0 ∧ sgn < 0)

open Classical in
/-- `compute_R_and_t` (lines 467-482) and `solve_for_sign` (lines 435-465). The negation of `ccs`
has no effect on the result. -/
noncomputable def epnpRt (S : EpnpSvds) (cws : Fin 4 → Vec3) (U : Matrix (Fin 12) (Fin 12) ℝ)
    (cs : List EpnpCorr) (betas : Fin 4 → ℝ) : FErr × Vec3 × Mat3 :=
  let ccs := epnpCcs U betas
  let pcs := cs.map fun c => epnpPc (epnpAlpha cws c.pw) ccs
  let flip := ∃ p s, pcs.head? = some p ∧ (cs.map EpnpCorr.sgn).head? = some s ∧ epnpFlip (p 2) s
  let pcs' := if flip then pcs.map fun p => -p else pcs
  let tR := epnpEstimate (fun A => ((S.svd3 A).1, (S.svd3 A).2.1)) (pcs'.zip (cs.map EpnpCorr.pw))
  (epnpErr tR.2 tR.1 cs, tR)

/-- What a run can end with: a pose `(t, R)`, a pose with NaN, or a read of uninitialised memory. -/
inductive EpnpOut where
  | pose (t : Vec3) (R : Mat3)
  | nan
  | uninit

open Classical in
/-- The candidate of one of the three approximations: `none` is a read of uninitialised memory,
`some none` a result with NaN. -/
noncomputable def epnpCand (S : EpnpSvds) (cws : Fin 4 → Vec3) (U : Matrix (Fin 12) (Fin 12) ℝ)
    (cs : List EpnpCorr) (betas : Option (Fin 4 → ℝ)) : Option (FErr × Option (Vec3 × Mat3)) :=
  match betas with
  | none => some (.nan, none)
  | some b =>
    match epnpGn (epnpL U) (epnpRho cws) b with
    | none => none
    | some b' => let r := epnpRt S cws U cs b'; some (r.1, some r.2)

open Classical in
/-- `compute_pose` (lines 234-281). If `betas` is not finite, every entry of `A` is infinite or NaN,
so there is no early return from `qr_solve`, and the pose and its error are NaN. -/
noncomputable def epnpPose (S : EpnpSvds) (cs : List EpnpCorr) : EpnpOut :=
  if cs.length = 0 then .nan
  else
    let w := S.svd3 (epnpCov cs)
    let cws := epnpCws cs w.1 w.2.2
    if (epnpCC cws).det = 0 then .nan
    else
      let U := S.svd12 (epnpMtM cws cs)
      let L := epnpL U
      let rho := epnpRho cws
      match epnpCand S cws U cs (epnpApprox1 (S.solve4 (epnpL4 L) rho)),
        epnpCand S cws U cs (some (epnpApprox2 (S.solve3 (epnpL3 L) rho))),
        epnpCand S cws U cs (epnpApprox3 (S.solve5 (epnpL5 L) rho)) with
      | some r1, some r2, some r3 =>
        let N := if r2.1.lt r1.1 then r2 else r1
        match (if r3.1.lt N.1 then r3 else N).2 with
        | none => .nan
        | some (t, R) => .pose t R
      | _, _, _ => .uninit

/-- `epnp` (src/absolute_pose/methods.cpp lines 239-280) on the pairs of point and bearing vector.
The result is the inverse transformation. -/
noncomputable def epnp (S : EpnpSvds) (obs : List (Vec3 × Vec3)) : EpnpOut :=
  match obs.mapM fun o => epnpAdd o.1 o.2 with
  | none => .nan
  | some cs =>
    match epnpPose S cs with
    | .pose t R => .pose (-(R.transpose *ᵥ t)) R.transpose
    | r => r

end OpenGV
