import Verif.Model.Eigensolver

/-!
# Model of the generalised eigensolver (`ge` of `src/relative_pose/methods.cpp`, `ge_main2` of
`src/relative_pose/modules/main.cpp` and `src/relative_pose/modules/ge/modules.cpp`)

`composeGwithJacobians` and `getCostWithJacobian` are not called by `ge_main2` and are not modelled.
-/

namespace OpenGV

open Matrix

/-- The data of one correspondence read from the adapter: the weight, the two bearing vectors, and
the orientation and position of the two cameras. -/
structure GeCorr where
  weight : ℝ
  f1 : Vec3
  f2 : Vec3
  camRotation1 : Mat3
  camRotation2 : Mat3
  camOffset1 : Vec3
  camOffset2 : Vec3

/-- The summation terms. -/
structure GeSums where
  F : FSums
  x1P : Matrix (Fin 3) (Fin 9) ℝ
  y1P : Matrix (Fin 3) (Fin 9) ℝ
  z1P : Matrix (Fin 3) (Fin 9) ℝ
  x2P : Matrix (Fin 3) (Fin 9) ℝ
  y2P : Matrix (Fin 3) (Fin 9) ℝ
  z2P : Matrix (Fin 3) (Fin 9) ℝ
  m11P : Matrix (Fin 9) (Fin 9) ℝ
  m12P : Matrix (Fin 9) (Fin 9) ℝ
  m22P : Matrix (Fin 9) (Fin 9) ℝ

/-- All terms zero (src/relative_pose/methods.cpp lines 664-680). -/
def GeSums.zero : GeSums := ⟨FSums.zero, 0, 0, 0, 0, 0, 0, 0, 0, 0⟩

/-- `f2_19` and `f1_19` (src/relative_pose/methods.cpp lines 716-741): the multiples of `f` by the
components of `p x t`. -/
def crossRow (f p t : Vec3) : Fin 9 → ℝ :=
  let temp0 := p 1 * t 2 - p 2 * t 1
  let temp1 := p 2 * t 0 - p 0 * t 2
  let temp2 := p 0 * t 1 - p 1 * t 0
  ![f 0 * temp0, f 1 * temp0, f 2 * temp0, f 0 * temp1, f 1 * temp1, f 2 * temp1,
    f 0 * temp2, f 1 * temp2, f 2 * temp2]

/-- One step of the accumulation (src/relative_pose/methods.cpp lines 696-774). The two branches on
`useWeights` (lines 743-773) agree when the weight is 1. -/
def GeSums.add (s : GeSums) (weight : ℝ) (f1 f2 t1 t2 : Vec3) : GeSums :=
  let f2_19 := crossRow f2 f1 t1
  let f1_19 := crossRow f1 f2 t2
  { F := s.F.add weight f1 f2
    x1P := s.x1P + vecMulVec ((weight * f1 0) • f2) f1_19
    y1P := s.y1P + vecMulVec ((weight * f1 1) • f2) f1_19
    z1P := s.z1P + vecMulVec ((weight * f1 2) • f2) f1_19
    x2P := s.x2P + vecMulVec ((weight * f1 0) • f2) f2_19
    y2P := s.y2P + vecMulVec ((weight * f1 1) • f2) f2_19
    z2P := s.z2P + vecMulVec ((weight * f1 2) • f2) f2_19
    m11P := s.m11P - vecMulVec (weight • f1_19) f1_19
    m12P := s.m12P - vecMulVec (weight • f2_19) f1_19
    m22P := s.m22P - vecMulVec (weight • f2_19) f2_19 }

/-- The loop (src/relative_pose/methods.cpp lines 689-775); `weight` is the weight used (1, or the
adapter's weight over the norm of all of them). The bearing vectors are rotated into the frame of
the rig. -/
def geSums (cs : List GeCorr) : GeSums :=
  cs.foldl (fun s c => s.add c.weight (c.camRotation1 *ᵥ c.f1) (c.camRotation2 *ᵥ c.f2)
    c.camOffset1 c.camOffset2) GeSums.zero

/-- `Rows` (src/relative_pose/modules/ge/modules.cpp lines 401-406). -/
def stackRows (R : Mat3) : Fin 9 → ℝ :=
  ![R 0 0, R 0 1, R 0 2, R 1 0, R 1 1, R 1 2, R 2 0, R 2 1, R 2 2]

/-- `Cols` (src/relative_pose/modules/ge/modules.cpp lines 408-411). -/
def stackCols (R : Mat3) : Fin 9 → ℝ :=
  ![R 0 0, R 1 0, R 2 0, R 0 1, R 1 1, R 2 1, R 0 2, R 1 2, R 2 2]

/-- `composeG` (src/relative_pose/modules/ge/modules.cpp lines 316-460) from the reduced rotation
matrix `R`. -/
def composeGR (s : GeSums) (R : Mat3) : Matrix (Fin 4) (Fin 4) ℝ :=
  let G00 := rowForm R 2 s.F.yy R 2 - 2 * rowForm R 2 s.F.yz R 1 + rowForm R 1 s.F.zz R 1
  let G01 := rowForm R 2 s.F.yz R 0 - rowForm R 2 s.F.xy R 2 - rowForm R 1 s.F.zz R 0 +
    rowForm R 1 s.F.zx R 2
  let G02 := rowForm R 2 s.F.xy R 1 - rowForm R 2 s.F.yy R 0 - rowForm R 1 s.F.zx R 1 +
    rowForm R 1 s.F.yz R 0
  let G11 := rowForm R 0 s.F.zz R 0 - 2 * rowForm R 0 s.F.zx R 2 + rowForm R 2 s.F.xx R 2
  let G12 := rowForm R 0 s.F.zx R 1 - rowForm R 0 s.F.yz R 0 - rowForm R 2 s.F.xx R 1 +
    rowForm R 0 s.F.xy R 2
  let G22 := rowForm R 1 s.F.xx R 1 - 2 * rowForm R 0 s.F.xy R 1 + rowForm R 0 s.F.yy R 0
  let Rows := stackRows R
  let Cols := stackCols R
  let x1PC := s.x1P *ᵥ Cols
  let y1PC := s.y1P *ᵥ Cols
  let z1PC := s.z1P *ᵥ Cols
  let x2PR := s.x2P *ᵥ Rows
  let y2PR := s.y2P *ᵥ Rows
  let z2PR := s.z2P *ᵥ Rows
  let G03 := R 2 ⬝ᵥ y1PC + R 2 ⬝ᵥ y2PR - R 1 ⬝ᵥ z1PC - R 1 ⬝ᵥ z2PR
  let G13 := R 0 ⬝ᵥ z1PC + R 0 ⬝ᵥ z2PR - R 2 ⬝ᵥ x1PC - R 2 ⬝ᵥ x2PR
  let G23 := R 1 ⬝ᵥ x1PC + R 1 ⬝ᵥ x2PR - R 0 ⬝ᵥ y1PC - R 0 ⬝ᵥ y2PR
  let G33 := -(Cols ⬝ᵥ (s.m11P *ᵥ Cols)) - Rows ⬝ᵥ (s.m22P *ᵥ Rows) -
    2 * (Rows ⬝ᵥ (s.m12P *ᵥ Cols))
  !![G00, G01, G02, G03; G01, G11, G12, G13; G02, G12, G22, G23; G03, G13, G23, G33]

/-- `composeG` (src/relative_pose/modules/ge/modules.cpp lines 316-460). -/
def composeG (s : GeSums) (cayley : Vec3) : Matrix (Fin 4) (Fin 4) ℝ :=
  composeGR s (cayley2rotReduced cayley)

/-- The coefficients `B`, `C`, `D`, `E` (src/relative_pose/modules/ge/modules.cpp lines 69-72). -/
def quarticB (G : Matrix (Fin 4) (Fin 4) ℝ) : ℝ := -G 3 3 - G 2 2 - G 1 1 - G 0 0

@[inherit_doc quarticB]
def quarticC (G : Matrix (Fin 4) (Fin 4) ℝ) : ℝ :=
  -(G 2 3 * G 2 3) + G 2 2 * G 3 3 - G 1 3 * G 1 3 - G 1 2 * G 1 2 + G 1 1 * G 3 3 +
    G 1 1 * G 2 2 - G 0 3 * G 0 3 - G 0 2 * G 0 2 - G 0 1 * G 0 1 + G 0 0 * G 3 3 +
    G 0 0 * G 2 2 + G 0 0 * G 1 1

@[inherit_doc quarticB]
def quarticD (G : Matrix (Fin 4) (Fin 4) ℝ) : ℝ :=
  G 1 3 * G 1 3 * G 2 2 - 2 * G 1 2 * G 1 3 * G 2 3 + G 1 2 * G 1 2 * G 3 3 +
    G 1 1 * (G 2 3 * G 2 3) - G 1 1 * G 2 2 * G 3 3 + G 0 3 * G 0 3 * G 2 2 +
    G 0 3 * G 0 3 * G 1 1 - 2 * G 0 2 * G 0 3 * G 2 3 + G 0 2 * G 0 2 * G 3 3 +
    G 0 2 * G 0 2 * G 1 1 - 2 * G 0 1 * G 0 3 * G 1 3 - 2 * G 0 1 * G 0 2 * G 1 2 +
    G 0 1 * G 0 1 * G 3 3 + G 0 1 * G 0 1 * G 2 2 + G 0 0 * (G 2 3 * G 2 3) -
    G 0 0 * G 2 2 * G 3 3 + G 0 0 * (G 1 3 * G 1 3) + G 0 0 * (G 1 2 * G 1 2) -
    G 0 0 * G 1 1 * G 3 3 - G 0 0 * G 1 1 * G 2 2

@[inherit_doc quarticB]
def quarticE (G : Matrix (Fin 4) (Fin 4) ℝ) : ℝ :=
  G 0 3 * G 0 3 * (G 1 2 * G 1 2) - G 0 3 * G 0 3 * G 1 1 * G 2 2 -
    2 * G 0 2 * G 0 3 * G 1 2 * G 1 3 + 2 * G 0 2 * G 0 3 * G 1 1 * G 2 3 +
    G 0 2 * G 0 2 * (G 1 3 * G 1 3) - G 0 2 * G 0 2 * G 1 1 * G 3 3 +
    2 * G 0 1 * G 0 3 * G 1 3 * G 2 2 - 2 * G 0 1 * G 0 3 * G 1 2 * G 2 3 -
    2 * G 0 1 * G 0 2 * G 1 3 * G 2 3 + 2 * G 0 1 * G 0 2 * G 1 2 * G 3 3 +
    G 0 1 * G 0 1 * (G 2 3 * G 2 3) - G 0 1 * G 0 1 * G 2 2 * G 3 3 -
    G 0 0 * (G 1 3 * G 1 3) * G 2 2 + 2 * G 0 0 * G 1 2 * G 1 3 * G 2 3 -
    G 0 0 * (G 1 2 * G 1 2) * G 3 3 - G 0 0 * G 1 1 * (G 2 3 * G 2 3) +
    G 0 0 * G 1 1 * G 2 2 * G 3 3

open Classical in
/-- The closed-form roots (src/relative_pose/modules/ge/modules.cpp lines 74-99) of the quartic with
the coefficients `1, B, C, D, E`: the pair `(roots[2], roots[3])`. `none` is a NaN or an infinity: a
fractional power or a square root of a negative number, a division by zero, or an inverse cosine
outside `[-1, 1]`. -/
noncomputable def quarticRoots (B C D E : ℝ) : Option (ℝ × ℝ) :=
  let B_pw2 := B * B
  let B_pw3 := B_pw2 * B
  let B_pw4 := B_pw3 * B
  let alpha := -0.375 * B_pw2 + C
  let beta := B_pw3 / 8 - B * C / 2 + D
  let gamma := -0.01171875 * B_pw4 + B_pw2 * C / 16 - B * D / 4 + E
  let alpha_pw2 := alpha * alpha
  let alpha_pw3 := alpha_pw2 * alpha
  let p := -alpha_pw2 / 12 - gamma
  let q := -alpha_pw3 / 108 + alpha * gamma / 3 - beta ^ 2 / 8
  let helper1 := -p ^ 3 / 27
  let theta2 := helper1 ^ ((1 : ℝ) / 3)
  let theta1 := √theta2 * Real.cos (1 / 3 * Real.arccos (-q / 2 / √helper1))
  let y := -(5 / 6) * alpha - (1 / 3 * p * theta1 - theta1 * theta2) / theta2
  let w := √(alpha + 2 * y)
  let temp1 := -B / 4 - 0.5 * w
  let temp2 := 0.5 * √(-3 * alpha - 2 * y + 2 * beta / w)
  if helper1 ≤ 0 ∨ 1 < |-q / 2 / √helper1| ∨ alpha + 2 * y ≤ 0 ∨
      -3 * alpha - 2 * y + 2 * beta / w < 0 then none
  else some (temp1 + temp2, temp1 - temp2)

/-- `getEV` (src/relative_pose/modules/ge/modules.cpp lines 36-100). -/
noncomputable def getEV (G : Matrix (Fin 4) (Fin 4) ℝ) : Option (ℝ × ℝ) :=
  quarticRoots (quarticB G) (quarticC G) (quarticD G) (quarticE G)

/-- `getCost` (src/relative_pose/modules/ge/modules.cpp lines 102-130) for the steps 0 and 1. -/
noncomputable def getCost (s : GeSums) (cayley : Vec3) (step : Fin 2) : Option ℝ :=
  (getEV (composeG s cayley)).map fun r => if step = 0 then r.1 else r.2

/-- Comparison of doubles where `none` is a NaN: false when one of the two is a NaN. -/
def nanLt : Option ℝ → Option ℝ → Prop
  | some a, some b => a < b
  | _, _ => False

/-- `getQuickJacobian` (src/relative_pose/modules/ge/modules.cpp lines 284-314): forward differences
of the cost, not divided by the step. -/
noncomputable def getQuickJacobian (cost : Vec3 → Option ℝ) (cayley : Vec3)
    (currentValue : Option ℝ) : Option Vec3 := do
  let eps := 0.00000001
  let v ← currentValue
  let c0 ← cost (Function.update cayley 0 (cayley 0 + eps))
  let c1 ← cost (Function.update cayley 1 (cayley 1 + eps))
  let c2 ← cost (Function.update cayley 2 (cayley 2 + eps))
  return ![c0 - v, c1 - v, c2 - v]

open Classical in
/-- The normalised Jacobian (src/relative_pose/modules/main.cpp lines 945-946): `none` (NaN) when the
Jacobian is a NaN or zero. -/
noncomputable def normalizedJacobian (jacobian : Option Vec3) : Option Vec3 :=
  jacobian.bind fun j =>
    let norm := √(j 0 ^ 2 + j 1 ^ 2 + j 2 ^ 2)
    if norm = 0 then none else some ((1 / norm) • j)

/-- The state of the descent. A `none` is a NaN. -/
structure GeState where
  cayley : Option Vec3
  smallestEV : Option ℝ
  lambda : ℝ

open Classical in
/-- The loop that increases `lambda` (src/relative_pose/modules/main.cpp lines 958-976): `at l` is the
cost at the sampling point for the step `l`, and the arguments are `lambda`, `smallestEV` and
`samplingEV`. The first argument bounds the number of rounds; four are enough, because `lambda`
starts at 0.01 or more and is doubled only up to 0.08. -/
noncomputable def growLoop (at_ : ℝ → Option ℝ) : ℕ → ℝ → Option ℝ → Option ℝ →
    ℝ × Option ℝ × Option ℝ
  | 0, lambda, smallestEV, samplingEV => (lambda, smallestEV, samplingEV)
  | n + 1, lambda, smallestEV, samplingEV =>
    if nanLt samplingEV smallestEV then
      if 0.08 < lambda * 2 then (lambda, samplingEV, samplingEV)
      else growLoop at_ n (lambda * 2) samplingEV (at_ (lambda * 2))
    else (lambda, smallestEV, samplingEV)

open Classical in
/-- The loop that decreases `lambda` (src/relative_pose/modules/main.cpp lines 978-990). `none`: not
finished within `fuel` rounds. -/
noncomputable def shrinkLoop (at_ : ℝ → Option ℝ) (smallestEV : Option ℝ) : ℕ → ℝ → Option ℝ →
    Option ℝ
  | 0, _, _ => none
  | n + 1, lambda, samplingEV =>
    if nanLt smallestEV samplingEV then
      shrinkLoop at_ smallestEV n (lambda / 2) (at_ (lambda / 2))
    else some lambda

open Classical in
/-- One iteration of the descent (src/relative_pose/modules/main.cpp lines 941-994). `step c l d` is
the computed value of `cayley - lambda * normalizedJacobian`; in exact arithmetic it is
`c - l • d`. -/
noncomputable def geIteration (cost : Vec3 → Option ℝ) (step : Vec3 → ℝ → Vec3 → Vec3) (fuel : ℕ)
    (first : Bool) (st : GeState) : Option GeState :=
  let dir := st.cayley.bind fun c => normalizedJacobian (getQuickJacobian cost c st.smallestEV)
  let point : ℝ → Option Vec3 := fun l => st.cayley.bind fun c => dir.map fun d => step c l d
  let at_ : ℝ → Option ℝ := fun l => (point l).bind cost
  let samplingEV := at_ st.lambda
  let g := if first then growLoop at_ 4 st.lambda st.smallestEV samplingEV
    else (st.lambda, st.smallestEV, samplingEV)
  (shrinkLoop at_ g.2.1 fuel g.1 g.2.2).map fun l => ⟨point l, at_ l, l⟩

open Classical in
/-- The iterations of one trial (src/relative_pose/modules/main.cpp lines 935-1001) with `n`
iterations left. -/
noncomputable def geDescend (cost : Vec3 → Option ℝ) (step : Vec3 → ℝ → Vec3 → Vec3) (fuel : ℕ) :
    ℕ → Bool → GeState → Option GeState
  | 0, _, st => some st
  | n + 1, first, st =>
    (geIteration cost step fuel first st).bind fun st' =>
      if st'.lambda < 0.00001 then some st' else geDescend cost step fuel n false st'

/-- The start of a trial (src/relative_pose/modules/main.cpp lines 919-933): in the first one the
starting point, later the starting point with a random disturbance. `rnd k i` is
`rand() / RAND_MAX`, a number between 0 and 1. -/
noncomputable def geStart (startingPoint : Vec3) (rnd : ℕ → Vec3) (trial : ℕ) : Vec3 :=
  let disturbanceAmplitude : ℝ := if 2 < trial then 0.6 else 0.3
  if trial = 0 then startingPoint
  else startingPoint + fun i => (rnd trial i - 0.5) * 2 * disturbanceAmplitude

open Classical in
/-- The trials (src/relative_pose/modules/main.cpp lines 917-1016) with `n` left. `cost2` is
`getCost` with step 0. -/
noncomputable def geTrials (cost cost2 : Vec3 → Option ℝ) (step : Vec3 → ℝ → Vec3 → Vec3)
    (fuel : ℕ) (startingPoint : Vec3) (rnd : ℕ → Vec3) : ℕ → ℕ → Option Vec3 → Option (Option Vec3)
  | 0, _, cayley => some cayley
  | n + 1, trial, _ =>
    let start := geStart startingPoint rnd trial
    (geDescend cost step fuel 50 true ⟨some start, cost start, 0.01⟩).bind fun st =>
      match st.cayley with
      | none => some none
      | some c =>
        if norm3 c < 0.01 ∧ nanLt (some 0.001) (cost2 c) then
          geTrials cost cost2 step fuel startingPoint rnd n (trial + 1) (some c)
        else some (some c)

/-- The descent of `ge_main2` (src/relative_pose/modules/main.cpp lines 898-1016). The outer `none`:
a loop has not finished within `fuel` rounds; the inner `none`: the result is a NaN. -/
noncomputable def geSearch (s : GeSums) (step : Vec3 → ℝ → Vec3 → Vec3) (fuel : ℕ)
    (startingPoint : Vec3) (rnd : ℕ → Vec3) : Option (Option Vec3) :=
  geTrials (fun c => getCost s c 1) (fun c => getCost s c 0) step fuel startingPoint rnd 5 0 none

/-- `geOutput_t`. -/
structure GeOutput where
  translation : Fin 4 → ℝ
  rotation : Mat3
  eigenvalues : Fin 4 → ℝ
  eigenvectors : Matrix (Fin 4) (Fin 4) ℝ

open Classical in
/-- The end of `ge_main2` (src/relative_pose/modules/main.cpp lines 1018-1047). `cayley` is the
result of the descent, `D` and `V` are the results of Eigen's `EigenSolver` on `composeG`, and `π`
is the order found by `std::sort`. `none` is the division by a zero component. -/
noncomputable def geFinish (cayley : Vec3) (D : Fin 4 → ℂ) (V : Matrix (Fin 4) (Fin 4) ℂ)
    (π : Equiv.Perm (Fin 4)) : Option GeOutput :=
  let D' : Fin 4 → ℝ := fun i => (D (π i)).re
  let V' : Matrix (Fin 4) (Fin 4) ℝ := of fun j i => (V j (π i)).re
  let factor := V' 3 3
  if factor = 0 then none
  else some
    { translation := (1 / factor) • fun j => V' j 3
      rotation := cayley2rot cayley
      eigenvalues := D'
      eigenvectors := V' }

end OpenGV
