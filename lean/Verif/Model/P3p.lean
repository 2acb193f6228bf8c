import Verif.Model.Arun
import Verif.Model.Roots

/-!
# Model of the minimal central solvers for the absolute pose

`p2p` of `src/absolute_pose/methods.cpp`, `p3p_kneip_main` and `p3p_gao_main` of
`src/absolute_pose/modules/main.cpp`. The wrappers `p3p_kneip` and `p3p_gao` only copy the three
bearing vectors and points. A pose `(t, R)` is the position and orientation of the camera: a point
`c` in the frame of the camera is `R c + t` in the frame of the world.
-/

namespace OpenGV

open Matrix

/-- The frame with the rows `a`, `e3 x a` and `e3`, where `e3` is `a x b` divided by its norm
(src/absolute_pose/methods.cpp lines 62-71, src/absolute_pose/modules/main.cpp lines 69-77, 87-94
and 105-112). `none` is the division by a zero norm. -/
noncomputable def frameOf (a b : Vec3) : Option Mat3 :=
  (normalize3 (crossProduct a b)).map fun e3 => Matrix.of ![a, crossProduct e3 a, e3]

/-- The cotangent `b` (src/absolute_pose/methods.cpp lines 110-116, src/absolute_pose/modules/main.cpp
lines 122-128) for `1 - cos_beta^2 > 0`. -/
noncomputable def cotOf (cos_beta : ℝ) : ℝ :=
  let b := 1 / (1 - cos_beta ^ 2) - 1
  if cos_beta < 0 then -√b else √b

/-! ## P2P -/

/-- The vector `n3` before it is divided by its norm (src/absolute_pose/methods.cpp lines 75-96).
`none` is a division by zero. -/
noncomputable def p2pNormal (n1 : Vec3) : Option Vec3 :=
  if |n1 1| < |n1 0| ∧ |n1 2| < |n1 0| then some ![-n1 1 / n1 0, 1, 0]
  else if |n1 0| < |n1 1| ∧ |n1 2| < |n1 1| then some ![0, -n1 2 / n1 1, 1]
  else if n1 2 = 0 then none
  else some ![1, 0, -n1 0 / n1 2]

/-- `p2p` up to the test for NaN (src/absolute_pose/methods.cpp lines 62-121). `none` is a NaN in
every component: a division by zero or the square root of a negative number. -/
noncomputable def p2pRaw (R : Mat3) (f0 f1 P0 P1 : Vec3) : Option Vec3 := do
  let T ← frameOf f0 f1
  let n1 ← normalize3 (P1 - P0)
  let n3' ← p2pNormal n1
  let n3 ← normalize3 n3'
  let n2 := crossProduct n3 n1
  let N : Mat3 := Matrix.of ![n1, n2, n3]
  let Q : Mat3 := T * R.transpose * N.transpose
  let d_12 := norm3 (P1 - P0)
  let cos_beta := f0 ⬝ᵥ f1
  if 1 - cos_beta ^ 2 < 0 then none
  else
    let b := cotOf cos_beta
    let temp3 := d_12 * (Q 1 0 * b - Q 0 0)
    return P0 + N.transpose *ᵥ (-temp3 • Q 0)

/-- `p2p` (src/absolute_pose/methods.cpp lines 56-130): a NaN is replaced by zero. `none`: for
`cos_beta^2 = 1` the result may be infinite (this cannot happen for unit bearing vectors that are
not parallel). -/
noncomputable def p2p (R : Mat3) (f0 f1 P0 P1 : Vec3) : Option Vec3 :=
  if 1 - (f0 ⬝ᵥ f1) ^ 2 = 0 ∧ p2pRaw R f0 f1 P0 P1 ≠ none then none
  else some ((p2pRaw R f0 f1 P0 P1).getD 0)

/-! ## Kneip's P3P -/

/-- The numbers from which the quartic is built. -/
structure KneipData where
  f_1 : ℝ
  f_2 : ℝ
  p_1 : ℝ
  p_2 : ℝ
  d_12 : ℝ
  b : ℝ

/-- `factors` (src/absolute_pose/modules/main.cpp lines 130-176). -/
def kneipFactors (k : KneipData) : Fin 5 → ℝ :=
  let f_1 := k.f_1
  let f_2 := k.f_2
  let p_1 := k.p_1
  let p_2 := k.p_2
  let d_12 := k.d_12
  let b := k.b
  ![-f_2 ^ 2 * p_2 ^ 4 - p_2 ^ 4 * f_1 ^ 2 - p_2 ^ 4,
    2 * p_2 ^ 3 * d_12 * b + 2 * f_2 ^ 2 * p_2 ^ 3 * d_12 * b - 2 * f_2 * p_2 ^ 3 * f_1 * d_12,
    -f_2 ^ 2 * p_2 ^ 2 * p_1 ^ 2 - f_2 ^ 2 * p_2 ^ 2 * d_12 ^ 2 * b ^ 2 -
      f_2 ^ 2 * p_2 ^ 2 * d_12 ^ 2 + f_2 ^ 2 * p_2 ^ 4 + p_2 ^ 4 * f_1 ^ 2 +
      2 * p_1 * p_2 ^ 2 * d_12 + 2 * f_1 * f_2 * p_1 * p_2 ^ 2 * d_12 * b -
      p_2 ^ 2 * p_1 ^ 2 * f_1 ^ 2 + 2 * p_1 * p_2 ^ 2 * f_2 ^ 2 * d_12 -
      p_2 ^ 2 * d_12 ^ 2 * b ^ 2 - 2 * p_1 ^ 2 * p_2 ^ 2,
    2 * p_1 ^ 2 * p_2 * d_12 * b + 2 * f_2 * p_2 ^ 3 * f_1 * d_12 -
      2 * f_2 ^ 2 * p_2 ^ 3 * d_12 * b - 2 * p_1 * p_2 * d_12 ^ 2 * b,
    -2 * f_2 * p_2 ^ 2 * f_1 * p_1 * d_12 * b + f_2 ^ 2 * p_2 ^ 2 * d_12 ^ 2 +
      2 * p_1 ^ 3 * d_12 - p_1 ^ 2 * d_12 ^ 2 + f_2 ^ 2 * p_2 ^ 2 * p_1 ^ 2 - p_1 ^ 4 -
      2 * f_2 ^ 2 * p_2 ^ 2 * p_1 * d_12 + p_2 ^ 2 * f_1 ^ 2 * p_1 ^ 2 +
      f_2 ^ 2 * p_2 ^ 2 * d_12 ^ 2 * b ^ 2]

/-- The denominator of `cot_alpha` (src/absolute_pose/modules/main.cpp line 184). -/
noncomputable def kneipDen (k : KneipData) (x : ℝ) : ℝ :=
  -k.f_1 * x * k.p_2 / k.f_2 + k.p_1 - k.d_12

/-- `cot_alpha` (src/absolute_pose/modules/main.cpp lines 182-184). -/
noncomputable def kneipCot (k : KneipData) (x : ℝ) : ℝ :=
  (-k.f_1 * k.p_1 / k.f_2 - x * k.p_2 + k.d_12 * k.b) / kneipDen k x

/-- The position and the orientation for given angles (src/absolute_pose/modules/main.cpp lines
194-216). -/
def kneipPose (d_12 b : ℝ) (P1 : Vec3) (N T : Mat3)
    (sin_alpha cos_alpha sin_theta cos_theta : ℝ) : Vec3 × Mat3 :=
  let C : Vec3 := ![d_12 * cos_alpha * (sin_alpha * b + cos_alpha),
    cos_theta * d_12 * sin_alpha * (sin_alpha * b + cos_alpha),
    sin_theta * d_12 * sin_alpha * (sin_alpha * b + cos_alpha)]
  let R : Mat3 := !![-cos_alpha, -sin_alpha * cos_theta, -sin_alpha * sin_theta;
    sin_alpha, -cos_alpha * cos_theta, -cos_alpha * sin_theta;
    0, -sin_theta, cos_theta]
  (P1 + N.transpose *ᵥ C, N.transpose * R.transpose * T)

/-- The pose for one root (src/absolute_pose/modules/main.cpp lines 182-216). `none` is a division by
zero in `cot_alpha` or the square root of a negative number. -/
noncomputable def kneipOne (k : KneipData) (P1 : Vec3) (N T : Mat3) (x : ℝ) :
    Option (Vec3 × Mat3) :=
  if k.f_2 = 0 ∨ kneipDen k x = 0 ∨ 1 - x ^ 2 < 0 then none
  else
    let cot_alpha := kneipCot k x
    let sin_theta := √(1 - x ^ 2)
    let sin_alpha := √(1 / (cot_alpha ^ 2 + 1))
    let cos_alpha := √(1 - sin_alpha ^ 2)
    let cos_alpha := if cot_alpha < 0 then -cos_alpha else cos_alpha
    some (kneipPose k.d_12 k.b P1 N T sin_alpha cos_alpha sin_theta x)

/-- The solver once the order of the first two correspondences is chosen
(src/absolute_pose/modules/main.cpp lines 103-219), `T` being the frame of `f1` and `f2`. A `none`
in the result is a pose with entries that are not finite. The first `none` is a zero third component
of `f3`, the later ones are divisions by zero in the frame of the points and in `o4_roots`. -/
noncomputable def kneipSolve (f1 f2 f3 P1 P2 P3 : Vec3) (T : Mat3) :
    List (Option (Vec3 × Mat3)) :=
  let g := T *ᵥ f3
  match (normalize3 (P2 - P1)).bind fun n1 => frameOf n1 (P3 - P1) with
  | none => [none, none, none, none]
  | some N =>
    let q := N *ᵥ (P3 - P1)
    let k : KneipData :=
      { f_1 := g 0 / g 2
        f_2 := g 1 / g 2
        p_1 := q 0
        p_2 := q 1
        d_12 := norm3 (P2 - P1)
        b := cotOf (f1 ⬝ᵥ f2) }
    if g 2 = 0 ∨ 1 - (f1 ⬝ᵥ f2) ^ 2 ≤ 0 then [none, none, none, none]
    else
      let a := kneipFactors k
      match o4Roots (a 0) (a 1) (a 2) (a 3) (a 4) with
      | none => [none, none, none, none]
      | some roots => roots.map (kneipOne k P1 N T)

/-- `p3p_kneip_main` (src/absolute_pose/modules/main.cpp lines 49-220). `d_12` is computed from the
points before the exchange (line 116), which is the same number. -/
noncomputable def p3pKneip (f1 f2 f3 P1 P2 P3 : Vec3) : List (Option (Vec3 × Mat3)) :=
  if norm3 (crossProduct (P2 - P1) (P3 - P1)) = 0 then []
  else
    match frameOf f1 f2, frameOf f2 f1 with
    | some T, some T' =>
      if 0 < (T *ᵥ f3) 2 then kneipSolve f2 f1 f3 P2 P1 P3 T'
      else kneipSolve f1 f2 f3 P1 P2 P3 T
    | _, _ => [none, none, none, none]

/-! ## Gao's P3P -/

/-- The numbers `a`, `b`, `p`, `q`, `r`. -/
structure GaoData where
  a : ℝ
  b : ℝ
  p : ℝ
  q : ℝ
  r : ℝ

/-- `factors` (src/absolute_pose/modules/main.cpp lines 265-279). -/
def gaoFactors (k : GaoData) : Fin 5 → ℝ :=
  let a := k.a
  let b := k.b
  let p := k.p
  let q := k.q
  let r := k.r
  let aSq := a * a
  let bSq := b * b
  let pSq := p * p
  let qSq := q * q
  let rSq := r * r
  ![-2 * b + bSq + aSq + 1 - b * rSq * a + 2 * b * a - 2 * a,
    -2 * b * q * a - 2 * aSq * q + b * rSq * q * a - 2 * q + 2 * b * q + 4 * a * q + p * b * r +
      b * r * p * a - bSq * r * p,
    qSq + bSq * rSq - b * pSq - q * p * b * r + bSq * pSq - b * rSq * a + 2 - 2 * bSq -
      a * b * r * p * q + 2 * aSq - 4 * a - 2 * qSq * a + qSq * aSq,
    -bSq * r * p + b * r * p * a - 2 * aSq * q + q * pSq * b + 2 * b * q * a + 4 * a * q +
      p * b * r - 2 * b * q - 2 * q,
    1 - 2 * a + 2 * b + bSq - b * pSq + aSq - 2 * b * a]

/-- `b0` (src/absolute_pose/modules/main.cpp lines 285-286). -/
def gaoB0 (k : GaoData) : ℝ :=
  let pSq := k.p * k.p
  let rSq := k.r * k.r
  let temp := pSq * (k.a - 1 + k.b) + k.p * k.q * k.r - k.q * k.a * k.r * k.p +
    (k.a - 1 - k.b) * rSq
  k.b * temp * temp

/-- `b1_part1` (src/absolute_pose/modules/main.cpp lines 304-305). -/
def gaoPart1 (k : GaoData) (x : ℝ) : ℝ :=
  (1 - k.a - k.b) * (x * x) + (k.q * k.a - k.q) * x + (1 - k.a + k.b)

/-- `b1_part2` (src/absolute_pose/modules/main.cpp lines 307-321). -/
def gaoPart2 (k : GaoData) (x : ℝ) : ℝ :=
  let a := k.a
  let b := k.b
  let p := k.p
  let q := k.q
  let r := k.r
  let aSq := a * a
  let bSq := b * b
  let pSq := p * p
  let qSq := q * q
  let rSq := r * r
  let rCb := rSq * r
  (aSq * rCb + 2 * b * rCb * a - b * rSq * rCb * a - 2 * a * rCb + rCb + bSq * rCb -
      2 * rCb * b) * (x * x * x) +
    (p * rSq + p * aSq * rSq - 2 * b * rCb * q * a + 2 * rCb * b * q - 2 * rCb * q -
      2 * p * (a + b) * rSq + rSq * rSq * p * b + 4 * a * rCb * q + b * q * a * rCb * rSq -
      2 * rCb * aSq * q + 2 * rSq * p * b * a + bSq * rSq * p - rSq * rSq * p * bSq) * (x * x) +
    (rCb * qSq + rSq * rCb * bSq + r * pSq * bSq - 4 * a * rCb - 2 * a * rCb * qSq +
      rCb * qSq * aSq + 2 * aSq * rCb - 2 * bSq * rCb - 2 * pSq * b * r + 4 * p * a * rSq * q +
      2 * a * pSq * r * b - 2 * a * rSq * q * b * p - 2 * pSq * a * r + r * pSq -
      b * rSq * rCb * a + 2 * p * rSq * b * q + r * pSq * aSq - 2 * p * q * rSq + 2 * rCb -
      2 * rSq * p * aSq * q - rSq * rSq * q * b * p) * x +
    (4 * a * rCb * q + p * rSq * qSq + 2 * pSq * p * b * a - 4 * p * a * rSq - 2 * rCb * b * q -
      2 * pSq * q * r - 2 * bSq * rSq * p + rSq * rSq * p * b + 2 * p * aSq * rSq -
      2 * rCb * aSq * q - 2 * pSq * p * a + pSq * p * aSq + 2 * p * rSq + pSq * p +
      2 * b * rCb * q * a + 2 * q * pSq * b * r + 4 * q * a * r * pSq - 2 * p * a * rSq * qSq -
      2 * pSq * aSq * r * q + p * aSq * rSq * qSq - 2 * rCb * q - 2 * pSq * p * b +
      pSq * p * bSq - 2 * pSq * b * r * q * a)

/-- The depths `(X, Y, Z)` for one root (src/absolute_pose/modules/main.cpp lines 304-360). `none`:
the division by `b0 = 0`, or `v` is not positive. -/
noncomputable def gaoDepths (k : GaoData) (AB x : ℝ) : Option (ℝ × ℝ × ℝ) :=
  if gaoB0 k = 0 then none
  else
    let y := gaoPart1 k x * gaoPart2 k x / gaoB0 k
    let v := x * x + y ^ 2 - k.r * (x * y)
    if v ≤ 0 then none
    else
      let Z := AB / √v
      some (x * Z, y * Z, Z)

/-- The numbers `a`, `b`, `p`, `q`, `r` (src/absolute_pose/modules/main.cpp lines 232-252). -/
noncomputable def gaoData (f1 f2 f3 A B C : Vec3) : GaoData :=
  { a := (norm3 (B - C) / norm3 (A - B)) ^ 2
    b := (norm3 (A - C) / norm3 (A - B)) ^ 2
    p := 2 * (f2 ⬝ᵥ f3)
    q := 2 * (f1 ⬝ᵥ f3)
    r := 2 * (f1 ⬝ᵥ f2) }

/-- `p3p_gao_main` (src/absolute_pose/modules/main.cpp lines 222-373); `svd` is the decomposition used
by `arun_complete`. A `none` in the result is a pose with entries that are not finite. -/
noncomputable def p3pGao (svd : Mat3 → Mat3 × Mat3) (f1 f2 f3 A B C : Vec3) :
    List (Option (Vec3 × Mat3)) :=
  let k := gaoData f1 f2 f3 A B C
  let F := gaoFactors k
  if k.p * k.p + k.q * k.q + k.r * k.r - k.p * k.q * k.r - 1 = 0 then []
  else if norm3 (A - B) = 0 then [none, none, none, none]
  else if F 0 = 0 then []
  else
    match o4Roots (F 0) (F 1) (F 2) (F 3) (F 4) with
    | none => [none, none, none, none]
    | some roots => roots.map fun x =>
      (gaoDepths k (norm3 (A - B)) x).bind fun d =>
        arunComplete svd [(A, d.1 • f1), (B, d.2.1 • f2), (C, d.2.2 • f3)]

end OpenGV
