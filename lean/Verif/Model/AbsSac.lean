import Verif.Model.SacProblems
import Verif.Model.P3p
import Verif.Model.Epnp
import Verif.Model.Gp3p

/-!
# Model of the hypotheses of the absolute pose problems

`computeModelCoefficients` of `AbsolutePoseSacProblem` and `MultiNoncentralAbsolutePoseSacProblem`.
The four accessors of a correspondence are called together (`AbsAdapter.read`), also where the code
uses only some of them.
-/

namespace OpenGV

open Matrix Adapters

/-- `algorithm_t` (AbsolutePoseSacProblem.hpp lines 78-85). -/
inductive AbsAlg where
  | twopt
  | kneip
  | gao
  | epnp
  | gp3p

/-- `getSampleSize` (AbsolutePoseSacProblem.cpp lines 213-223). -/
def absSampleSize : AbsAlg → ℕ
  | .twopt => 2
  | .epnp => 6
  | _ => 4

/-- The decompositions that the solvers call. -/
structure AbsSolvers where
  svd : Mat3 → Mat3 × Mat3
  epnp : EpnpSvds
  eig : Matrix (Fin 8) (Fin 8) ℝ → (Fin 8 → ℂ) × Matrix (Fin 8) (Fin 8) ℂ

/-- `solutions` after the switch: a read outside a vector, a value that the model leaves open (memory
that was never written, an infinite position, the decomposition of a matrix with NaN), or the list of
poses; `none` is a pose with NaN. -/
inductive AbsSolutions where
  | outside
  | unknown
  | sols (l : List (Option Pose))

/-- The correspondence at a position of the sample. -/
def sampleRead (A : AbsAdapter) (idx : List ℕ) (k : ℕ) : Option AbsObs :=
  match idx[k]? with
  | none => none
  | some i => A.read i

/-- The poses of a solver for one camera, moved into the body frame of the camera `o`, `C`
(AbsolutePoseSacProblem.cpp lines 63-73, 81-91). -/
def posesToBody (l : List (Option Pose)) (o : Vec3) (C : Mat3) : List (Option Pose) :=
  l.map fun P => P.map fun P => toBodyAbs P o C

/-- The switch over the algorithms (AbsolutePoseSacProblem.cpp lines 41-116). `R` is the rotation
stored in the adapter. -/
noncomputable def absSolutions (alg : AbsAlg) (S : AbsSolvers) (A : AbsAdapter) (R : Mat3)
    (idx : List ℕ) : AbsSolutions :=
  match alg with
  | .twopt =>
    match sampleRead A idx 0, sampleRead A idx 1 with
    | some a, some b =>
      match p2p R a.f b.f a.p b.p with
      | none => .unknown
      | some t => .sols [some (toBodyAbs (t, R) a.off a.rot)]
    | _, _ => .outside
  | .kneip =>
    match sampleRead A idx 0, sampleRead A idx 1, sampleRead A idx 2 with
    | some a, some b, some c => .sols (posesToBody (p3pKneip a.f b.f c.f a.p b.p c.p) a.off a.rot)
    | _, _, _ => .outside
  | .gao =>
    match sampleRead A idx 0, sampleRead A idx 1, sampleRead A idx 2 with
    | some a, some b, some c => .sols (posesToBody (p3pGao S.svd a.f b.f c.f a.p b.p c.p) a.off a.rot)
    | _, _, _ => .outside
  | .epnp =>
    match idx.mapM A.read with
    | some (a :: as) =>
      match OpenGV.epnp S.epnp ((a :: as).map fun o => (o.p, o.f)) with
      | .pose t Q => .sols [some (toBodyAbs (t, Q) a.off a.rot)]
      | .nan => .sols [none]
      | .uninit => .unknown
    | _ => .outside
  | .gp3p =>
    match idx with
    | i0 :: i1 :: i2 :: _ =>
      match OpenGV.gp3p A i0 i1 i2 S.eig with
      | none => .outside
      | some none => .unknown
      | some (some L) => .sols (L.map fun P => P.map fun P => (P.2, P.1))
    | _ => .outside

/-- What `computeModelCoefficients` ends with; `model none` is a model with NaN. -/
inductive AbsResult where
  | outside
  | unknown
  | failure
  | model (P : Option Pose)

/-- The score of a candidate for the fourth correspondence (lines 130-149); NaN for NaN. -/
noncomputable def absCandScore (o : AbsObs) (P : Option Pose) : Option ℝ :=
  match P with
  | none => none
  | some P => absScore P o.off o.rot o.p o.f

/-- The choice among the solutions (AbsolutePoseSacProblem.cpp lines 118-162): the fourth
correspondence is read only if there are several. -/
noncomputable def absChoose (A : AbsAdapter) (idx : List ℕ) (s : AbsSolutions) : AbsResult :=
  match s with
  | .outside => .outside
  | .unknown => .unknown
  | .sols [] => .failure
  | .sols [P] => .model P
  | .sols l =>
    match sampleRead A idx 3 with
    | none => .outside
    | some o =>
      match pickCandidate (absCandScore o) l with
      | none => .failure
      | some P => .model P

/-- `AbsolutePoseSacProblem::computeModelCoefficients` (lines 36-163). -/
noncomputable def absSac (alg : AbsAlg) (S : AbsSolvers) (A : AbsAdapter) (R : Mat3)
    (idx : List ℕ) : AbsResult :=
  absChoose A idx (absSolutions alg S A R idx)

/-- `MultiNoncentralAbsolutePoseSacProblem::computeModelCoefficients`
(MultiNoncentralAbsolutePoseSacProblem.cpp lines 36-112) for the serial indices of a sample. As a central
problem it uses the camera of the correspondence 0, whatever the sample is. -/
noncomputable def multiAbsSac (asCentral : Bool) (S : AbsSolvers) (A : AbsAdapter) (idx : List ℕ) :
    AbsResult :=
  match asCentral with
  | false => absChoose A idx (absSolutions .gp3p S A 1 idx)
  | true =>
    absChoose A idx <|
      match sampleRead A idx 0, sampleRead A idx 1, sampleRead A idx 2, A.getCamOffset 0,
        A.getCamRotation 0 with
      | some a, some b, some c, some o, some C =>
        .sols (posesToBody (p3pKneip a.f b.f c.f a.p b.p c.p) o C)
      | _, _, _, _, _ => .outside

/-- `optimizeModelCoefficients` (AbsolutePoseSacProblem.cpp lines 201-211) stores the model in the
adapter before the refinement: the rotation that the adapter holds afterwards. -/
def absPriorAfterOptimize (P : Pose) : Mat3 := P.2

end OpenGV
