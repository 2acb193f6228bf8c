import Verif.Model.Mex

/-!
# The documented Matlab interface

The methods by name, the shapes of the data each of them takes, and what the correspondences are
(header of matlab/opengv.cpp lines 35-53 and the error messages).
-/

namespace OpenGV.Spec

open Mex Adapters

/-- The families of methods. -/
inductive Family where
  | absCentral | absNoncentral | upnp | relCentral | relNoncentral | cloud
  deriving DecidableEq

/-- The family of a method, by its name. -/
def family (name : List Char) : Option Family :=
  if name ∈ ["p2p".toList, "p3p_kneip".toList, "p3p_gao".toList, "epnp".toList,
      "p3p_kneip_ransac".toList, "p3p_gao_ransac".toList, "epnp_ransac".toList,
      "abs_nonlin_central".toList] then some .absCentral
  else if name ∈ ["gp3p".toList, "gp3p_ransac".toList, "gpnp".toList,
      "abs_nonlin_noncentral".toList] then some .absNoncentral
  else if name = "upnp".toList then some .upnp
  else if name ∈ ["twopt".toList, "twopt_rotationOnly".toList, "rotationOnly".toList,
      "fivept_stewenius".toList, "fivept_nister".toList, "fivept_kneip".toList, "sevenpt".toList,
      "eightpt".toList, "eigensolver".toList, "rotationOnly_ransac".toList,
      "fivept_stewenius_ransac".toList, "fivept_nister_ransac".toList, "sevenpt_ransac".toList,
      "eightpt_ransac".toList, "eigensolver_ransac".toList, "rel_nonlin_central".toList] then
    some .relCentral
  else if name ∈ ["sixpt".toList, "seventeenpt".toList, "ge".toList, "sixpt_ransac".toList,
      "seventeenpt_ransac".toList, "ge_ransac".toList, "rel_nonlin_noncentral".toList] then
    some .relNoncentral
  else if name ∈ ["threept_arun".toList, "threept_arun_ransac".toList] then some .cloud
  else none

/-- The numbers of rows a family takes. -/
def Fits : Family → ℕ → ℕ → Prop
  | .absCentral, r1, r2 => r1 = 3 ∧ r2 = 3
  | .absNoncentral, r1, r2 => r1 = 3 ∧ r2 = 6
  | .upnp, r1, r2 => r1 = 3 ∧ (r2 = 3 ∨ r2 = 6)
  | .relCentral, r1, r2 => r1 = 3 ∧ r2 = 3
  | .relNoncentral, r1, r2 => r1 = 6 ∧ r2 = 6
  | .cloud, r1, r2 => r1 = 3 ∧ r2 = 3

/-- Sample consensus methods, by name. -/
def RansacName (name : List Char) : Prop := "_ransac".toList <:+ name

/-- What a method stands for: the sample consensus methods for a problem with the algorithm they are
named after, the nonlinear ones for the refinement, and every other one for the function of its name. -/
def meaning (name : List Char) : List Char :=
  match [("p3p_kneip_ransac".toList, "absRansac::KNEIP".toList),
      ("p3p_gao_ransac".toList, "absRansac::GAO".toList),
      ("epnp_ransac".toList, "absRansac::EPNP".toList),
      ("gp3p_ransac".toList, "absRansac::GP3P".toList),
      ("rotationOnly_ransac".toList, "rotRansac".toList),
      ("fivept_stewenius_ransac".toList, "relRansac::STEWENIUS".toList),
      ("fivept_nister_ransac".toList, "relRansac::NISTER".toList),
      ("sevenpt_ransac".toList, "relRansac::SEVENPT".toList),
      ("eightpt_ransac".toList, "relRansac::EIGHTPT".toList),
      ("eigensolver_ransac".toList, "eigRansac".toList),
      ("sixpt_ransac".toList, "nrelRansac::SIXPT".toList),
      ("seventeenpt_ransac".toList, "nrelRansac::SEVENTEENPT".toList),
      ("ge_ransac".toList, "nrelRansac::GE".toList),
      ("threept_arun_ransac".toList, "ptRansac".toList),
      ("abs_nonlin_central".toList, "optimize_nonlinear".toList),
      ("abs_nonlin_noncentral".toList, "optimize_nonlinear".toList),
      ("rel_nonlin_central".toList, "optimize_nonlinear".toList),
      ("rel_nonlin_noncentral".toList, "optimize_nonlinear".toList)].lookup name with
  | some f => f
  | none => name

/-- The three entries of column `i` of a Matlab matrix (stored column by column) from row `r0` on. -/
def IsColumn (a : MxArray) (r0 i : ℕ) (v : Vec3) : Prop :=
  ∃ rows cols, a.dims = [rows, cols] ∧ r0 + 3 ≤ rows ∧ i < cols ∧
    ∀ j : Fin 3, a.data[i * rows + (r0 + j)]? = some (v j)

/-- An absolute adapter shows correspondence `i` as: point in column `i` of `d1`, bearing vector in
column `i` of `d2`, camera offset below it in a matrix of six rows. -/
def ShowsAbs (A : AbsAdapter) (d1 d2 : MxArray) (n : ℕ) (central : Bool) : Prop :=
  A.getNumberCorrespondences = n ∧ ∀ i < n, ∃ f p o : Vec3,
    A.read i = some ⟨f, p, o, 1⟩ ∧ IsColumn d1 0 i p ∧ IsColumn d2 0 i f ∧
    (if central then o = 0 else IsColumn d2 3 i o)

/-- The same for a relative adapter, with bearing vectors in both matrices. -/
def ShowsRel (A : RelAdapter) (d1 d2 : MxArray) (n : ℕ) (central : Bool) : Prop :=
  A.getNumberCorrespondences = n ∧ ∀ i < n, ∃ f1 f2 o1 o2 : Vec3,
    A.read i = some ⟨f1, f2, o1, 1, o2, 1⟩ ∧ IsColumn d1 0 i f1 ∧ IsColumn d2 0 i f2 ∧
    (if central then o1 = 0 ∧ o2 = 0 else IsColumn d1 3 i o1 ∧ IsColumn d2 3 i o2)

/-- The same for point clouds. -/
def ShowsCloud (A : CloudAdapter) (d1 d2 : MxArray) (n : ℕ) : Prop :=
  A.getNumberCorrespondences = n ∧ ∀ i < n, ∃ p1 p2 : Vec3,
    A.read i = some (p1, p2) ∧ IsColumn d1 0 i p1 ∧ IsColumn d2 0 i p2

/-- The adapter a method of the family needs for the matrices `d1`, `d2` of `n` columns; `r2` is the
number of rows of `d2`. -/
def Shows (g : Family) (r2 : ℕ) (d1 d2 : MxArray) (n : ℕ) (A : MexAdapter) : Prop :=
  match g with
  | .absCentral => ∃ B, A = .absolute B ∧ ShowsAbs B d1 d2 n true
  | .absNoncentral => ∃ B, A = .absolute B ∧ ShowsAbs B d1 d2 n false
  | .upnp => ∃ B, A = .absolute B ∧ ShowsAbs B d1 d2 n (r2 = 3)
  | .relCentral => ∃ B, A = .relative B ∧ ShowsRel B d1 d2 n true
  | .relNoncentral => ∃ B, A = .relative B ∧ ShowsRel B d1 d2 n false
  | .cloud => ∃ B, A = .cloud B ∧ ShowsCloud B d1 d2 n

/-- The optional arguments. -/
inductive Extra where
  | none
  | indices (ix : MxArray)
  | prior (ix P : MxArray)

/-- The arguments after the method, in the order of the three signatures. -/
def Extra.args : Extra → MxArray → MxArray → List MxArray
  | .none, d1, d2 => [d1, d2]
  | .indices ix, d1, d2 => [ix, d1, d2]
  | .prior ix P, d1, d2 => [ix, d1, d2, P]

/-- The optional arguments have the documented shapes: `indices` is 1 x m with m not above n, `prior`
is 3 x 1, 3 x 3 or 3 x 4. -/
def Extra.Fits (n : ℕ) : Extra → Prop
  | .none => True
  | .indices ix => ∃ m ≤ n, ix.dims = [1, m]
  | .prior ix P => (∃ m ≤ n, ix.dims = [1, m]) ∧ (P.dims = [3, 1] ∨ P.dims = [3, 3] ∨ P.dims = [3, 4])

/-- The class of an array is `double`: as many numbers as entries. -/
def IsDouble (a : MxArray) : Prop := a.data.length = a.dims.prod

/-- All optional arguments are of class `double`, and the indices are of a reasonable size. -/
def Extra.Double : Extra → Prop
  | .none => True
  | .indices ix => IsDouble ix ∧ ∀ x ∈ ix.data, |x| ≤ 2 ^ 30
  | .prior ix P => (IsDouble ix ∧ ∀ x ∈ ix.data, |x| ≤ 2 ^ 30) ∧ IsDouble P

end OpenGV.Spec
