import Mathlib.Algebra.Field.Defs
import Mathlib.Algebra.BigOperators.Group.Finset.Basic
import Mathlib.Algebra.BigOperators.Ring.Finset
import Mathlib.Data.List.Basic

/-!
# The generated elimination programs

`gpnp1` to `gpnp5`, `gp3p` (src/absolute_pose/modules) and `fivept_kneip`
(src/relative_pose/modules) contain straight-line programs written by a generator of Groebner
bases. Each of them works on one matrix, `groebnerMatrix`, whose rows are polynomials and whose
columns stand for monomials. The programs consist of five kinds of statements. The tables of
statements are in `Model/Gpnp*Table`, `Model/Gp3pTable` and `Model/FiveKneipTable`, transcribed by
`tools/gen_groebner.py`.

A division by zero gives `none`: in the code it yields an infinity or NaN.
-/

namespace OpenGV

/-- The matrix of the elimination programs, by row and column. -/
abbrev GMat (K : Type) := ℕ → ℕ → K

/-- The statements. Pairs and triples of columns are packed in decimal: `a * 1000 + b` and
`c * 1000000 + a * 1000 + b`; `999` is a missing term. -/
inductive GStmt where
  /-- `sPolynomial*`: `G(t,c) = G(r₁,a)/G(r₁,l₁) - G(r₂,b)/G(r₂,l₂)` for each triple `c a b`
  (src/absolute_pose/modules/gpnp2/spolynomials.cpp l.36-81, and the other files of that name). -/
  | spoly (t r₁ l₁ r₂ l₂ : ℕ) (es : List ℕ)
  /-- `groebnerRow*`: `factor = G(t,c)/G(r,l); G(t,c) = 0`, then `G(t,a) -= factor*G(r,b)` for each
  pair `a b` (src/absolute_pose/modules/gpnp2/reductors.cpp l.36-80, and the other files of that
  name). -/
  | elim (t c r l : ℕ) (ps : List ℕ)
  /-- The same with `factor = G(t,c)` or `factor = -G(t,c)`, written out in
  src/relative_pose/modules/fivept_kneip/code.cpp l.41-8908. The column `l` does not occur in the
  code; it is the one whose coefficient is taken to be `1` or `-1`. -/
  | elimC (neg : Bool) (t c r l : ℕ) (ps : List ℕ)
  /-- `factor = 1.0/G(r,c); G.row(r) = factor*G.row(r)`
  (src/absolute_pose/modules/gp3p/code.cpp l.711-911). -/
  | norm (r c : ℕ)
  /-- `factor = G(t,c); G.row(t) = G.row(t) - factor*G.row(r)`
  (src/absolute_pose/modules/gp3p/code.cpp l.711-911). -/
  | rowSub (t c r : ℕ)

/-- Assignment to an entry. -/
def GMat.put {K : Type} (G : GMat K) (t c : ℕ) (x : K) : GMat K :=
  fun r j => if r = t ∧ j = c then x else G r j

variable {K : Type} [Field K] [DecidableEq K]

/-- One quotient in a statement `spoly`. -/
def GMat.quot (G : GMat K) (r l a : ℕ) : K := if a = 999 then 0 else G r a / G r l

/-- The assignments of an elimination: `G(t,a) -= factor*G(r,b)`. -/
def GMat.sub (G : GMat K) (t r : ℕ) (f : K) (ps : List ℕ) : GMat K :=
  ps.foldl (fun G p => G.put t (p / 1000) (G t (p / 1000) - f * G r (p % 1000))) G

/-- Execution of one statement. -/
def GStmt.exec (G : GMat K) : GStmt → Option (GMat K)
  | .spoly t r₁ l₁ r₂ l₂ es =>
    if G r₁ l₁ = 0 ∨ G r₂ l₂ = 0 then none
    else some (es.foldl (fun G e => G.put t (e / 1000000)
      (G.quot r₁ l₁ (e / 1000 % 1000) - G.quot r₂ l₂ (e % 1000))) G)
  | .elim t c r l ps =>
    if G r l = 0 then none else some ((G.put t c 0).sub t r (G t c / G r l) ps)
  | .elimC neg t c r _ ps => some ((G.put t c 0).sub t r (if neg then -G t c else G t c) ps)
  | .norm r c =>
    if G r c = 0 then none else some fun i j => if i = r then 1 / G r c * G r j else G i j
  | .rowSub t c r => some fun i j => if i = t then G t j - G t c * G r j else G i j

/-- Execution of a program. -/
def gRun (G : GMat K) (prog : List GStmt) : Option (GMat K) := prog.foldlM GStmt.exec G

end OpenGV
