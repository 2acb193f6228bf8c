import Verif.Model.UpnpTables
import Verif.Model.GaussJordan
import Mathlib.LinearAlgebra.Matrix.NonsingularInverse
import Mathlib.Analysis.Complex.Basic

/-!
# Model of the action matrices of UPnP

`setupAction_sym_gj` of `src/absolute_pose/modules/upnp4.cpp` and `setupAction_gj` of
`src/absolute_pose/modules/upnp2.cpp`. The threshold 1e-10 of `gauss_jordan` is the parameter `prec`.
`none` is a result that is not finite: a singular leading block of `M1`, or a zero pivot in
`gauss_jordan`.
-/

namespace OpenGV

open Matrix

/-- A matrix as a function of natural numbers; the tables read no entry outside it
(`C64_template`). -/
def matFun {m n : ℕ} (M : Matrix (Fin m) (Fin n) ℝ) (r c : ℕ) : ℝ :=
  if h : r < m ∧ c < n then M ⟨r, h.1⟩ ⟨c, h.2⟩ else 0

/-- The matrix `M2`: zero, then row `r` is filled by the assignments
`(*(M2[r]))[c] = M1(k,j)` of the table, in its order (src/absolute_pose/modules/upnp4.cpp lines
63-211, upnp2.cpp lines 53-455). -/
def templateM2 (table : List (ℕ × List (ℕ × ℕ))) (M1 : ℕ → ℕ → ℝ) (r : ℕ) : ℕ → ℝ :=
  match table[r]? with
  | none => 0
  | some row => row.2.foldl (fun f e => Function.update f e.1 (M1 row.1 e.2)) 0

/-- `gauss_jordan` called by the set-up functions: `none` if it does not return. -/
noncomputable def templateElim (rows cols : ℕ) (prec : ℝ) (exit : ℕ) (M : ℕ → ℕ → ℝ) : Option GJ :=
  match gaussJordan rows cols prec exit M with
  | .ok g => some g
  | .error _ => none

/-! ## The version for more than four correspondences -/

/-- The leading block `M1_part1` (src/absolute_pose/modules/upnp4.cpp line 53). -/
def upnpBlockSym (M : Matrix (Fin 10) (Fin 10) ℝ) (C : Fin 10 → ℝ) : Matrix (Fin 7) (Fin 7) ℝ :=
  (upnpM1SymInit M C).submatrix (Fin.castLE (by norm_num)) (Fin.castLE (by norm_num))

/-- `M1_part2` (src/absolute_pose/modules/upnp4.cpp line 54). -/
noncomputable def upnpPartSym (M : Matrix (Fin 10) (Fin 10) ℝ) (C : Fin 10 → ℝ) :
    Matrix (Fin 7) (Fin 24) ℝ :=
  (upnpBlockSym M C)⁻¹ * (upnpM1SymInit M C).submatrix (Fin.castLE (by norm_num)) id

/-- `M1` after the multiplication with the inverse (src/absolute_pose/modules/upnp4.cpp line
55). -/
noncomputable def upnpM1SymInv (M : Matrix (Fin 10) (Fin 10) ℝ) (C : Fin 10 → ℝ) :
    Matrix (Fin 8) (Fin 24) ℝ := fun i j =>
  if h : i.val < 7 then upnpPartSym M C ⟨i, h⟩ j else upnpM1SymInit M C i j

open Classical in
/-- `M1` after the cancellation in column 10 (src/absolute_pose/modules/upnp4.cpp lines 42-61). -/
noncomputable def upnpM1Sym (M : Matrix (Fin 10) (Fin 10) ℝ) (C : Fin 10 → ℝ) :
    Option (Matrix (Fin 8) (Fin 24) ℝ) :=
  if (upnpBlockSym M C).det = 0 then none
  else some fun i j =>
    if i.val < 7 then
      upnpM1SymInv M C i j -
        upnpM1SymInv M C i 10 / upnpM1SymInv M C 7 10 * upnpM1SymInv M C 7 j
    else upnpM1SymInv M C i j

/-- `M2` after `gauss_jordan` (src/absolute_pose/modules/upnp4.cpp lines 42-213). -/
noncomputable def upnpElimSym (prec : ℝ) (M : Matrix (Fin 10) (Fin 10) ℝ) (C : Fin 10 → ℝ) :
    Option GJ :=
  (upnpM1Sym M C).bind fun M1 =>
    templateElim 141 149 prec 121 (templateM2 upnpTableSym (matFun M1))

/-- `Action` (src/absolute_pose/modules/upnp4.cpp lines 214-226). -/
def upnpActionSym (g : GJ) : Matrix (Fin 8) (Fin 8) ℝ := fun i s =>
  if i.val < 4 then 0 - g.M (121 + i) (141 + s) else if s.val + 4 = i.val then 1 else 0

/-! ## The version for at most four correspondences -/

/-- The leading block `M1_part1` (src/absolute_pose/modules/upnp2.cpp line 49). -/
def upnpBlockGen (M : Matrix (Fin 10) (Fin 10) ℝ) (C : Fin 10 → ℝ) : Matrix (Fin 4) (Fin 4) ℝ :=
  (upnpM1GenInit M C).submatrix (Fin.castLE (by norm_num)) (Fin.castLE (by norm_num))

/-- `M1_part2` (src/absolute_pose/modules/upnp2.cpp line 50). -/
noncomputable def upnpPartGen (M : Matrix (Fin 10) (Fin 10) ℝ) (C : Fin 10 → ℝ) :
    Matrix (Fin 4) (Fin 29) ℝ :=
  (upnpBlockGen M C)⁻¹ * (upnpM1GenInit M C).submatrix (Fin.castLE (by norm_num)) id

open Classical in
/-- `M1` after the multiplication with the inverse (src/absolute_pose/modules/upnp2.cpp lines
42-51). -/
noncomputable def upnpM1Gen (M : Matrix (Fin 10) (Fin 10) ℝ) (C : Fin 10 → ℝ) :
    Option (Matrix (Fin 5) (Fin 29) ℝ) :=
  if (upnpBlockGen M C).det = 0 then none
  else some fun i j =>
    if h : i.val < 4 then upnpPartGen M C ⟨i, h⟩ j else upnpM1GenInit M C i j

/-- `M2` after `gauss_jordan` (src/absolute_pose/modules/upnp2.cpp lines 42-457). -/
noncomputable def upnpElimGen (prec : ℝ) (M : Matrix (Fin 10) (Fin 10) ℝ) (C : Fin 10 → ℝ) :
    Option GJ :=
  (upnpM1Gen M C).bind fun M1 =>
    templateElim 395 412 prec 340 (templateM2 upnpTableGen (matFun M1))

/-- The rows of `M2` copied to `Action` (src/absolute_pose/modules/upnp2.cpp lines 459-471). -/
def upnpGenSource : Fin 16 → Option ℕ :=
  ![some 340, some 372, some 373, some 374, none, some 389, some 390, none, none, none, none, none,
    none, none, none, none]

/-- The positions of the ones in `Action` (src/absolute_pose/modules/upnp2.cpp lines 467 and
472-480). -/
def upnpGenOne : Fin 16 → Option (Fin 16) :=
  ![none, none, none, none, some 0, none, none, some 1, some 2, some 3, some 4, some 7, some 8,
    some 9, some 10, some 14]

/-- `Action` (src/absolute_pose/modules/upnp2.cpp lines 458-480). -/
def upnpActionGen (g : GJ) : Matrix (Fin 16) (Fin 16) ℝ := fun i s =>
  match upnpGenSource i with
  | some r => 0 - g.M r (396 + s)
  | none => if upnpGenOne i = some s then 1 else 0

/-! ## The quaternions read from the eigenvectors -/

/-- The real parts of the entries 4 to 7 of each eigenvector (src/absolute_pose/modules/main.cpp
lines 803-809). -/
def upnpVsSym (V : Matrix (Fin 8) (Fin 8) ℂ) : List (Fin 4 → ℝ) :=
  List.ofFn fun i => fun q : Fin 4 => (V ⟨4 + q, by omega⟩ i).re

/-- The real parts of the entries 11 to 14 of each eigenvector (src/absolute_pose/modules/main.cpp
lines 747-752). -/
def upnpVsGen (V : Matrix (Fin 16) (Fin 16) ℂ) : List (Fin 4 → ℝ) :=
  List.ofFn fun i => fun q : Fin 4 => (V ⟨11 + q, by omega⟩ i).re

end OpenGV
