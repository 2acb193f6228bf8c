import Verif.Model.FiveKneipTable
import Verif.Model.FiveKneipInit
import Verif.Proof.FiveKneipCodes
import Verif.Proof.GroebnerSupport

/-!
# Analysis of the elimination program of `fivept_kneip`

The supports alone do not show that the program leaves out no term. The first statements on each of
the rows 30 to 39 subtract multiples of rows with constant entries, so that the entries of the row
are sums of entries of the ten initial rows, and some of these sums cancel. The analysis follows
them.
-/

namespace OpenGV.FiveKneip

/-- The term with the other sign. -/
def flipTerm (m : ℕ) : ℕ := if 2000000 ≤ m then m - 1000000 else m + 1000000

/-- The terms cancel in pairs; `acc` are the ones left from before. -/
def cancels : List ℕ → List ℕ → Bool
  | acc, [] => acc.isEmpty
  | acc, m :: L =>
    if Nat.ble 1000000 m && Nat.blt m 3000000 then
      if acc.contains (flipTerm m) then cancels (acc.erase (flipTerm m)) L else cancels (m :: acc) L
    else false

/-- The terms of a sum of columns of an initial row: `2 * x` is the column `x`, `2 * x + 1` is the
column with a minus. -/
def comboTerms (d : List ℕ) : List ℕ :=
  d.flatMap fun e =>
    if e % 2 == 0 then initTerms.getD (e / 2) [] else (initTerms.getD (e / 2) []).map flipTerm

/-- For each column the exclusive or of its terms without the signs, 20 bits each. -/
def initXors : ℕ := 0x5003fb000000001b00027000000000000005000050001e0001b0001f0001e00000003fb003fe003fb00027000220002f000000000c000460000000009000150000c0007e0001800011000080007e0000e000040002f0000000023000390003f000060002500000000000000500000003fb0001f000000003d00000003e0003fb003fb0003c0003d000310000c0000c0004c00011000180000c0000000078000090000000017000780001e0001000037000230003f0003200000000110000d003fb003fb0002f0003100046000320007e0001b000160000600078000780000800007000100002900027000390003400025000110000d00000000000000000000000f4000fa0000000000000f4000f4000f2000fa000fc000fa000000007d000790007d0000a00079000f400000000080000e00008000080007d0007d00076000000000b0000b000fa00008000790007c000790000b0000b0

/-- The exclusive or of the terms of a sum. If it is not zero, the terms do not cancel. -/
def comboXor : List ℕ → ℕ
  | [] => 0
  | e :: d => Nat.xor (Nat.mod (Nat.shiftRight initXors (Nat.mul 20 (Nat.div e 2))) 1048576)
      (comboXor d)

/-- The columns of an initial row are zero, or cancel, in this sum. -/
def comboZero (d : List ℕ) : Bool := Nat.beq (comboXor d) 0 && cancels [] (comboTerms d)

/-- The entries of the constant rows. -/
def constVal (r x : ℕ) : ℤ := (((constRows.getD (r - 10) []).find? (·.1 == x)).getD (x, 0)).2

/-- The sum with the other sign. -/
def flipCombo (d : List ℕ) : List ℕ := d.map fun e => if e % 2 == 0 then e + 1 else e - 1

/-- The entries of a row as sums of columns of an initial row, in groups of 14 columns. -/
abbrev Combos := List (List (List ℕ))

/-- An element of a list. -/
def nth {α : Type} (d : α) : List α → ℕ → α
  | [], _ => d
  | a :: _, 0 => a
  | _ :: L, n + 1 => nth d L n

/-- The sum in column `x`. -/
def cget (cs : Combos) (x : ℕ) : List ℕ := nth [] (nth [] cs (Nat.div x 14)) (Nat.mod x 14)

/-- The sums after a change in column `a`. -/
def cset (cs : Combos) (a : ℕ) (d : List ℕ) : Combos :=
  cs.set (Nat.div a 14) ((nth [] cs (Nat.div a 14)).set (Nat.mod a 14) d)

/-- All sums are empty. -/
def cnil : Combos := List.replicate 15 (List.replicate 14 [])

/-- Subtraction of a multiple of a constant row: `f` is the factor. -/
def comboSub (r : ℕ) (f : List ℕ) : Combos → List ℕ → Option Combos
  | cs, [] => some cs
  | cs, p :: ps =>
    let a := p / 1000
    let u := constVal r (p % 1000)
    if u == 0 then comboSub r f cs ps
    else if u == 1 || u == -1 then
      let d := cget cs a ++ if u == 1 then flipCombo f else f
      comboSub r f (cset cs a (if comboZero d then [] else d)) ps
    else none

/-- The columns in `m` without those among the given ones whose sum is empty. -/
def clearMask (cs : Combos) : ℕ → List ℕ → ℕ
  | m, [] => m
  | m, p :: ps => clearMask cs (if (cget cs (p / 1000)).isEmpty && m.testBit (p / 1000) then
      m ^^^ 1 <<< (p / 1000) else m) ps

/-- The state of the analysis: the supports, and the sums for one row. -/
structure KState where
  S : SuppState
  t : ℕ
  cs : Combos

/-- The row changed by a statement. -/
def target : GStmt → ℕ
  | .spoly t _ _ _ _ _ => t
  | .elim t _ _ _ _ => t
  | .elimC _ t _ _ _ _ => t
  | .norm r _ => r
  | .rowSub t _ _ => t

/-- A subtraction of two initial rows with the same leading column: all triples are `x x x`. -/
def sameCols (es : List ℕ) : Bool := es.all fun e => e == e % 1000 * 1001001 && e % 1000 != 999

/-- The columns left out are zero or a multiple of the leading column. -/
def leftOut (l : ℕ) (es : List ℕ) : Bool :=
  let m := listMask (l :: es.map (· % 1000))
  (List.range 197).all fun x => m.testBit x || comboZero [2 * x] || comboZero [2 * x, 2 * l]

/-- The sums after a statement `spoly` on two initial rows. -/
def combosSame : Combos → List ℕ → Combos
  | cs, [] => cs
  | cs, e :: es => combosSame (cset cs (e / 1000000) [2 * (e % 1000)]) es

/-- A multiple of the column `l`, as a sum. -/
def constCombo (u : ℤ) (l : ℕ) : Option (List ℕ) :=
  if u == 0 then some [] else if u == 1 then some [2 * l + 1] else if u == -1 then some [2 * l]
  else none

/-- The sums after a statement `spoly` on an initial row and a constant row. -/
def combosMixed (l r : ℕ) : Combos → List ℕ → Option Combos
  | cs, [] => some cs
  | cs, e :: es =>
    match constCombo (if e % 1000 == 999 then 0 else constVal r (e % 1000)) l with
    | none => none
    | some d => combosMixed l r (cset cs (e / 1000000)
        ((if e / 1000 % 1000 == 999 then [] else [2 * (e / 1000 % 1000)]) ++ d)) es

/-- One step. -/
def kStep (K : KState) (st : GStmt) : Option KState :=
  if Nat.ble 30 (target st) then
    match st with
    | .spoly t r₁ l₁ r₂ l₂ es =>
      if Nat.blt r₁ 10 && Nat.blt r₂ 10 then
        if l₁ == l₂ && sameCols es && leftOut l₁ es && increasing 0 (l₁ :: es.map (· % 1000)) &&
            K.S.mask t == 0 && t < K.S.length && l₁ < 197 then
          some ⟨K.S.set t (listMask (es.map (· % 1000)), 0), t, combosSame cnil es⟩
        else none
      else if Nat.blt r₁ 10 && Nat.blt r₂ 30 then
        match suppStep K.S st with
        | none => none
        | some S => if constVal r₂ l₂ == 1 then
            match combosMixed l₁ r₂ cnil es with
            | none => none
            | some cs => some ⟨S, t, cs⟩
          else none
      else (suppStep K.S st).map fun S => ⟨S, 0, []⟩
    | .elimC neg t c r _ ps =>
      if t == K.t && Nat.blt r 30 && Nat.ble 10 r then
        match suppStep K.S st with
        | none => none
        | some S =>
          let f := cget K.cs c
          match comboSub r (if neg then flipCombo f else f) (cset K.cs c []) ps with
          | none => none
          | some cs => some ⟨S.set t (clearMask cs (S.mask t) ps, S.lead t), t, cs⟩
      else (suppStep K.S st).map fun S => ⟨S, 0, []⟩
    | _ => (suppStep K.S st).map fun S => ⟨S, 0, []⟩
  else none

def kRun : KState → List GStmt → Option KState
  | K, [] => some K
  | K, st :: prog =>
    match kStep K st with
    | none => none
    | some K' => kRun K' prog

end OpenGV.FiveKneip
