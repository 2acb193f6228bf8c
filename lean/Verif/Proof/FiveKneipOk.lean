import Verif.Proof.FiveKneipCheck

/-!
# The checks on the elimination program of `fivept_kneip`
-/

namespace OpenGV.FiveKneip

/-- The known leading columns of the constant rows. -/
def constLeads : List ℕ :=
  [169, 166, 163, 151, 148, 142, 154, 172, 175, 149, 164, 167, 147, 146, 145, 144, 143, 168, 150, 165]

/-- The supports before the elimination. -/
def initS : SuppState :=
  List.replicate 10 (listMask ((List.range 197).filter fun x => !(initTerms.getD x []).isEmpty), 0) ++
    ((constRows.zip constLeads).map fun p => (listMask (p.1.map (·.1)),
      2 * p.2 + if (p.1.find? (·.1 == p.2)) == some (p.2, 1) then 1 else 2)) ++
    List.replicate 36 (0, 0)

/-- The supports of the rows 30 to 39 after their first eliminations. -/
def firstMasks : List ℕ := [
  0x1fffff6c07fb00000000000000000000000000000000000000,
  0x1fffff6c07fa00000000000000000000000000000000000000,
  0x1fffff6c07f800000000000000000000000000000000000000,
  0x1fffff6c07f000000000000000000000000000000000000000,
  0x1fffff6c07e000000000000000000000000000000000000000,
  0x1fffff6c07c000000000000000000000000000000000000000,
  0x1fffff6c078000000000000000000000000000000000000000,
  0x1fffff6c070000000000000000000000000000000000000000,
  0x1fffff6c060000000000000000000000000000000000000000,
  0x1fffff6c040000000000000000000000000000000000000000]

/-- The statements where these rows begin. -/
def firstCuts : List ℕ := [0, 99, 199, 300, 402, 505, 609, 714, 820, 927, 1036]

/-- The supports before the row `30 + i` is computed. -/
def firstS (i : ℕ) : SuppState :=
  initS.take 30 ++ (firstMasks.take i).map (fun m => (m, 0)) ++ List.replicate (36 - i) (0, 0)

/-- The statements for the row `30 + i`. -/
def firstPart (i : ℕ) : List GStmt :=
  (compute.drop (firstCuts.getD i 0)).take (firstCuts.getD (i + 1) 0 - firstCuts.getD i 0)

/-- One part of the program leads from one state to the next. -/
def partOk (S S' : SuppState) (p : List GStmt) : Bool :=
  match kRun ⟨S, 0, []⟩ p with
  | none => false
  | some K => K.S == S'

theorem part0 : partOk (firstS 0) (firstS 1) (firstPart 0) = true := by decide +kernel

theorem part1 : partOk (firstS 1) (firstS 2) (firstPart 1) = true := by decide +kernel

theorem part2 : partOk (firstS 2) (firstS 3) (firstPart 2) = true := by decide +kernel

theorem part3 : partOk (firstS 3) (firstS 4) (firstPart 3) = true := by decide +kernel

theorem part4 : partOk (firstS 4) (firstS 5) (firstPart 4) = true := by decide +kernel

theorem part5 : partOk (firstS 5) (firstS 6) (firstPart 5) = true := by decide +kernel

theorem part6 : partOk (firstS 6) (firstS 7) (firstPart 6) = true := by decide +kernel

theorem part7 : partOk (firstS 7) (firstS 8) (firstPart 7) = true := by decide +kernel

theorem part8 : partOk (firstS 8) (firstS 9) (firstPart 8) = true := by decide +kernel

theorem part9 : partOk (firstS 9) (firstS 10) (firstPart 9) = true := by decide +kernel

/-- The last part of the program. -/
def lastOk (S : SuppState) (q : List GStmt) : Bool :=
  match suppRun S q with
  | none => false
  | some S => (List.range 10).all fun i =>
    maskLe (S.mask (51 + i)) (2 ^ (132 + i) ||| (2 ^ 197 - 2 ^ 177)) &&
      S.lead (51 + i) == 2 * (132 + i) + 1

/-- The rows of the action matrix have their leading column and columns from 177 on only. -/
theorem last : lastOk (firstS 10) (compute.drop 1036) = true := by decide +kernel

theorem compute_mono : compute.all (GStmt.monoOk codes 9 197) = true := by decide +kernel

/-- The exponents in the codes are small. -/
def codesOk (codes k n : ℕ) : Bool :=
  Nat.blt codes (2 ^ (36 * n)) && (List.range n).all fun c => monoSmall k (gcode codes c)

theorem codes_small : codesOk codes 9 197 = true := by decide +kernel

/-- The supports of the constant rows. -/
theorem const_ok : ((List.range 66).all fun r =>
    (Nat.blt r 10 && SuppState.lead initS r == 0 && (List.range 197).all fun x =>
      (SuppState.mask initS r).testBit x || (initTerms.getD x []).isEmpty) ||
    (Nat.ble 10 r && (List.range 197).all fun x =>
      ((SuppState.mask initS r).testBit x || constVal r x == 0) &&
      (SuppState.lead initS r != 2 * x + 1 || constVal r x == 1) &&
      (SuppState.lead initS r != 2 * x + 2 || constVal r x == -1))) = true := by
  decide +kernel

end OpenGV.FiveKneip
