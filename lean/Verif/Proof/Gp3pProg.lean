import Verif.Proof.GroebnerZero
import Verif.Model.Gp3pTable

/-!
# The elimination program of `gp3p`: monomials, terms left out and supports

The columns belong to monomials in the three Cayley parameters `x`, `y`, `z` and the three depths `a`,
`b`, `c`. The hexadecimal digits of a code are the exponents, the lowest digit for `x`; a code takes
36 bits of the table. Columns from 85 on do not exist in the source; they hold terms that cancel. The
codes are checked by `GStmt.monoOk`.
-/

namespace OpenGV.Gp3p

def codes : ℕ :=
  0x110002000110011000110100000101002000101011000011002000011011000000000000000001000000010000000100000001000000010000000100000000000002000000011000000101000001001000010001000100001000000020000000110000001010000010010000100010000000200000001100000010100000100100000002000000011000000101000000020000000110000000200000000000003000000012000000102000001002000010002000100002000000021000000111000001011000010011000100011000000201000001101000010101000100101000002001000011001000101001000020001000110001000200001000000030000000120000001020000010020000100020000001110000010110000100110000002010000011010000101010000020010000110010000200010000001200000010200000100200000002100000011100000101100000000013000001003000010003000100003000001012000010012000100012000001102000010102000100102000001021000010021000100021000001111000010111000100111

/-- The statements that matter for the action matrix: the last rows are not used, and the
normalisation at the end is needed for the rows 36 to 41 only. -/
def keep : GStmt → Bool
  | .spoly t _ _ _ _ _ => t < 42
  | .elim t _ _ _ _ => t < 42
  | .elimC _ t _ _ _ _ => t < 42
  | .norm r _ => 36 ≤ r && r < 42
  | .rowSub t _ _ => 36 ≤ t && t < 42

/-- By number of a statement: the terms it leaves out, and columns of its row that are zero after it.
-/
def zeros : List (ℕ × List ℕ × ℕ) := [
  (0, [32032032, 52052052, 79079079], listMask [32, 52, 79]),
  (1, [32032032, 52052052, 79079079], listMask [32, 52, 79]),
  (2, [], listMask [33, 53, 80]),
  (3, [31031031, 51051051, 78078078], listMask [31, 51, 78]),
  (6, [31031031, 51051051, 78078078], listMask [31, 51, 78]),
  (8, [], listMask [32, 43, 47, 52, 64, 68, 73, 79]),
  (10, [31031031, 51051051, 78078078], listMask [31, 51, 78]),
  (17, [31031031, 51051051, 78078078], listMask [31, 51, 78]),
  (22, [31031031, 51051051, 78078078], listMask [31, 51, 78]),
  (25, [], listMask [44, 48, 53, 65, 69, 74, 80]),
  (40, [], listMask [48, 53, 65, 69, 74, 80]),
  (58, [], listMask [48, 53, 65, 69, 74, 80]),
  (176, [17065064, 26069068, 40074073, 61080079, 85048047, 86053052], listMask [17, 26, 40, 61, 85, 86]),
  (182, [], listMask [56]),
  (183, [16065063, 25069067, 39074072, 60080078, 87048046, 88053051], listMask [16, 25, 39, 60, 87, 88]),
  (189, [], listMask [56]),
  (190, [23068067, 37073072, 58079078, 89064063, 90047046, 91052051], listMask [23, 37, 58, 89, 90, 91]),
  (201, [], listMask [56]),
  (212, [], listMask [56]),
  (225, [], listMask [56]),
  (239, [], listMask [56]),
  (285, [], listMask [56])]

/-- The statements with these notes. -/
def annotate : ℕ → List GStmt → List ZStmt
  | _, [] => []
  | i, st :: prog =>
    (st, match zeros.find? (·.1 == i) with | some z => z.2 | none => ([], 0)) :: annotate (i + 1) prog

/-- The program. -/
def prog : List ZStmt := annotate 0 (compute.filter keep)

theorem annotate_fst : ∀ (i : ℕ) (p : List GStmt), (annotate i p).map Prod.fst = p
  | _, [] => rfl
  | i, st :: p => by
    rw [annotate, List.map_cons, annotate_fst]

theorem prog_fst : prog.map Prod.fst = compute.filter keep := annotate_fst _ _

/-- The columns of the nine equations. -/
def initCols : List (List ℕ) := [
  [20, 21, 32, 33, 52, 53, 66, 71, 75, 76, 77, 79, 80, 81, 82, 84],
  [20, 21, 32, 33, 52, 53, 66, 70, 71, 76, 77, 79, 80, 81, 83, 84],
  [20, 21, 32, 33, 52, 53, 66, 70, 71, 75, 77, 79, 80, 82, 83, 84],
  [19, 20, 31, 32, 51, 52, 66, 71, 75, 76, 77, 78, 79, 81, 82, 84],
  [19, 20, 31, 32, 51, 52, 66, 70, 71, 76, 77, 78, 79, 81, 83, 84],
  [19, 20, 31, 32, 51, 52, 66, 70, 71, 75, 77, 78, 79, 82, 83, 84],
  [19, 21, 31, 33, 51, 53, 66, 71, 75, 76, 77, 78, 80, 81, 82, 84],
  [19, 21, 31, 33, 51, 53, 66, 70, 71, 76, 77, 78, 80, 81, 83, 84],
  [19, 21, 31, 33, 51, 53, 66, 70, 71, 75, 77, 78, 80, 82, 83, 84]]

/-- The supports before the elimination. -/
def initS : SuppState := initCols.map (fun L => (listMask L, 0)) ++ List.replicate 39 (0, 0)

theorem filter_ok : filterOk keep 0 compute = true := by decide +kernel

theorem filter_dead : (List.range 6).all
    (fun i => !(filterDead keep 0 compute).testBit (36 + i)) = true := by decide +kernel

theorem prog_mono : prog.all (fun z => z.full.monoOk codes 6 92) = true := by decide +kernel

/-- The leading column of the rows 36 to 41. -/
def leadCol (i : ℕ) : ℕ := if i = 0 then 56 else 71 + i

/-- The rows of the action matrix have their leading column and columns from 77 on only. -/
def finalOk : Bool :=
  match zRun initS prog with
  | none => false
  | some S => (List.range 6).all fun i =>
    maskLe (S.mask (36 + i)) (2 ^ leadCol i ||| (2 ^ 85 - 2 ^ 77)) && S.lead (36 + i) == 2 * leadCol i + 1

theorem final_ok : finalOk = true := by decide +kernel

/-- The exponents in the codes are small. -/
theorem codes_small : (Nat.blt codes (2 ^ (36 * 92)) &&
    (List.range 92).all fun c => monoSmall 6 (gcode codes c)) = true := by decide +kernel

theorem gcode_small (c : ℕ) : monoSmall 6 (gcode codes c) = true := by
  have h := codes_small
  rw [Bool.and_eq_true, Nat.blt_eq] at h
  by_cases hc : c < 92
  · exact List.all_eq_true.1 h.2 _ (List.mem_range.2 hc)
  · have e : gcode codes c = 0 := by
      show (codes >>> (36 * c)) % _ = 0
      rw [Nat.shiftRight_eq_div_pow, Nat.div_eq_of_lt (lt_of_lt_of_le h.1
        (Nat.pow_le_pow_right (by norm_num) (by omega))), Nat.zero_mod]
    rw [e]
    decide

end OpenGV.Gp3p
