import Verif.Proof.GroebnerRowMod
import Verif.Proof.Gp3p
import Verif.Proof.Gp3pZero
import Mathlib.Tactic.NormNum.Prime
import Mathlib.LinearAlgebra.Matrix.ToLinearEquiv

/-!
# A certified run of the program of `gp3p`

Three points seen from the pose with Cayley parameters `(1, 1, 2)` and translation `(0, 1, -1)`. No
division by zero occurs, and the eigenvectors for the first parameter form a line. The run is used for
the examples, and to see that two numbers do not vanish for all inputs.
-/

namespace OpenGV.Gp3p

open Matrix

/-- The bearing vectors. -/
def exF : Mat3 := !![12, -1, -12; -17, 16, 10; 6, -11, 1]

/-- The offsets. -/
def exV : Mat3 := !![0, 1, 0; 1, -1, 0; -1, -1, 0]

/-- The points. -/
def exP : Mat3 := !![-2, 0, 2; 1, -2, 1; 0, -1, -2]

/-- The nine equations. -/
def exRow : ℕ → List (ℕ × ℤ)
  | 0 => [
    (20, 1), (21, 12), (32, 1), (33, 12), (52, 1), (53, 12), (66, -3), (71, -3), (75, -2), (76,
    -6), (77, 1), (79, 1), (80, 12), (81, 6), (82, -2), (84, 1)]
  | 1 => [
    (20, -16), (21, -17), (32, -16), (33, -17), (52, -16), (53, -17), (66, 5), (70, -2), (71,
    -1), (76, 4), (77, 5), (79, -16), (80, -17), (81, 4), (83, 2), (84, -1)]
  | 2 => [
    (20, 11), (21, 6), (32, 11), (33, 6), (52, 11), (53, 6), (66, -1), (70, -6), (71, 1), (75,
    4), (77, 1), (79, 11), (80, 6), (82, -4), (83, -6), (84, -1)]
  | 3 => [
    (19, 12), (20, -1), (31, 12), (32, -1), (51, 12), (52, -1), (66, -1), (71, -1), (75, -2),
    (76, 6), (77, 3), (78, 12), (79, -1), (81, -6), (82, -2), (84, 3)]
  | 4 => [
    (19, -10), (20, 16), (31, -10), (32, 16), (51, -10), (52, 16), (66, -4), (70, -2), (71, 2),
    (76, 4), (77, -4), (78, -10), (79, 16), (81, 4), (83, 2), (84, 2)]
  | 5 => [
    (19, -1), (20, -11), (31, -1), (32, -11), (51, -1), (52, -11), (66, -2), (70, 6), (71, 0),
    (75, 4), (77, 0), (78, -1), (79, -11), (82, -4), (83, 6), (84, -2)]
  | 6 => [
    (19, -12), (21, -12), (31, -12), (33, -12), (51, -12), (53, -12), (66, 4), (71, 4), (75, 4),
    (76, 0), (77, -4), (78, -12), (80, -12), (81, 0), (82, 4), (84, -4)]
  | 7 => [
    (19, 10), (21, 17), (31, 10), (33, 17), (51, 10), (53, 17), (66, -1), (70, 4), (71, -1),
    (76, -8), (77, -1), (78, 10), (80, 17), (81, -8), (83, -4), (84, -1)]
  | 8 => [
    (19, 1), (21, -6), (31, 1), (33, -6), (51, 1), (53, -6), (66, 3), (70, 0), (71, -1), (75,
    -8), (77, -1), (78, 1), (80, -6), (82, 8), (83, 0), (84, 3)]
  | _ => []

theorem exRow_spec (r : ℕ) :
    initRow exF exV exP r = (exRow r).map fun e => (e.1, (e.2 : ℝ)) := by
  by_cases hr : r < 9
  · interval_cases r <;> simp [initRow, exRow, exF, exV, exP] <;> norm_num
  · have h1 : initRow exF exV exP r = [] := by
      unfold initRow
      split <;> first | omega | rfl
    have h2 : exRow r = [] := by
      unfold exRow
      split <;> first | omega | rfl
    rw [h1, h2]
    rfl

/-- The upper halves of the entries. -/
def exH : ℕ := 0xffff0000ffff0000ffff0000ffff0000ffff0000ffff0000ffff0000ffff0000ffff0000ffff0000ffff0000ffff0000ffff0000ffff0000ffff0000ffff0000ffff0000ffff0000ffff0000ffff0000ffff0000ffff0000ffff0000ffff0000ffff0000ffff0000ffff0000ffff0000ffff0000ffff0000ffff0000ffff0000ffff0000ffff0000ffff0000ffff0000ffff0000ffff0000ffff0000ffff0000ffff0000ffff0000ffff0000ffff0000ffff0000ffff0000ffff0000ffff0000ffff0000ffff0000ffff0000ffff0000ffff0000ffff0000ffff0000ffff0000ffff0000ffff0000ffff0000ffff0000ffff0000ffff0000ffff0000ffff0000ffff0000ffff0000ffff0000ffff0000ffff0000ffff0000ffff0000ffff0000ffff0000ffff0000ffff0000ffff0000ffff0000ffff0000ffff0000ffff0000ffff0000ffff0000ffff0000ffff0000ffff0000ffff0000ffff0000ffff0000ffff0000ffff0000ffff0000ffff0000

/-- Every second entry. -/
def exMask : ℕ := 0xffffffff00000000ffffffff00000000ffffffff00000000ffffffff00000000ffffffff00000000ffffffff00000000ffffffff00000000ffffffff00000000ffffffff00000000ffffffff00000000ffffffff00000000ffffffff00000000ffffffff00000000ffffffff00000000ffffffff00000000ffffffff00000000ffffffff00000000ffffffff00000000ffffffff00000000ffffffff00000000ffffffff00000000ffffffff00000000ffffffff00000000ffffffff00000000ffffffff00000000ffffffff00000000ffffffff00000000ffffffff00000000ffffffff00000000ffffffff00000000ffffffff00000000ffffffff00000000ffffffff00000000ffffffff00000000ffffffff00000000ffffffff00000000ffffffff00000000ffffffff00000000ffffffff00000000ffffffff00000000ffffffff00000000ffffffff00000000ffffffff00000000ffffffff00000000ffffffff00000000ffffffff

/-- The initial matrix modulo 32749. -/
def exState0 : List ℕ := [
  0x10000000000007feb000000060000000c00000001000000000000000100007fe700007feb00000000000000000000000000007fea0000000000000000000000000000000000007fea0000000000000000000000000000000000000000000000000000000000000000000000000000000000000000000000000000000c000000010000000000000000000000000000000000000000000000000000000000000000000000000000000000000000000000000000000000000000000000000000000000000000000000000000000c00000001000000000000000000000000000000000000000000000000000000000000000000000000000000000000000c000000010000000000000000000000000000000000000000000000000000000000000000000000000000000000000000000000000000000000000000000000000000000000000000000000000000000000000000,
  0x7fec00000002000000000000000400007fdc00007fdd0000000000000005000000040000000000000000000000000000000000007fec00007feb0000000000000000000000000000000500000000000000000000000000000000000000000000000000000000000000000000000000000000000000000000000000007fdc00007fdd00000000000000000000000000000000000000000000000000000000000000000000000000000000000000000000000000000000000000000000000000000000000000000000000000007fdc00007fdd0000000000000000000000000000000000000000000000000000000000000000000000000000000000007fdc00007fdd0000000000000000000000000000000000000000000000000000000000000000000000000000000000000000000000000000000000000000000000000000000000000000000000000000000000000000,
  0x7fec00007fe700007fe900000000000000060000000b000000000000000100000000000000040000000000000000000000000000000100007fe700000000000000000000000000007fec000000000000000000000000000000000000000000000000000000000000000000000000000000000000000000000000000000060000000b000000000000000000000000000000000000000000000000000000000000000000000000000000000000000000000000000000000000000000000000000000000000000000000000000000060000000b00000000000000000000000000000000000000000000000000000000000000000000000000000000000000060000000b0000000000000000000000000000000000000000000000000000000000000000000000000000000000000000000000000000000000000000000000000000000000000000000000000000000000000000,
  0x30000000000007feb00007fe70000000000007fec0000000c000000030000000600007feb00000000000000000000000000007fec0000000000000000000000000000000000007fec0000000000000000000000000000000000000000000000000000000000000000000000000000000000000000000000000000000000007fec0000000c00000000000000000000000000000000000000000000000000000000000000000000000000000000000000000000000000000000000000000000000000000000000000000000000000007fec0000000c0000000000000000000000000000000000000000000000000000000000000000000000000000000000007fec0000000c00000000000000000000000000000000000000000000000000000000000000000000000000000000000000000000000000000000000000000000000000000000000000000000000000000000,
  0x2000000020000000000000004000000000000001000007fe300007fe900000004000000000000000000000000000000000000000200007feb00000000000000000000000000007fe9000000000000000000000000000000000000000000000000000000000000000000000000000000000000000000000000000000000000001000007fe30000000000000000000000000000000000000000000000000000000000000000000000000000000000000000000000000000000000000000000000000000000000000000000000000000001000007fe3000000000000000000000000000000000000000000000000000000000000000000000000000000000000001000007fe300000000000000000000000000000000000000000000000000000000000000000000000000000000000000000000000000000000000000000000000000000000000000000000000000000000,
  0x7feb0000000600007fe9000000000000000000007fe200007fec000000000000000000000004000000000000000000000000000000000000000600000000000000000000000000007feb0000000000000000000000000000000000000000000000000000000000000000000000000000000000000000000000000000000000007fe200007fec00000000000000000000000000000000000000000000000000000000000000000000000000000000000000000000000000000000000000000000000000000000000000000000000000007fe200007fec0000000000000000000000000000000000000000000000000000000000000000000000000000000000007fe200007fec00000000000000000000000000000000000000000000000000000000000000000000000000000000000000000000000000000000000000000000000000000000000000000000000000000000,
  0x7fe900000000000000040000000000007fe10000000000007fe100007fe9000000000000000400000000000000000000000000000004000000000000000000000000000000000000000400000000000000000000000000000000000000000000000000000000000000000000000000000000000000000000000000007fe10000000000007fe1000000000000000000000000000000000000000000000000000000000000000000000000000000000000000000000000000000000000000000000000000000000000000000007fe10000000000007fe100000000000000000000000000000000000000000000000000000000000000000000000000007fe10000000000007fe100000000000000000000000000000000000000000000000000000000000000000000000000000000000000000000000000000000000000000000000000000000000000000000000000000000,
  0x7fec00007fe90000000000007fe500000011000000000000000a00007fec00007fe50000000000000000000000000000000000007fec0000000400000000000000000000000000007fec00000000000000000000000000000000000000000000000000000000000000000000000000000000000000000000000000000011000000000000000a000000000000000000000000000000000000000000000000000000000000000000000000000000000000000000000000000000000000000000000000000000000000000000000011000000000000000a00000000000000000000000000000000000000000000000000000000000000000000000000000011000000000000000a00000000000000000000000000000000000000000000000000000000000000000000000000000000000000000000000000000000000000000000000000000000000000000000000000000000,
  0x300000000000000080000000000007fe7000000000000000100007fec0000000000007fe500000000000000000000000000007fec000000000000000000000000000000000000000300000000000000000000000000000000000000000000000000000000000000000000000000000000000000000000000000007fe70000000000000001000000000000000000000000000000000000000000000000000000000000000000000000000000000000000000000000000000000000000000000000000000000000000000007fe7000000000000000100000000000000000000000000000000000000000000000000000000000000000000000000007fe7000000000000000100000000000000000000000000000000000000000000000000000000000000000000000000000000000000000000000000000000000000000000000000000000000000000000000000000000] ++ List.replicate 39 0

/-- The inverses of the denominators in the part with all terms. -/
def exHintsA : List ℕ := [
  1058810, 10731141670, 21708, 31478280994, 1249, 1249, 30905761772, 1249, 29278, 1249,
  34338769577, 1249, 1249, 6292, 6292, 1249, 6292, 2861567179, 1249, 6292, 1249, 6292,
  3434086401, 1249, 6292, 24104, 1249, 6292, 6597643775, 3583, 1249, 6292, 3583, 1249, 6292,
  3583, 25274879487, 3583, 23990373887, 3583, 32613, 3583, 1309677716, 6292, 3583, 1249, 6292,
  3583, 27868, 1249, 6292, 3583, 1049825, 1249, 6292, 6292, 3583, 3583, 32613, 1249, 6292, 3583]

/-- The inverses of the denominators. -/
def exHints : List ℕ := [
  1058810, 10731141670, 21708, 31478280994, 1249, 1249, 30905761772, 1249, 29278, 1249,
  34338769577, 1249, 1249, 6292, 6292, 1249, 6292, 2861567179, 1249, 6292, 1249, 6292,
  3434086401, 1249, 6292, 24104, 1249, 6292, 6597643775, 3583, 1249, 6292, 3583, 1249, 6292,
  3583, 25274879487, 3583, 23990373887, 3583, 32613, 3583, 1309677716, 6292, 3583, 1249, 6292,
  3583, 27868, 1249, 6292, 3583, 1049825, 1249, 6292, 6292, 3583, 3583, 32613, 1249, 6292, 3583,
  29221748581, 29979, 32613, 27868, 29979, 29221748581, 29979, 32613, 27868, 29979, 29221744438,
  29979, 28470, 27868, 29979, 6597672805, 3583, 27868, 29979, 3101, 6292, 3583, 32613, 6292,
  3583, 27868, 29979, 6292, 3583, 6597672805, 3583, 27868, 29979, 3101, 6292, 3583, 32613, 6292,
  3583, 27868, 29979, 6292, 3583, 6597668662, 3583, 27868, 29979, 3101, 6292, 3583, 28470, 6292,
  3583, 27868, 29979, 6292, 3583, 1309704037, 6292, 3583, 27868, 29979, 3101, 1249, 6292, 3583,
  32613, 1249, 17209, 6292, 3583, 27868, 29979, 1249, 6292, 3583, 1309704037, 6292, 3583, 27868,
  29979, 3101, 1249, 6292, 3583, 32613, 1249, 17209, 6292, 3583, 27868, 29979, 1249, 6292, 3583,
  1309699894, 6292, 3583, 27868, 29979, 3101, 1249, 6292, 3583, 28470, 1249, 17209, 6292, 3583,
  27868, 29979, 1249, 6292, 3583, 34197241701, 32613, 32613, 17209, 17209, 15838, 15838,
  34197237558, 28470, 32613, 17209, 17209, 15838, 15838, 34197237558, 26455, 26455, 32613,
  17209, 17209, 17209, 15838, 15838, 15838, 27868, 29979, 26455, 26455, 34197212838, 17209,
  17209, 17209, 15838, 15838, 15838, 27868, 29979, 26455, 26455, 3750, 34197235543, 3750, 11577,
  17209, 17209, 15838, 15838, 15838, 27868, 29979, 26455, 26455, 3750, 11577, 29852985175, 3750,
  11577, 23403, 17209, 15838, 15838, 15838, 27868, 29979, 26455, 26455, 3750, 11577, 23403,
  6597643942, 3583, 3583, 3583, 26455, 26455, 3750, 11577, 23403, 16042, 6292, 3583, 15838,
  15838, 15838, 27868, 29979, 26455, 26455, 3750, 11577, 23403, 16042, 6292, 3583, 6597666647,
  6292, 3583, 3583, 26455, 3750, 11577, 23403, 16042, 6292, 3583, 15838, 15838, 15838, 27868,
  29979, 26455, 26455, 3750, 11577, 23403, 16042, 6292, 3583, 6597666647, 6292, 3583, 3583,
  26455, 3750, 11577, 23403, 16042, 6292, 3583, 31066, 15838, 15838, 27868, 29979, 30601, 26455,
  26455, 3750, 11577, 23403, 16042, 6292, 3583, 31066, 1309675174, 6292, 6292, 6292, 3583, 3583,
  3583, 26455, 26455, 3750, 1249, 11577, 23403, 16042, 6292, 3583, 31066, 16560, 15838, 27868,
  29979, 30601, 26455, 26455, 3750, 1249, 11577, 23403, 16042, 6292, 3583, 31066, 16560,
  1309697879, 1249, 6292, 6292, 3583, 3583, 26455, 3750, 1249, 11577, 23403, 16042, 6292, 3583,
  31066, 16560, 11195, 27868, 29979, 30601, 26455, 3750, 1249, 11577, 23403, 16042, 6292, 3583,
  31066, 16560, 11195, 1309697879, 1249, 6292, 6292, 3583, 3583, 26455, 3750, 1249, 11577,
  23403, 16042, 6292, 3583, 31066, 16560, 11195, 32066, 29979, 30601, 26455, 3750, 1249, 11577,
  23403, 16042, 6292, 3583, 31066, 16560, 11195, 32066, 27740081830, 3750, 11577, 23403, 11577,
  23403, 16042, 31066, 16560, 31066, 16560, 11195, 26455, 3750, 11577, 23403, 16042, 31066,
  16560, 11195, 32066, 25888, 30601, 26455, 3750, 11577, 23403, 16042, 31066, 16560, 11195,
  32066, 25888, 27740081830, 3750, 11577, 11577, 23403, 11577, 23403, 16042, 31066, 31066,
  16560, 31066, 16560, 11195, 26455, 26455, 3750, 11577, 23403, 16042, 31066, 16560, 11195,
  32066, 25888, 30601, 15470, 26455, 26455, 3750, 11577, 23403, 16042, 31066, 16560, 11195,
  32066, 25888, 27740104535, 26455, 26455, 11577, 23403, 16042, 31066, 16560, 11195, 26455,
  26455, 3750, 11577, 23403, 16042, 31066, 16560, 11195, 32066, 25888, 30601, 26455, 26455,
  3750, 11577, 23403, 16042, 31066, 16560, 11195, 32066, 25888, 31435275742, 30601, 30601, 6292,
  3583, 31066, 16560, 11195, 3750, 11577, 23403, 16042, 6292, 3583, 31066, 16560, 11195, 32066,
  25888, 30601, 4158, 3750, 11577, 23403, 16042, 6292, 3583, 31066, 16560, 11195, 32066, 25888,
  31435275742, 30601, 30601, 6292, 3583, 31066, 16560, 16560, 11195, 26455, 3750, 11577, 23403,
  16042, 6292, 3583, 31066, 16560, 11195, 32066, 25888, 30601, 15470, 4158, 27734, 26455, 3750,
  11577, 23403, 16042, 6292, 3583, 31066, 16560, 11195, 32066, 25888, 31435275742, 30601, 30601,
  6292, 3583, 31066, 31066, 16560, 31066, 16560, 11195, 26455, 26455, 3750, 11577, 23403, 16042,
  6292, 3583, 31066, 16560, 11195, 32066, 25888, 30601, 10982, 15470, 6021, 4158, 27734, 26455,
  26455, 3750, 11577, 23403, 16042, 6292, 3583, 31066, 16560, 11195, 32066, 25888, 1249, 6292,
  3583, 26455, 26455, 3750, 11577, 23403, 16042, 30601, 31066, 16560, 11195, 32066, 25888,
  15470, 10982, 4158, 27734, 6021, 19753, 0, 0, 0, 0, 0, 0, 0, 0, 0, 0, 0, 0, 0, 0, 0, 0, 0, 0,
  0, 0, 0, 0, 0, 0, 0, 0, 0, 0, 0, 0, 0, 0, 0, 0, 0, 0, 0, 0, 0, 0, 0, 0, 0, 0, 0, 0, 0, 0, 0,
  0, 0, 0, 0, 0, 0, 0, 0, 0, 0, 0, 0, 0, 0, 0, 0, 0, 0, 0, 0, 0, 0, 0, 0, 0, 0, 0, 0, 0, 0, 0]

/-- An inverse modulo 32749. -/
def exInv : List (List ℕ) := [
  [8261, 27686, 25987, 21497, 2436],
  [3360, 12835, 23430, 21740, 19583],
  [22104, 19857, 15132, 32661, 14995],
  [30555, 24064, 24231, 31107, 11210],
  [24277, 21023, 15757, 17873, 32396]]

theorem prime_32749 : Nat.Prime 32749 := by norm_num

theorem exMask_ok : maskOk exH 92 = true := by decide +kernel

/-- The state agrees with the equations. -/
def exInitOk (p : ℕ) (S : List ℕ) : Bool :=
  Nat.beq S.length 48 && (List.range 48).all fun r =>
    Nat.beq (Nat.shiftRight (S.getD r 0) (Nat.mul 32 92)) 0 && (List.range 92).all fun c =>
      ((match (exRow r).find? (·.1 == c) with | some e => e.2 | none => 0 : ℤ) -
        (lane (S.getD r 0) c : ℤ)) % p == 0

theorem exInit_ok : exInitOk 32749 exState0 = true := by decide +kernel

theorem find_map (L : List (ℕ × ℤ)) (c : ℕ) :
    (match (L.map fun e => (e.1, (e.2 : ℝ))).find? (·.1 == c) with | some e => e.2 | none => 0) =
      (((match L.find? (·.1 == c) with | some e => e.2 | none => 0 : ℤ)) : ℝ) := by
  rw [List.find?_map]
  have : ((fun e : ℕ × ℝ => e.1 == c) ∘ fun e : ℕ × ℤ => (e.1, (e.2 : ℝ))) = fun e : ℕ × ℤ => e.1 == c := rfl
  rw [this]
  cases L.find? (·.1 == c) <;> simp

theorem init_find (f v p : Mat3) (r c : ℕ) : init f v p r c =
    match (initRow f v p r).find? (·.1 == c) with | some e => e.2 | none => 0 := by
  unfold init
  rfl

theorem exInit_spec : StRel 32749 (init exF exV exP) exState0 := by
  have hp := prime_32749
  have h := exInit_ok
  unfold exInitOk at h
  rw [Bool.and_eq_true, Nat.beq_eq] at h
  obtain ⟨hl, h⟩ := h
  intro r c
  by_cases hr : r < 48
  · have hr' := List.all_eq_true.1 h r (List.mem_range.2 hr)
    rw [Bool.and_eq_true, Nat.beq_eq] at hr'
    by_cases hc : c < 92
    · have hrc := List.all_eq_true.1 hr'.2 c (List.mem_range.2 hc)
      rw [beq_iff_eq] at hrc
      rw [init_find, exRow_spec, find_map]
      exact modRel_int hp (Int.dvd_of_emod_eq_zero hrc)
    · rw [lane_big (n := 92) hr'.1 (by omega), init_zero]
      · exact modRel_zero hp
      · intro hm
        have hall : initCols.all (fun L => L.all fun x => Nat.blt x 92) = true := by decide
        by_cases hlt : r < initCols.length
        · rw [List.getD_eq_getElem _ _ hlt] at hm
          have := List.all_eq_true.1 (List.all_eq_true.1 hall _ (List.getElem_mem hlt)) c hm
          rw [Nat.blt_eq] at this
          omega
        · rw [List.getD_eq_default _ _ (by omega)] at hm
          exact absurd hm (by simp)
  · rw [List.getD_eq_default _ _ (by omega), init_high _ _ _ (by omega)]
    have e0 : lane 0 c = 0 := by
      show (0 >>> (32 * c)) % _ = 0
      simp
    rw [e0]
    exact modRel_zero hp

/-! ### Two numbers that do not vanish -/

/-- A number without denominators. -/
def exNum (e m : ℕ → ℕ → ℕ) : ℕ :=
  e 15 71 * e 19 56 * e 19 56 * e 16 54 +
    e 15 75 * (e 16 55 * e 19 56 * e 19 55 + m 16 56 * e 19 55 * e 19 55) +
    m 15 76 * e 19 56 * e 19 55 * e 16 54 + e 15 77 * e 19 55 * e 19 55 * e 16 54

/-- The two numbers of `Nondeg`, and the denominators. -/
def exNondegOk : Bool :=
  match modRunR 32749 131148 exH exMask 92 exState0 exHintsA ((prog.take 62).map ZStmt.full) with
  | none => false
  | some S =>
    let e := fun r c => lane (S.getD r 0) c % 32749
    e 19 55 % 32749 != 0 && e 16 54 % 32749 != 0 &&
      exNum e (fun r c => 32749 - e r c) % 32749 != 0

theorem exNondeg_ok : exNondegOk = true := by decide +kernel

/-- For the example two numbers do not vanish. -/
theorem exNondeg : ∃ H, gRun (init exF exV exP) ((prog.take 62).map ZStmt.full) = some H ∧
    Nondeg H ∧ H 16 54 ≠ 0 := by
  have hp := prime_32749
  have hl := exNondeg_ok
  unfold exNondegOk at hl
  split at hl
  · exact absurd hl (by simp)
  rename_i S hS
  obtain ⟨H, e1, s1⟩ := modRunR_spec hp (by norm_num) exMask_ok _ _ _ hS exInit_spec
  simp only [Bool.and_eq_true, bne_iff_ne, ne_eq] at hl
  obtain ⟨⟨l1, l2⟩, l3⟩ := hl
  have g : ∀ r c, ModRel 32749 (H r c) (lane (S.getD r 0) c % 32749) := fun r c => modRel_mod (s1 r c)
  have n : ∀ r c, ModRel 32749 (-H r c) (32749 - lane (S.getD r 0) c % 32749) := fun r c =>
    modRel_neg (Nat.mod_lt _ hp.pos).le (g r c)
  have h1 : H 19 55 ≠ 0 := modRel_ne hp (g 19 55) l1
  have h2 : H 16 54 ≠ 0 := modRel_ne hp (g 16 54) l2
  have mm : ∀ {x x' : ℝ} {y y' : ℕ}, ModRel 32749 x y → ModRel 32749 x' y' →
      ModRel 32749 (x * x') (y * y') := fun a b => modRel_mul hp a b
  have aa : ∀ {x x' : ℝ} {y y' : ℕ}, ModRel 32749 x y → ModRel 32749 x' y' →
      ModRel 32749 (x + x') (y + y') := fun a b => modRel_add hp a b
  have h3 := modRel_ne hp (aa (aa (aa (mm (mm (mm (g 15 71) (g 19 56)) (g 19 56)) (g 16 54))
    (mm (g 15 75) (aa (mm (mm (g 16 55) (g 19 56)) (g 19 55)) (mm (mm (n 16 56) (g 19 55)) (g 19 55)))))
    (mm (mm (mm (n 15 76) (g 19 56)) (g 19 55)) (g 16 54)))
    (mm (mm (mm (g 15 77) (g 19 55)) (g 19 55)) (g 16 54))) l3
  refine ⟨H, e1, ⟨h1, fun h0 => h3 ?_⟩, h2⟩
  have e : H 15 71 * H 19 56 * H 19 56 * H 16 54 +
      H 15 75 * (H 16 55 * H 19 56 * H 19 55 + -H 16 56 * H 19 55 * H 19 55) +
      -H 15 76 * H 19 56 * H 19 55 * H 16 54 + H 15 77 * H 19 55 * H 19 55 * H 16 54 =
      (H 15 71 * (H 19 56 / H 19 55) ^ 2 +
        H 15 75 * ((H 16 55 * (H 19 56 / H 19 55) - H 16 56) / H 16 54) -
        H 15 76 * (H 19 56 / H 19 55) + H 15 77) * (H 19 55 ^ 2 * H 16 54) := by
    field_simp
    ring
  rw [e, h0, zero_mul]

/-! ### The line of eigenvectors -/

/-- The equations of an eigenvector with last entry zero, for the entries 1 to 5. -/
def lineM (G : GMat ℝ) (x : ℝ) : Matrix (Fin 5) (Fin 5) ℝ := Matrix.of fun i j =>
  -G (37 + i) (78 + j) + (if (i : ℕ) = j then -x else 0)

/-- The same modulo a prime. -/
def lineZ (S : List ℕ) (x : ℕ) (i j : ℕ) : ℤ :=
  -(lane (S.getD (37 + i) 0) (78 + j) : ℤ) + (if i = j then -(x : ℤ) else 0)

theorem line_zero {G : GMat ℝ} {x : ℝ} (hd : (lineM G x).det ≠ 0) {w : Fin 8 → ℂ}
    (hw : (gp3pM G).map (fun r => (r : ℂ)) *ᵥ w = (x : ℂ) • w) (h7 : w 7 = 0) : w = 0 := by
  have hrow : ∀ i : Fin 8, ∑ j, ((gp3pM G i j : ℝ) : ℂ) * w j = x * w i := fun i => by
    have := congrFun hw i
    simpa [mulVec, dotProduct] using this
  have h6 : w 6 = 0 := by
    have := hrow 7
    simp [gp3pM, Fin.sum_univ_succ, h7] at this
    exact this
  have h0 : w 0 = 0 := by
    have := hrow 6
    simp [gp3pM, Fin.sum_univ_succ, h6] at this
    exact this
  let y : Fin 5 → ℂ := ![w 1, w 2, w 3, w 4, w 5]
  have hy : (lineM G x).map (fun r => (r : ℂ)) *ᵥ y = 0 := by
    funext i
    fin_cases i
    · have hi := hrow 1
      simp [gp3pM, Fin.sum_univ_succ, h7, h6, h0] at hi
      simp [lineM, y, mulVec, dotProduct, Fin.sum_univ_succ]
      linear_combination hi
    · have hi := hrow 2
      simp [gp3pM, Fin.sum_univ_succ, h7, h6, h0] at hi
      simp [lineM, y, mulVec, dotProduct, Fin.sum_univ_succ]
      linear_combination hi
    · have hi := hrow 3
      simp [gp3pM, Fin.sum_univ_succ, h7, h6, h0] at hi
      simp [lineM, y, mulVec, dotProduct, Fin.sum_univ_succ]
      linear_combination hi
    · have hi := hrow 4
      simp [gp3pM, Fin.sum_univ_succ, h7, h6, h0] at hi
      simp [lineM, y, mulVec, dotProduct, Fin.sum_univ_succ]
      linear_combination hi
    · have hi := hrow 5
      simp [gp3pM, Fin.sum_univ_succ, h7, h6, h0] at hi
      simp [lineM, y, mulVec, dotProduct, Fin.sum_univ_succ]
      linear_combination hi
  have hdet : ((lineM G x).map (fun r => (r : ℂ))).det ≠ 0 := by
    have : ((lineM G x).map (fun r => (r : ℂ))).det = (((lineM G x).det : ℝ) : ℂ) :=
      (RingHom.map_det Complex.ofRealHom (lineM G x)).symm
    rw [this]
    exact_mod_cast hd
  have hy0 := Matrix.eq_zero_of_mulVec_eq_zero hdet hy
  have z1 : w 1 = 0 := congrFun hy0 0
  have z2 : w 2 = 0 := congrFun hy0 1
  have z3 : w 3 = 0 := congrFun hy0 2
  have z4 : w 4 = 0 := congrFun hy0 3
  have z5 : w 5 = 0 := congrFun hy0 4
  funext i
  fin_cases i <;> simp [*]

/-- The state has a left inverse of the equations. -/
def exLineOk (p : ℕ) (S : List ℕ) (x : ℕ) (L : List (List ℕ)) : Bool :=
  (List.range 5).all fun i => (List.range 5).all fun j =>
    (((List.range 5).map fun k => (((L.getD i []).getD k 0 : ℕ) : ℤ) * lineZ S x k j).sum -
      (if i = j then 1 else 0)) % p == 0

theorem exLineOk_spec {p : ℕ} (hp : p.Prime) {S : List ℕ} {G : GMat ℝ} (hS : StRel p G S) {x : ℝ}
    {y : ℕ} (hx : ModRel p x y) {L : List (List ℕ)} (h : exLineOk p S y L = true) :
    (lineM G x).det ≠ 0 := by
  apply det_ne_of_mod hp (B := Matrix.of fun i j : Fin 5 => ((lineZ S y i j : ℤ) : ZMod p))
    (L := Matrix.of fun i j : Fin 5 => (((L.getD i []).getD j 0 : ℕ) : ZMod p))
  · intro i j
    have hneg : ∀ {u : ℝ} {v : ℤ}, ResRel p u ((v : ℤ) : ZMod p) →
        ResRel p (-u) ((-v : ℤ) : ZMod p) := by
      intro u v huv
      have := resRel_mul hp (resRel_int hp (-1)) huv
      simpa using this
    have hadd : ∀ {u u' : ℝ} {v v' : ℤ}, ResRel p u ((v : ℤ) : ZMod p) →
        ResRel p u' ((v' : ℤ) : ZMod p) → ResRel p (u + u') ((v + v' : ℤ) : ZMod p) := by
      intro u u' v v' h1 h2
      rw [Int.cast_add]
      exact resRel_add hp h1 h2
    have hx' : ResRel p x (((y : ℕ) : ℤ) : ZMod p) := ⟨y, hx, by simp⟩
    have hg : ∀ r c, ResRel p (G r c) (((lane (S.getD r 0) c : ℕ) : ℤ) : ZMod p) :=
      fun r c => ⟨_, hS r c, by simp⟩
    have h0 : ResRel p 0 ((0 : ℤ) : ZMod p) := by simpa using resRel_int hp 0
    simp only [lineM, lineZ, Matrix.of_apply]
    apply hadd (hneg (hg _ _))
    by_cases hi : (i : ℕ) = j
    · rw [if_pos hi, if_pos hi]
      exact hneg hx'
    · rw [if_neg hi, if_neg hi]
      exact h0
  · ext i j
    unfold exLineOk at h
    have hij := List.all_eq_true.1 (List.all_eq_true.1 h i (List.mem_range.2 i.2)) j
      (List.mem_range.2 j.2)
    rw [beq_iff_eq] at hij
    have hz := (ZMod.intCast_zmod_eq_zero_iff_dvd _ p).2 (Int.dvd_of_emod_eq_zero hij)
    rw [Int.cast_sub, sub_eq_zero] at hz
    rw [Matrix.mul_apply]
    simp only [Matrix.of_apply]
    have hsum : ∑ k : Fin 5, (((L.getD i []).getD k 0 : ℕ) : ZMod p) * ((lineZ S y k j : ℤ) : ZMod p) =
        ((((List.range 5).map fun k => (((L.getD i []).getD k 0 : ℕ) : ℤ) * lineZ S y k j).sum : ℤ) :
          ZMod p) := by
      simp [Fin.sum_univ_succ, List.range_succ]
    rw [hsum, hz, Matrix.one_apply]
    by_cases hi : i = j
    · subst hi
      simp
    · rw [if_neg hi, if_neg fun e => hi (Fin.ext e)]
      simp

/-- The whole run. -/
def exRunOk : Bool :=
  match modRunR 32749 131148 exH exMask 92 exState0 exHints compute with
  | none => false
  | some S => exLineOk 32749 S 1 exInv

theorem exRun_ok : exRunOk = true := by decide +kernel

theorem ex_run : ∃ G, gRun (init exF exV exP) compute = some G ∧
    ∀ u v : Fin 8 → ℂ, u ≠ 0 →
      (gp3pM G).map (fun r => (r : ℂ)) *ᵥ u = ((1 : ℝ) : ℂ) • u →
      (gp3pM G).map (fun r => (r : ℂ)) *ᵥ v = ((1 : ℝ) : ℂ) • v → ∃ c : ℂ, v = c • u := by
  have hp := prime_32749
  have hl := exRun_ok
  unfold exRunOk at hl
  split at hl
  · exact absurd hl (by simp)
  rename_i S hS
  obtain ⟨G, e1, s1⟩ := modRunR_spec hp (by norm_num) exMask_ok _ _ _ hS exInit_spec
  have hx : ModRel 32749 (1 : ℝ) 1 := ⟨1, 1, by norm_num, by norm_num, by norm_num⟩
  have hd := exLineOk_spec hp s1 hx hl
  refine ⟨G, e1, fun u v hu h1 h2 => ?_⟩
  have hu7 : u 7 ≠ 0 := fun h0 => hu (line_zero hd h1 h0)
  refine ⟨v 7 / u 7, ?_⟩
  have := line_zero hd (w := v - (v 7 / u 7) • u)
    (by rw [mulVec_sub, mulVec_smul, h1, h2, smul_sub, smul_comm]) (by
      simp only [Pi.sub_apply, Pi.smul_apply, smul_eq_mul]
      field_simp
      ring)
  exact sub_eq_zero.1 this

end OpenGV.Gp3p
