/-- The product of the three residues of a term. -/
def sixProd (m0 m1 m2 t : ℕ) : ℕ :=
  Nat.mul (Nat.mul (byteAt m2 (Nat.mod (Nat.shiftRight t 16) 256))
    (byteAt m1 (Nat.mod (Nat.shiftRight t 8) 256))) (byteAt m0 (Nat.mod t 256))

/-- The sum of the terms of a column has the residue `w`. -/
def sixAcc (m0 m1 m2 w : ℕ) : List ℕ → ℕ → ℕ → Bool
  | [], pos, neg => Nat.beq (Nat.mod pos 251) (Nat.mod (Nat.add neg w) 251)
  | t :: ts, pos, neg =>
    bif Nat.blt t 16777216 then
      forceNat (Nat.add pos (sixProd m0 m1 m2 t)) fun pos' => sixAcc m0 m1 m2 w ts pos' neg
    else forceNat (Nat.add neg (sixProd m0 m1 m2 t)) fun neg' => sixAcc m0 m1 m2 w ts pos neg'

/-- All columns of a row, from `c` on. -/
def sixRowCheck (m0 m1 m2 row : ℕ) : ℕ → List (List ℕ) → Bool
  | _, [] => true
  | c, l :: ls => forceNat (byteTab sixWb row c) fun w =>
      sixAcc m0 m1 m2 w l 0 0 && sixRowCheck m0 m1 m2 row (c + 1) ls

/-- One row of `M1p`. -/
def sixRowOk (row : ℕ) : Bool :=
  match sixCount row with
  | (d, r0, r1, r2) =>
    forceNat (sixBlk d r0) fun m0 => forceNat (sixBlk d r1) fun m1 => forceNat (sixBlk d r2) fun m2 =>
      sixRowCheck m0 m1 m2 row 0 sixFill

theorem sixRow_check : ∀ row : Fin 60, sixRowOk row = true := by decide +kernel

/-- The sum of `f 0`, ..., `f (n - 1)`. -/
def sumTo (f : ℕ → ℕ) : ℕ → ℕ
  | 0 => 0
  | n + 1 => Nat.add (f n) (sumTo f n)

theorem sixH_check : ∀ i : Fin 15, ∀ j : Fin 84,
    Nat.beq (Nat.mod (sumTo (fun r => Nat.mul (byteTab sixWb r i) (byteTab sixWb r j)) 60) 251)
      (byteTab sixHb i j) = true := by
  decide +kernel

theorem sixE_check : ∀ i : Fin 15, ∀ j : Fin 84,
    Nat.beq (Nat.mod (sumTo (fun k => Nat.mul (byteTab sixJb i k) (byteTab sixHb k j)) 15) 251)
      (byteTab sixEb i j) = true := by
  decide +kernel

theorem sixE_one : ∀ i j : Fin 15, byteTab sixEb i j = if i = j then 1 else 0 := by
  decide +kernel

/-- The template and the equations of an eigenvector. -/
def sixEigTable : List (ℕ × List (ℕ × ℕ)) := [sixTable, sixExtra].flatten

theorem sixReg_check : regGo 251 93 (rawRow sixTable (byteTab sixEb) (fun c => c) 93) sixP1 0 [] = true := by
  decide +kernel

theorem sixReg_check2 :
    regGo 251 157 (rawRow sixEigTable (byteTab sixEb) (fun c => c) 157) sixP2 0 [] = true := by
  decide +kernel

end OpenGV
