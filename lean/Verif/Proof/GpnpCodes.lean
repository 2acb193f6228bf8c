/-!
# Monomials of the columns of the elimination programs of GPnP

The hexadecimal digits of a code are the exponents of the unknowns, the lowest digit for the first;
a code takes 36 bits of the table.
The codes are not in the source; they are checked by `GStmt.monoOk`.
-/

namespace OpenGV

def Gpnp1.codes : Nat :=
  0x1000000002

/-- The unknowns of the columns from 0 on; 0 stands for the constant. -/
def Gpnp1.uv : List (Nat × Nat) := [
  (1, 1), (0, 1), (0, 0)]

def Gpnp2.codes : Nat :=
  0x1000000010000000002000000011000000020

/-- The unknowns of the columns from 0 on; 0 stands for the constant. -/
def Gpnp2.uv : List (Nat × Nat) := [
  (2, 2), (1, 2), (1, 1), (0, 2), (0, 1), (0, 0)]

def Gpnp3.codes : Nat :=
  0x1000000010000000100000000002000000011000000101000000020000000110000000200000000003000000012000000102000000021000000111000000201000000030000000120

/-- The unknowns of the columns from 8 on; 0 stands for the constant. -/
def Gpnp3.uv : List (Nat × Nat) := [
  (3, 3), (2, 3), (2, 2), (1, 3), (1, 2), (1, 1), (0, 3), (0, 2), (0, 1), (0, 0)]

def Gpnp4.codes : Nat :=
  0x1000000010000000100000001000000000002000000011000000101000001001000000020000000110000001010000000200000001100000002000000000003000000012000000102000001002000000021000000111000001011000000201000001101000002001000000030000000120000001020000000210000001110000002010000000300000001200000000004000000013000000103000001003

/-- The unknowns of the columns from 22 on; 0 stands for the constant. -/
def Gpnp4.uv : List (Nat × Nat) := [
  (4, 4), (3, 4), (3, 3), (2, 4), (2, 3), (2, 2), (1, 4), (1, 3), (1, 2), (1, 1), (0, 4), (0, 3),
  (0, 2), (0, 1), (0, 0)]

def Gpnp5.codes : Nat :=
  0x1000000010000000100000001000000010000000000002000000011000000101000001001000010001000000020000000110000001010000010010000000200000001100000010100000002000000011000000020000000000003000000012000000102000001002000010002000000021000000111000001011000010011000000201000001101000010101000002001000011001000020001000000030000000120000001020000010020000000210000001110000010110000002010000011010000020010000000300000001200000010200000002100000011100000020100000003000000012000000000004000000013000000103000001003000010003000000022000000112000001012000010012000000202000001102000010102000002002000011002000020002000000031000000121000001021000010021000000211000001111000010111000002011000011011000000040000000130

/-- The unknowns of the columns from 59 on; 0 stands for the constant. -/
def Gpnp5.uv : List (Nat × Nat) := [
  (5, 5), (4, 5), (4, 4), (3, 5), (3, 4), (3, 3), (2, 5), (2, 4), (2, 3), (2, 2), (1, 5), (1, 4),
  (1, 3), (1, 2), (1, 1), (0, 5), (0, 4), (0, 3), (0, 2), (0, 1), (0, 0)]

end OpenGV
