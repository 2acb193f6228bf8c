import pickle
t,obs,tb,wb,G,H,J,E,o1,o2,ex2,best=pickle.load(open('exdata.pkl','rb'))
def wrap(s,ind=2,width=98):
    res,cur=[], ' '*ind
    for w in s.split(' '):
        if len(cur)+len(w)>width and cur.strip(): res.append(cur.rstrip()); cur=' '*ind
        cur+=w+' '
    res.append(cur.rstrip()); return '\n'.join(res)
def mat(k,den=False):
    return '!['+', '.join('!['+', '.join(f'{x} / 3' if den else str(x) for x in o[k])+']' for o in obs)+']'
print(t)
o=f'''import Verif.Proof.SixptAction
import Verif.Proof.ModRank
import Mathlib.Data.Rat.Cast.Defs

/-!
# An example for the six point solver: the numbers
-/

namespace OpenGV

/-- The bearing vectors in the first frame. -/
def sixF1 : Fin 6 → Fin 3 → ℚ :=
{wrap(mat(0,True))}

/-- The bearing vectors in the second frame. -/
def sixF2 : Fin 6 → Fin 3 → ℚ :=
{wrap(mat(2,True))}

/-- The camera centres in the first frame. -/
def sixO1 : Fin 6 → Fin 3 → ℚ :=
{wrap(mat(1))}

/-- The camera centres in the second frame. -/
def sixO2 : Fin 6 → Fin 3 → ℚ :=
{wrap(mat(3))}

/-- The depths of the points, divided by three. -/
def sixDepth : Fin 2 → Fin 6 → ℚ :=
  ![!{[o[4] for o in obs]}, !{[o[5] for o in obs]}]

/-- `sixLine` with fractions. -/
def sixLineQ (f off : Fin 3 → ℚ) : Fin 6 → ℚ :=
  ![f 0, f 1, f 2, f 1 * off 2 - f 2 * off 1, f 2 * off 0 - f 0 * off 2, f 0 * off 1 - f 1 * off 0]

/-- The lines in the first frame. -/
def sixQ1 (i : Fin 6) : Fin 6 → ℚ := sixLineQ (sixF1 i) (sixO1 i)

/-- The lines in the second frame. -/
def sixQ2 (i : Fin 6) : Fin 6 → ℚ := sixLineQ (sixF2 i) (sixO2 i)

/-- The coefficients of `fillRow1` for the example, times 81, modulo 251. -/
def sixTb : ℕ := {hex(tb)}

/-- The residues of the coefficients of group `d` at position `r`. -/
def sixBlk (d r : ℕ) : ℕ :=
  Nat.mod (Nat.shiftRight sixTb (Nat.mul 384 (Nat.add (Nat.mul 5 d) r)))
    {2**384}

/-- A byte of a number. -/
def byteAt (b i : ℕ) : ℕ := Nat.mod (Nat.shiftRight b (Nat.mul 8 i)) 256

/-- The matrix `M1p` of the example, times `81 ^ 3`, modulo 251. -/
def sixWb : ℕ := {hex(wb)}

/-- The residues of `Bᵀ * M1p`. -/
def sixHb : ℕ := {hex(H)}

/-- The residues of the inverse of `Bᵀ * B`. -/
def sixJb : ℕ := {hex(J)}

/-- The residues of `M1`, and of the coefficients of the equations of an eigenvector. -/
def sixEb : ℕ := {hex(E | (1<<(8*128*15)) | (250<<(8*(128*15+1))))}

/-- Entry of a packed table. -/
def byteTab (t k j : ℕ) : ℕ := byteAt t (Nat.add (Nat.mul 128 k) j)

/-- The order of the rows of the template. -/
def sixP1 : List ℕ :=
{wrap(str(o1))}

/-- The equations of an eigenvector to the eigenvalue one with last entry zero; one of them is left
out. -/
def sixExtra : List (ℕ × List (ℕ × ℕ)) :=
{wrap('['+', '.join(f'(15, {e})' for e in ex2)+']')}

/-- The order of the rows with these equations. -/
def sixP2 : List ℕ :=
{wrap(str(o2))}

/-! ## The checks -/

theorem sixT_check : ∀ d : Fin 6, ∀ r : Fin 5, ∀ k : Fin 3, ∀ j : Fin 10,
    (81 * sixM sixQ1 sixQ2 d r k j).den = 1 ∧
    (81 * sixM sixQ1 sixQ2 d r k j).num % 251 = byteAt (sixBlk d r) (16 * k + j) := by
  decide +kernel

'''+open('/tmp/six/checks2.txt').read()
open('/verif/lean/Verif/Proof/SixptExampleData.lean','w').write(o)
