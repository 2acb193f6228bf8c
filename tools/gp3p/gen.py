import re,ast,textwrap
o=open('out.txt').read()
def grab(k):
    return re.search(r'^%s (.*)$'%k,o,re.M).group(1)
f,v,p=[ast.literal_eval(grab(k).replace('#','')) for k in 'fvp']
rows=ast.literal_eval(grab('rows'))
h1=ast.literal_eval(grab('h1')); h2=ast.literal_eval(grab('h2')); inv=ast.literal_eval(grab('inv').replace('#',''))
print(len(h1),len(h2))
P=32749
def mask(a,b):
    return sum((a if c%2==0 else b)<<(32*c) for c in range(92))
def pack(L): return sum((x%P)<<(32*c) for c,x in L)
def wl(L,ind='  '):
    return '\n'.join(textwrap.wrap(', '.join(map(str,L)),width=96,initial_indent=ind,subsequent_indent=ind))
def mat(m): return '!!['+'; '.join(', '.join(map(str,r)) for r in m)+']'
out=f'''import Verif.Proof.GroebnerRowMod
import Verif.Proof.Gp3p
import Verif.Proof.Gp3pZero
import Mathlib.Tactic.NormNum.Prime
import Mathlib.LinearAlgebra.Matrix.ToLinearEquiv

/-!
# A certified run of the program of `gp3p`

Three points seen from the pose with Cayley parameters `(1, 1, 2)` and translation `(0, 1, -1)`. No
division by zero occurs, and the eigenvectors for the first parameter form a line. The run is used for
the examples, and to see that two numbers do not vanish for all inputs.
-/

namespace OpenGV.Gp3p

open Matrix

/-- The bearing vectors. -/
def exF : Mat3 := {mat(f)}

/-- The offsets. -/
def exV : Mat3 := {mat(v)}

/-- The points. -/
def exP : Mat3 := {mat(p)}

/-- The nine equations. -/
def exRow : ℕ → List (ℕ × ℤ)
'''
for r,L in enumerate(rows):
    out+=f'  | {r} => [\n'+wl([f'({c}, {x})' for c,x in L],'    ')+']\n'
out+='  | _ => []\n\n'
out+=f'''theorem exRow_spec (r : ℕ) :
    initRow exF exV exP r = (exRow r).map fun e => (e.1, (e.2 : ℝ)) := by
  by_cases hr : r < 9
  · interval_cases r <;> simp [initRow, exRow, exF, exV, exP] <;> norm_num
  · have h1 : initRow exF exV exP r = [] := by
      unfold initRow
      split <;> first | omega | rfl
    have h2 : exRow r = [] := by
      unfold exRow
      split <;> first | omega | rfl
    rw [h1, h2]
    rfl

/-- The upper halves of the entries. -/
def exH : ℕ := {hex(mask(0xffff0000,0xffff0000))}

/-- Every second entry. -/
def exMask : ℕ := {hex(mask(0xffffffff,0))}

/-- The initial matrix modulo 32749. -/
def exState0 : List ℕ := [
'''
out+=',\n'.join('  '+hex(pack(L)) for L in rows)+'] ++ List.replicate 39 0\n\n'
out+='/-- The inverses of the denominators in the part with all terms. -/\ndef exHintsA : List ℕ := [\n'+wl(h1)+']\n\n'
out+='/-- The inverses of the denominators. -/\ndef exHints : List ℕ := [\n'+wl(h2)+']\n\n'
out+='/-- An inverse modulo 32749. -/\ndef exInv : List (List ℕ) := [\n'+',\n'.join('  '+str(r) for r in inv)+']\n\n'
open('head.lean','w').write(out)
