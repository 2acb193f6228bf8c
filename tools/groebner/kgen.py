from kcert import *
import textwrap
q,n,M,P,t,f1,f2,S0,hs,lam,L=make(1,1)
nl=197
mask=lambda v,step: sum(v<<(32*c) for c in range(0,nl,step))
H=mask(0xFFFF0000,1); Mk=mask(0xFFFFFFFF,2)
m=(1<<32)//p
rows=[sum(v<<(32*c) for c,v in enumerate(r)) for r in S0]
def wrap(L): return textwrap.fill(', '.join(map(str,L)),96,initial_indent='  ',subsequent_indent='  ')
while rows and rows[-1]==0: rows.pop()
o=f'''import Verif.Proof.GroebnerRowMod
import Verif.Proof.FiveKneip
import Mathlib.Tactic.NormNum.Prime
import Mathlib.LinearAlgebra.Matrix.ToLinearEquiv

/-!
# A certified run of the program of `fivept_kneip`

Data for the examples: no division by zero occurs, and the eigenvectors for the entry of the rotation
form a line.
-/

namespace OpenGV.FiveKneip

open Matrix

/-- The features in the first camera; they are the points. -/
def exF1 : List (List ℤ) := {f1}

/-- The features in the second camera. -/
def exF2 : List (List ℤ) := {f2}

/-- Seven times the rotation. -/
def exM : List (List ℤ) := {M}

/-- The translation. -/
def exT : List ℤ := {t}

/-- The upper halves of the entries. -/
def exH : ℕ := 0x{H:x}

/-- Every second entry. -/
def exMask : ℕ := 0x{Mk:x}

/-- The initial matrix modulo {p}. -/
def exState0 : List ℕ := [
  '''+',\n  '.join('0x%x'%x for x in rows)+f'''] ++ List.replicate {66-len(rows)} 0

/-- An inverse modulo {p}. -/
def exInv : List (List ℕ) := [
  '''+',\n  '.join(map(str,L))+''']

'''
GR=[range(0,16),range(16,32),range(32,48),range(48,61),range(61,69)]
# lengths of the code lists, from the table
tab=open('/verif/lean/Verif/Model/FiveKneipTable.lean').read()
def clen(k):
    b=re.search(r'def code%d : List GStmt := \[(.*?)\]\n(?:/--|\n|def)'%k,tab,re.S).group(1)
    b=re.sub(r'\[[^\]]*\]','X',b)
    return b.count(',')+1
cl=[clen(k) for k in range(69)]
assert sum(cl)==len(hs),(sum(cl),len(hs))
import kcert
G=[r[:] for r in S0]
pos=0
cuts=[]
allops=kcert.ops
for gi,g in enumerate(GR):
    k=sum(cl[x] for x in g)
    o+=f'/-- The inverses of the denominators in part {gi}. -/\ndef exHints{gi} : List ℕ := [\n{wrap(hs[pos:pos+k])}]\n\n'
    pr='compute'
    for x in cuts: pr=f'({pr}.drop {x})'
    pr=pr+f'.take {k}' if gi<4 else pr[1:-1]
    cuts.append(k)
    o+=f'/-- Part {gi} of the program. -/\ndef exProg{gi} : List GStmt :=\n  {pr}\n\n'
    kcert.ops=allops[pos:pos+k]; kcert.run(G); pos+=k
    if gi<4:
        rr=[sum(v<<(32*c) for c,v in enumerate(r)) for r in G]
        while rr and rr[-1]==0: rr.pop()
        o+=f'/-- The state after part {gi}. -/\ndef exState{gi+1} : List ℕ := [\n  '+',\n  '.join('0x%x'%x for x in rr)+f'] ++ List.replicate {66-len(rr)} 0\n\n'
o+=open('kcert_tail.txt').read().replace('PP',str(p)).replace('MM',str(m)).replace('LAM',str(lam)).replace('CUT0',str(cuts[0])).replace('CUT1',str(cuts[1])).replace('CUT2',str(cuts[2])).replace('CUT3',str(cuts[3]))
open('/verif/lean/Verif/Proof/FiveKneipCert.lean','w').write(o)
