from perm import *
import textwrap
def q(x):
    x=F(x); return str(x.numerator) if x.denominator==1 else f"{x.numerator} / {x.denominator}"
def wrap(s,ind="  "):
    return textwrap.fill(s,width=98,initial_indent=ind,subsequent_indent=ind,break_long_words=False)
def mat(name,doc,A):
    m,n=len(A),len(A[0])
    body="!!["+"; ".join(", ".join(q(x) for x in r) for r in A)+"]"
    return f"/-- {doc} -/\ndef {name} : Matrix (Fin {m}) (Fin {n}) ℚ :=\n{wrap(body)}\n"
def vec(name,doc,v):
    return f"/-- {doc} -/\ndef {name} : Fin {len(v)} → ℚ := ![{', '.join(q(x) for x in v)}]\n"
def lit(v): return "!["+", ".join(q(x) for x in v)+"]"
def biglit(name,doc,N):
    h=hex(N)
    return f"/-- {doc} -/\ndef {name} : ℕ :=\n  {h}\n"
o=["""import Verif.Proof.UpnpRational
import Verif.Proof.UpnpAction
import Verif.Proof.ModRank

/-!
# Two sets of correspondences for UPnP

The viewing directions are the coordinate axes, the pose has the quaternion (1/2, 1/2, 1/2, 1/2) and
no translation. All numbers are rational; the regularity of the large matrices is checked modulo 11.
-/

namespace OpenGV

open Matrix

set_option linter.style.longLine false
"""]
def part(nm,w,ob,p):
    n=len(ob)
    M,C,G,d,Gi,Gp,pm=data(w,ob,p)
    H,T,I,J=HIJ(ob)
    N='Sym' if w=='s' else 'Gen'; k=7 if w=='s' else 4
    src='upnp4.cpp' if w=='s' else 'upnp2.cpp'
    t=open(D+src).read()
    init=M1of(src,M,C,k+1,24 if w=='s' else 29)
    B=matinv([r[:k] for r in init[:k]]); Fm=mm(B,init[:k])
    o.append(f"/-! ## {n} correspondences -/\n")
    o.append(f"/-- {n} correspondences. -/\ndef {nm}Q : List QObs :=\n  ["+",\n   ".join("⟨"+", ".join(lit(x) for x in ob1)+"⟩" for ob1 in ob)+"]\n")
    o.append(f"/-- The correspondences in real numbers. -/\ndef {nm} : List UpnpObs := {nm}Q.map QObs.real\n")
    o.append(mat(nm+"H","The matrix `H`.",H)); o.append(mat(nm+"I","The matrix `I`.",I)); o.append(vec(nm+"J","The vector `J`.",J))
    o.append(mat(nm+"M","The matrix `M`.",M)); o.append(vec(nm+"C","The vector `C`.",C))
    o.append(mat(nm+"B","The inverse of the leading block of `M1`.",B)); o.append(mat(nm+"F","The equations after the multiplication with the inverse.",Fm))
    body="["+", ".join("["+", ".join(map(str,r))+"]" for r in Gi)+"]"
    o.append(f"/-- The equations, multiplied by {d}. -/\ndef {nm}G : List (List ℤ) :=\n{wrap(body)}\n")
    o.append(biglit(nm+"T","The equations modulo 11, packed.",packt(Gp)))
    o.append(f"/-- The order of the pivot rows. -/\ndef {nm}P : List ℕ :=\n{wrap(str(pm))}\n")
    nc=24 if w=='s' else 29
    o.append(f"""theorem {nm}_hinv : hinvQ {nm}Q * {nm}H = 1 := by decide +kernel

theorem {nm}_I : ({nm}Q.map fun o => {nm}H * tempQ o.f * fillQ o.p).sum = {nm}I := by decide +kernel

theorem {nm}_J : ({nm}Q.map fun o => ({nm}H * tempQ o.f) *ᵥ o.v).sum = {nm}J := by decide +kernel

theorem {nm}_M : ({nm}Q.map fun o =>
    (tempQ o.f * (fillQ o.p + {nm}I))ᵀ * (tempQ o.f * (fillQ o.p + {nm}I))).sum = {nm}M := by
  decide +kernel

theorem {nm}_C : ({nm}Q.map fun o =>
    (-(tempQ o.f *ᵥ (o.v + {nm}J))) ᵥ* (tempQ o.f * (fillQ o.p + {nm}I))).sum = {nm}C := by
  decide +kernel

theorem {nm}_upnpM : upnpM {nm} = realMat {nm}M := upnpM_real {nm}_hinv {nm}_I {nm}_M

theorem {nm}_upnpC : upnpC {nm} = realVec {nm}C := upnpC_real {nm}_hinv {nm}_I {nm}_J {nm}_C

theorem {nm}_B : (upnpM1{N}Init {nm}M {nm}C).submatrix (Fin.castLE (by norm_num))
    (Fin.castLE (by norm_num)) * {nm}B = 1 := by decide +kernel

theorem {nm}_F : {nm}B * (upnpM1{N}Init {nm}M {nm}C).submatrix (Fin.castLE (by norm_num)) id =
    {nm}F := by decide +kernel

/-- An entry of the equations, multiplied by {d}. -/
def {nm}A (k j : ℕ) : ℤ := ({nm}G.getD k []).getD j 0
""")
    return d,Gi,Gp,pm
part('axes5','s',ex5,11)
part('axes4','n',ex4,11)
print(len('\n'.join(o)))
if __name__=='__main__':
    open('/verif/lean/Verif/Proof/UpnpExample.lean','w').write('\n'.join(o)+"\nend OpenGV\n")
