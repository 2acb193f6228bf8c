from check import *
import re
p='/verif/lean/Verif/Proof/GpnpCodes.lean'
s=open(p).read()
for K in range(1,6):
    k='gpnp%d'%K
    nr,nc,ops=load(k); rows,mono,consts,names=init(k); m,err=infer(k,ops,mono); assert err is None
    v=0
    for c in range(nc): v|=sum(e<<(4*i) for i,e in enumerate(m[c]))<<(36*c)
    s=re.sub(r'def Gpnp%d.codes : Nat := 0x\w+'%K,'def Gpnp%d.codes : Nat :=\n  0x%x'%(K,v),s)
s=s.replace("The hexadecimal digits of a code are","The hexadecimal digits of a code are").replace("lowest digit for the first.","lowest digit for the first;\na code takes 36 bits of the table.")
open(p,'w').write(s)
