from check import *
import random, textwrap
p=65537
inv=lambda x: pow(x,p-2,p)
npts={1:(3,0,3,5),2:(6,0,5,10),3:(18,8,4,15),4:(37,22,5,25),5:(80,59,6,44)}
fin={1:[(3,1)],2:[(8,4),(7,3)],3:[(13,16),(12,15),(11,14)],4:[(23,35),(22,34),(21,33),(20,32)],5:[(42,78),(41,77),(40,76),(39,75),(38,74),(38,76)]}
def run(G,ops):
    hs=[]
    for o in ops:
        if o[0]=='S':
            t=o[1]; ls={}
            for c,terms in o[2]:
                v=0
                for sg,r,c2,l in terms:
                    if G[r][l]==0: return None
                    x=G[r][c2]*inv(G[r][l])
                    v+= x if sg=='+' else -x
                    ls[sg]=inv(G[r][l])
                G[t][c]=v%p
            hs.append(ls['+']*0x100000+ls['-'])
        elif o[0]=='E':
            _,t,c,r,l,pr,sg,ln=o
            if l is None:
                f=G[t][c] if sg=='+' else -G[t][c]; hs.append(0)
            else:
                if G[r][l]==0: return None
                i=inv(G[r][l]); f=G[t][c]*i; hs.append(i)
            G[t][c]=0
            for a,b in pr: G[t][a]=(G[t][a]-f*G[r][b])%p
        else: assert 0
    return hs
def wrap(L):
    return textwrap.fill(', '.join(map(str,L)),96,initial_indent='  ',subsequent_indent='  ')
def make(k,coinc,seed):
    random.seed(seed)
    n,s,q,N_=npts[k]
    nr,nc,ops=load('gpnp%d'%k)
    rn=lambda: random.randrange(-3,4)
    while True:
        vs=[[rn() for _ in range(12)] for _ in range(k)]
        be=[random.choice([-2,-1,1,2,3]) for _ in range(k)]
        if k==5 and be[1]==be[2]: continue
        pts=[[rn() for _ in range(3)] for _ in range(4)]
        if coinc: pts=[pts[0]]*4
        x=sum(pts,[])
        a=[x[i]-sum(be[j]*vs[j][i] for j in range(k)) for i in range(12)]
        V=[a]+vs
        names='anmklp'
        env={names[i]:(lambda r,c,i=i:V[i][r]) for i in range(k+1)}
        d2=lambda i,j: sum((pts[i][t]-pts[j][t])**2 for t in range(3))
        env.update({'c%d%dw'%(i,j):d2(i,j) for i in range(4) for j in range(4)})
        txt=open(R+N['gpnp%d'%k][0]+'init.cpp').read()
        sig=re.search(r'::init\((.*?)\)\n\{',txt,re.S).group(1)
        nm=re.findall(r'Matrix<double,12,1> & (\w+)',sig)
        env.update({nm[i]:(lambda r,c,i=i:V[i][r]) for i in range(k+1)})
        G=[[0]*nc for _ in range(nr)]
        for r,c,e in re.findall(r'groebnerMatrix\((\d+),(\d+)\) = (.*);',txt): G[int(r)][int(c)]=eval(e,env)%p
        S0=[sum(v<<(32*c) for c,v in enumerate(row)) for row in G]
        hs=run(G,ops)
        if hs is None or any(G[r][c]==0 for r,c in fin[k]): continue
        break
    return V,pts,be,S0,hs
if __name__=='__main__':
    out=['''import Verif.Proof.GpnpMod
import Verif.Model.Gpnp1Table
import Verif.Model.Gpnp2Table
import Verif.Model.Gpnp3Table
import Verif.Model.Gpnp4Table
import Verif.Model.Gpnp5Table
import Mathlib.Tactic.NormNum.Prime

/-!
# Certified runs of the programs of GPnP

Examples for the theorems on the programs: data for which no division by zero occurs.
-/

namespace OpenGV

theorem prime_65537 : Nat.Prime 65537 := by norm_num
''']
    for k in range(1,6):
        for nmx,co in (('Ex',0),):
            n,s,q,N_=npts[k]
            V,pts,be,S0,hs=make(k,co,k)
            out.append(f'def Gpnp{k}.vecs{nmx} : List (List ℤ) := [\n  '+',\n  '.join(map(str,V))+']\n')
            out.append(f'def Gpnp{k}.pts{nmx} : List (List ℤ) := {pts}\n')
            out.append(f'def Gpnp{k}.coef{nmx} : List ℤ := {be}\n')
            out.append(f'def Gpnp{k}.hints{nmx} : List ℕ := [\n{wrap(hs)}]\n')
            S0=S0[:q]
            out.append(f'def Gpnp{k}.state{nmx} : List ℕ := [\n  '+',\n  '.join('0x%x'%x for x in S0)+f'] ++\n  List.replicate {N_-q} 0\n')
            out.append(f'''theorem Gpnp{k}.run{nmx} : ∃ G',
    gRun (gInit {s} initTerms (gVars (vecs{nmx}.map intVec) (intPts pts{nmx}))) compute = some G' ∧
      ∀ q ∈ [{', '.join('((%d : ℕ), (%d : ℕ))'%f if i==0 else '(%d, %d)'%f for i,f in enumerate(fin[k]))}], G' q.1 q.2 ≠ 0 :=
  modCheck_spec (n := {n}) (S := state{nmx}) (hs := hints{nmx}) prime_65537 (by norm_num) (by norm_num)
    (by decide +kernel)
''')
    out.append('end OpenGV')
    open('/verif/lean/Verif/Proof/GpnpCert.lean','w').write('\n'.join(out)+'\n')
