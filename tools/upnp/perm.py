from exq import *
from math import lcm
def getperm(A,n,p):
    A=[r[:] for r in A]; idx=list(range(len(A)))
    for i in range(n):
        pv=next((r for r in range(i,n) if A[r][i]%p),None)
        if pv is None: return None
        A[i],A[pv]=A[pv],A[i]; idx[i],idx[pv]=idx[pv],idx[i]; f=pow(A[i][i],-1,p); A[i]=[x*f%p for x in A[i]]
        for r in range(i+1,n):
            if A[r][i]: f=A[r][i]; A[r]=[(x-f*y)%p for x,y in zip(A[r],A[i])]
    return idx
ex5=mk([e1,e2,e3,e1,e2],[z,[0,0,1],[1,0,0],[0,1,2],[2,0,1]],[1,2,3,3,1],[h]*4,[0,0,0])
ex4=mk([e1,e2,e3,e1],[z,[0,0,1],[1,0,0],[0,1,2]],[1,2,3,3],[h]*4,[0,0,0])
def packt(G): return sum(v<<(8*(32*k+j)) for k,r in enumerate(G) for j,v in enumerate(r))
def data(w,ob,p,swap=None):
    M,C=MC(ob); G=setupM1(w,M,C); d=lcm(*[x.denominator for r in G for x in r])
    assert d%p
    Gi=[[int(x*d) for x in r] for r in G]
    Gp=[[x%p for x in r] for r in Gi]
    n=141 if w=='s' else 395
    A=build(w,Gp)
    if swap:
        a,b=swap
        for r in A: r[a],r[b]=r[b],r[a]
    return M,C,G,d,Gi,Gp,getperm([r[:n] for r in A],n,p)
if __name__=='__main__':
    for w,ob,sw in (('s',ex5,None),('n',ex4,None),('n',ex4,(372,395))):
        for p in (11,13,17,19,23,29,31):
            try: d=data(w,ob,p,sw)
            except AssertionError: continue
            print(w,sw,p,d[3],d[6] and sum(1 for i,x in enumerate(d[6]) if i!=x))
    o=["import Verif.Proof.ModRank\nimport Verif.Proof.UpnpCodes\nnamespace OpenGV\nset_option profiler true"]
    for nm,w,ob,p,sw,t in (('a','s',ex5,11,None,'Sym'),('b','n',ex4,11,None,'Gen')):
        M,C,G,d,Gi,Gp,pm=data(w,ob,p,sw); n=len(pm)
        o.append(f"def t{nm} : ℕ := {packt(Gp)}\ndef pm{nm} : List ℕ := {pm}")
        o.append(f"theorem chk{nm} : regGo {p} {n} (rawRow upnpTable{t} t{nm} (fun c => c) {n}) pm{nm} 0 [] = true := by decide +kernel")
    open('/tmp/up/T.lean','w').write('\n'.join(o))
