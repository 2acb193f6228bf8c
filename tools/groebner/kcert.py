import random
import io,contextlib
with contextlib.redirect_stdout(io.StringIO()):
    from kn import *
    nr,nc,ops=load('kneip')
p=32749
inv=lambda x: pow(x%p,p-2,p)
txt=open(R+N['kneip'][0]+'init.cpp').read()
consts=[(int(r),int(c),int(v)) for r,c,v in re.findall(r'groebnerMatrix\((\d+),(\d+)\) = (-?\d+);',txt)]
def initG(f1,f2):
    G=[[0]*197 for _ in range(66)]
    r=0
    for a in range(5):
        for b in range(a+1,5):
            for c in range(b+1,5):
                for col,d in ent.items():
                    G[r][col]=sum(s*f1[a][k[0]]*f1[b][k[1]]*f1[c][k[2]]*f2[a][k[3]]*f2[b][k[4]]*f2[c][k[5]] for k,s in d.items())%p
                r+=1
    for r,c,v in consts: G[r][c]=v%p
    return G
def run(G):
    hs=[]; snaps=[]
    for n,o in enumerate(ops):
        snaps.append([row[:] for row in G] if n%100==0 else None)
        if o[0]=='S':
            t=o[1]; ls={}; rows={}
            for c,terms in o[2]:
                v=0
                for sg,r,c2,l in terms:
                    if G[r][l]%p==0: return None
                    x=G[r][c2]*inv(G[r][l]); v+= x if sg=='+' else -x
                    ls[sg]=inv(G[r][l])
                G[t][c]=v%p
            hs.append(ls['+']*0x100000+ls['-'])
        elif o[0]=='E':
            _,t,c,r,l,pr,sg,ln=o
            if l is None: f=G[t][c] if sg=='+' else -G[t][c]; hs.append(0)
            else:
                if G[r][l]%p==0: return None
                i=inv(G[r][l]); f=G[t][c]*i; hs.append(i)
            G[t][c]=0
            for a,b in pr: G[t][a]=(G[t][a]-f*G[r][b])%p
        elif o[0]=='N':
            r,c=o[1],o[2]
            if G[r][c]%p==0: return None
            f=inv(G[r][c]); G[r]=[x*f%p for x in G[r]]; hs.append(f)
        elif o[0]=='W':
            _,t,c,r,ln=o; f=G[t][c]; G[t]=[(x-f*y)%p for x,y in zip(G[t],G[r])]; hs.append(0)
        else: assert 0,o
    return hs
def invmat(B):
    n=len(B); A=[r[:]+[int(i==j) for j in range(n)] for i,r in enumerate(B)]
    for c in range(n):
        k=next((r for r in range(c,n) if A[r][c]%p),None)
        if k is None: return None
        A[c],A[k]=A[k],A[c]
        f=inv(A[c][c]); A[c]=[x*f%p for x in A[c]]
        for r in range(n):
            if r!=c and A[r][c]: 
                f=A[r][c]; A[r]=[(x-f*y)%p for x,y in zip(A[r],A[c])]
    return [r[n:] for r in A]
def make(seed,m):
    random.seed(seed)
    while True:
        q=[random.randrange(-2,3) for _ in range(4)]
        a,b,c,d=q; n=a*a+b*b+c*c+d*d
        if n==0: continue
        M=[[a*a+b*b-c*c-d*d,2*b*c-2*a*d,2*b*d+2*a*c],[2*b*c+2*a*d,a*a-b*b+c*c-d*d,2*c*d-2*a*b],[2*b*d-2*a*c,2*c*d+2*a*b,a*a-b*b-c*c+d*d]]
        if any(x==0 for r in M for x in r): continue
        P=[[random.randrange(-m,m+1) for _ in range(3)] for _ in range(5)]
        t=[random.randrange(-m,m+1) for _ in range(3)]
        f1=P; f2=[[sum(M[j][k]*(x[j]-t[j]) for j in range(3)) for k in range(3)] for x in P]
        G=initG(f1,f2); S0=[r[:] for r in G]
        hs=run(G)
        if hs is None: continue
        lam=M[0][0]*inv(n)%p
        B=[[(-G[51+i][177]-(lam if i==0 else 0))%p]+[(-lam*G[51+i][178+k]-G[51+i][187+k]-(lam*lam if i==k+1 else 0))%p for k in range(8)] for i in range(9)]
        L=invmat(B)
        if L is None: print('singular'); continue
        # check eigen
        return q,n,M,P,t,f1,f2,S0,hs,lam,L
if __name__=='__main__':
    for m in (1,2,3):
        r=make(m,m)
        print(r[:7],r[9],len(r[8]))
