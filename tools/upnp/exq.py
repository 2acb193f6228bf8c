import re,sys
from fractions import Fraction as F
import io,contextlib
with contextlib.redirect_stdout(io.StringIO()):
    from mono import *
    DATA={w:get(w) for w in 'sn'}
def mm(A,B): return [[sum(a*b for a,b in zip(r,c)) for c in zip(*B)] for r in A]
def matinv(A):
    n=len(A); M=[[F(x) for x in r]+[F(int(i==j)) for j in range(n)] for i,r in enumerate(A)]
    for i in range(n):
        p=next((r for r in range(i,n) if M[r][i]),None)
        if p is None: return None
        M[i],M[p]=M[p],M[i]; f=1/M[i][i]; M[i]=[x*f for x in M[i]]
        for r in range(n):
            if r!=i and M[r][i]: f=M[r][i]; M[r]=[(x-f*y) for x,y in zip(M[r],M[i])]
    return [r[n:] for r in M]
def fill(x):
    x1,x2,x3=x
    return [[x1,x1,-x1,-x1,0,2*x3,-2*x2,2*x2,2*x3,0],[x2,-x2,x2,-x2,-2*x3,0,2*x1,2*x1,0,2*x3],[x3,-x3,-x3,x3,2*x2,-2*x1,0,0,2*x1,2*x2]]
def HIJ(obs):
    n=len(obs)
    Hi=[[ (n*(i==j)-sum(f[i]*f[j] for f,_,_ in obs)) for j in range(3)] for i in range(3)]
    H=matinv(Hi)
    T=lambda f:[[ (f[i]*f[j]-(i==j)) for j in range(3)] for i in range(3)]
    I=[[0]*10 for _ in range(3)]; J=[0]*3
    for f,v,p in obs:
        HT=mm(H,T(f)); A=mm(HT,fill(p)); b=mm(HT,[[x] for x in v])
        for i in range(3):
            J[i]=(J[i]+b[i][0])
            for j in range(10): I[i][j]=(I[i][j]+A[i][j])
    return H,T,I,J
def MC(obs):
    H,T,I,J=HIJ(obs)
    M=[[0]*10 for _ in range(10)]; C=[0]*10
    for f,v,p in obs:
        Fm=fill(p)
        A=mm(T(f),[[Fm[i][j]+I[i][j] for j in range(10)] for i in range(3)])
        b=mm(T(f),[[v[i]+J[i]] for i in range(3)]); b=[-x[0] for x in b]
        for i in range(10):
            C[i]=(C[i]+sum(b[k]*A[k][i] for k in range(3)))
            for j in range(10): M[i][j]=(M[i][j]+sum(A[k][i]*A[k][j] for k in range(3)))
    return M,C
def M1of(fn,M,C,nr,nc):
    t=open(D+fn).read(); G=[[F(0)]*nc for _ in range(nr)]
    for r,c,ex in re.findall(r'\bM1\((\d+),(\d+)\) = ([^;]*);',t):
        G[int(r)][int(c)]=F(eval(ex,{'M':lambda i,j:M[i][j],'C':lambda i,j:C[j]}))
    return G
def setupM1(w,M,C):
    if w=='s':
        G=M1of('upnp4.cpp',M,C,8,24); B=matinv([r[:7] for r in G[:7]])
        if B is None: return None
        G[:7]=mm(B,G[:7])
        for i in range(6,-1,-1):
            f=G[i][10]/G[7][10]; G[i]=[(x-f*y) for x,y in zip(G[i],G[7])]
    else:
        G=M1of('upnp2.cpp',M,C,5,29); B=matinv([r[:4] for r in G[:4]])
        if B is None: return None
        G[:4]=mm(B,G[:4])
    return G
def rotq(q):
    a,b,c,d=q
    return [[a*a+b*b-c*c-d*d,2*(b*c-a*d),2*(b*d+a*c)],[2*(b*c+a*d),a*a-b*b+c*c-d*d,2*(c*d-a*b)],[2*(b*d-a*c),2*(c*d+a*b),a*a-b*b-c*c+d*d]]
def mk(fs,vs,ls,q,t):
    R=rotq(q); o=[]
    for f,v,l in zip(fs,vs,ls):
        w=[v[i]+l*f[i]-t[i] for i in range(3)]
        o.append((f,v,[sum(R[k][i]*w[k] for k in range(3)) for i in range(3)]))
    return o
def modp(G,p): return [[x.numerator*pow(x.denominator,-1,p)%p for x in r] for r in G]
def build(w,G):
    rows,m1,col,sh,nc,nf,fin=DATA[w]
    A=[[0]*nc for _ in range(len(rows))]
    for r,l in rows.items():
        for c,k,j in l: A[r][c]=G[k][j]
    return A
def rank(A,n,p):
    A=[r[:] for r in A]; nr=len(A)
    for i in range(n):
        pv=next((r for r in range(i,nr) if A[r][i]%p),None)
        if pv is None: return i
        A[i],A[pv]=A[pv],A[i]; f=pow(A[i][i],-1,p); A[i]=[x*f%p for x in A[i]]
        for r in range(i+1,nr):
            if A[r][i]: f=A[r][i]; A[r]=[(x-f*y)%p for x,y in zip(A[r],A[i])]
    return n
h=F(1,2); e1,e2,e3=[1,0,0],[0,1,0],[0,0,1]; z=[0,0,0]
if __name__=='__main__':
    ex5=mk([e1,e2,e3,e1,e2],[z,[0,0,1],[1,0,0],[0,1,2],[2,0,1]],[1,2,3,3,1],[h]*4,[0,0,0])
    ex4=mk([e1,e2,e3,e1],[z,[0,0,1],[1,0,0],[0,1,2]],[1,2,3,3],[h]*4,[0,0,0])
    for w,ob in (('s',ex5),('n',ex4)):
        M,C=MC(ob); G=setupM1(w,M,C)
        print(ob); print('M'); 
        for r in M: print([str(x) for x in r])
        print([str(x) for x in C])
        for r in G: print(len(r),max(x.denominator for x in r),[str(x) for x in r])
        from math import lcm
        print([lcm(*[x.denominator for x in r]) for r in G])
        for p in (5,7,11,13,17,19,23,29,31,37,41,43,47,53,59,61,67,71,73,79,83,89,97,101,103,107,109,113,127,10007,65521):
            try: Gp=modp(G,p)
            except ValueError: continue
            n=141 if w=='s' else 395
            print(p,rank(build(w,Gp),n,p))
