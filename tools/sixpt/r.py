from q import *
import sys
def rank_mod(M,p):
    M=[r[:] for r in M]; rk=0; n=len(M[0])
    for c in range(n):
        piv=next((i for i in range(rk,len(M)) if M[i][c]%p),None)
        if piv is None: continue
        M[rk],M[piv]=M[piv],M[rk]
        iv=pow(M[rk][c],-1,p); M[rk]=[a*iv%p for a in M[rk]]
        for i in range(len(M)):
            if i!=rk and M[i][c]: 
                f=M[i][c]; M[i]=[(a-f*b)%p for a,b in zip(M[i],M[rk])]
        rk+=1
    return rk,M
def frac_mod(x,p):
    x=F(x); return x.numerator*pow(x.denominator,-1,p)%p
def M1p(L1,L2,p=None):
    red=(lambda x:x%p) if p else (lambda x:x)
    out=[]
    for d in range(6):
        rr=[]
        for s in range(6):
            if s!=d: rr.append([[red(a) for a in r] for r in rows(L1[d],L2[d],L1[s],L2[s])])
        for a in range(5):
            for b in range(a+1,5):
                for c in range(b+1,5):
                    m=[rr[a],rr[b],rr[c]]
                    row=[]
                    for col in range(84):
                        v=0
                        for (s,p2,i2,p1,i1,p0,i0) in fill2[col]:
                            v+=s*m[2][p2][i2]*m[1][p1][i1]*m[0][p0][i0]
                        row.append(red(v))
                    out.append(row)
    return out
def M2(M1,p):
    A=[[0]*157 for _ in range(93)]
    for r,v in table.items():
        for c,k,j in v: A[r][c]=M1[k][j]%p
    return A
if __name__=='__main__':
    p=10007; random.seed(int(sys.argv[1]) if len(sys.argv)>1 else 1)
    # unit vectors mod p: rational
    def unit():
        u,v=[F(random.randint(-5,5)) for _ in range(2)]
        n=1+u*u+v*v; return [2*u/n,2*v/n,(1-u*u-v*v)/n]
    c=[F(1),F(2),F(3)]
    K=1+dot(c,c); R=[[a/K for a in r] for r in T(KR(c))]
    t=[F(1),F(-1),F(2)]
    L1=[];L2=[]
    for i in range(6):
        f1=unit();f2=unit(); c1=[F(random.randint(-3,3)) for _ in range(3)]
        a,b=[F(random.randint(1,5)) for _ in range(2)]
        X=[x+a*y for x,y in zip(c1,f1)]
        X2=mv(T(R),[x-y for x,y in zip(X,t)])
        c2=[x-b*y for x,y in zip(X2,f2)]
        L1.append([frac_mod(z,p) for z in f1+cross(f1,c1)]); L2.append([frac_mod(z,p) for z in f2+cross(f2,c2)])
    M=M1p(L1,L2,p)
    mv_=[pow(1,m[0])*pow(2,m[1],p)*pow(3,m[2],p)%p for m in cm]
    print('vanish',all(sum(a*b for a,b in zip(r,mv_))%p==0 for r in M))
    rk,E=rank_mod(M,p); print('rank',rk)
    B=[r[:15] for r in M]; print('rank B',rank_mod(B,p)[0])
    BtB=[[sum(B[k][i]*B[k][j] for k in range(60))%p for j in range(15)] for i in range(15)]
    print('rank BtB',rank_mod(BtB,p)[0])
    BtM=[[sum(B[k][i]*M[k][j] for k in range(60))%p for j in range(84)] for i in range(15)]
    _,M1=rank_mod(BtM,p)
    A=M2(M1,p)
    print('rank M2',rank_mod([r[:93] for r in A],p)[0])
