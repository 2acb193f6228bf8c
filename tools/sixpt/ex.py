from r import *
import sys
p=int(sys.argv[1]) if len(sys.argv)>1 else 251
R=[[a//4 for a in r] for r in T(KR([1,1,1]))]
ax=[[1,0,0],[0,1,0],[0,0,1],[-1,0,0],[0,-1,0],[0,0,-1]]
def trial(seed,N=3):
    rd=random.Random(seed)
    t=[rd.randint(-2,2) for _ in range(3)]
    obs=[];L1=[];L2=[]
    for i in range(6):
        f1=rd.choice(ax[:3]);f2=rd.choice(ax[:3])
        c1=[rd.randint(-N,N) for _ in range(3)]
        X=[x+rd.randint(1,3)*y for x,y in zip(c1,f1)]
        X2=mv(T(R),[x-y for x,y in zip(X,t)])
        b=rd.randint(1,3)
        c2=[x-b*y for x,y in zip(X2,f2)]
        obs.append((f1,c1,f2,c2))
        L1.append(f1+cross(f1,c1)); L2.append(f2+cross(f2,c2))
    return t,obs,L1,L2
def ranks(L1,L2):
    M=M1p(L1,L2,p)
    assert all(sum(r)%p==0 for r in M)
    rk,E=rank_mod(M,p)
    B=[r[:15] for r in M]
    BtB=[[sum(B[k][i]*B[k][j] for k in range(60))%p for j in range(15)] for i in range(15)]
    rb=rank_mod(BtB,p)[0]
    if rb<15: return rk,rb,0,0,None
    BtM=[[sum(B[k][i]*M[k][j] for k in range(60))%p for j in range(84)] for i in range(15)]
    _,M1=rank_mod(BtM,p)
    A=M2(M1,p)
    rm,Er=rank_mod(A,p)
    if rank_mod([r[:93] for r in A],p)[0]<93: return rk,rb,'sing',0,None
    # action
    src={0:36}; src.update({i:65+i for i in range(1,7)}); src.update({i:71+i for i in range(8,22)})
    one={7:0,63:62}
    for a,b,n in ((22,1,7),(29,14,15),(44,34,10),(54,48,6),(60,57,3)):
        for k in range(n): one[a+k]=b+k
    Act=[[0]*64 for _ in range(64)]
    for i in range(64):
        if i in src: Act[i]=[(-x)%p for x in Er[src[i]][93:]]
        else: Act[i][one[i]]=1
    assert all(sum(r)%p==1 for r in Act)
    Em=[r[:] for r in Act]
    for i in range(64): Em[i][i]=(Em[i][i]-1)%p
    return rk,rb,93,rank_mod(Em,p)[0],M1
if __name__=='__main__':
    for s in range(int(sys.argv[2]),int(sys.argv[3])):
        t,obs,L1,L2=trial(s)
        r=ranks(L1,L2)
        if r[0]>=15 or r[1]==15: print(s,r[:4],flush=True)
