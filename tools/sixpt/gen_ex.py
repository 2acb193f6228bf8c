from ex3 import *
import ex, r as rmod
SEED=5
t,obs,L1,L2=trial(SEED)
M=M1p(L1,L2,p)
s81=pow(81,3,p)
W=[[x*s81%p for x in r] for r in M]
# check
def rowsd(d):
    rr=[]
    for s in range(6):
        if s!=d: rr.append([[81*a%p for a in x] for x in rows(L1[d],L2[d],L1[s],L2[s])])
    return rr
Tt=[rowsd(d) for d in range(6)]
tb=0
for d in range(6):
    for q in range(5):
        for k in range(3):
            for j in range(10):
                tb|=Tt[d][q][k][j]<<(8*(48*(5*d+q)+16*k+j))
wb=0
for r0 in range(60):
    for c in range(84): wb|=W[r0][c]<<(8*(128*r0+c))
G=[[sum(W[k][i]*W[k][j] for k in range(60))%p for j in range(15)] for i in range(15)]
H=[[sum(W[k][i]*W[k][j] for k in range(60))%p for j in range(84)] for i in range(15)]
_,aug=rank_mod([G[i]+[int(i==j) for j in range(15)] for i in range(15)],p)
J=[row[15:] for row in aug]
E=[[sum(J[i][k]*H[k][j] for k in range(15))%p for j in range(84)] for i in range(15)]
assert all(E[i][j]==int(i==j) for i in range(15) for j in range(15))
def pack(Mx): 
    b=0
    for i,rw in enumerate(Mx):
        for j,x in enumerate(rw): b|=x<<(8*(128*i+j))
    return b
A=M2(E,p)
src={0:36}; src.update({i:65+i for i in range(1,7)}); src.update({i:71+i for i in range(8,22)})
one={7:0,63:62}
for a,b,n in ((22,1,7),(29,14,15),(44,34,10),(54,48,6),(60,57,3)):
    for k in range(n): one[a+k]=b+k
extra=[]
for i in range(64):
    if i in src: extra.append([(src[i],0),(93+i,1)])
    else: extra.append(sorted([(93+one[i],0),(93+i,1)]))
extra.append([(156,0)])
def vec(es):
    v=[0]*157
    for c,j in es: v[c]=[1,p-1][j]
    return v
def pivots(rowsM,n):
    # row order for regGo: find order rows such that k-th processed row reduces to pivot at col k
    rem=list(range(len(rowsM))); done=[];order=[]
    cur={i:rowsM[i][:n] for i in rem}
    for k in range(n):
        pv=next((i for i in rem if cur[i][k]%p),None)
        if pv is None: return order,k
        order.append(pv); rem.remove(pv)
        iv=pow(cur[pv][k],-1,p); pr=[x*iv%p for x in cur[pv]]
        for i in rem:
            f=cur[i][k]
            if f: cur[i]=[(a-f*b)%p for a,b in zip(cur[i],pr)]
    return order,None
o1,e1=pivots(A,93); assert e1 is None
# find which extra row may be dropped
best=None
for drop in range(63,-1,-1):
    ex2=[e for i,e in enumerate(extra) if i!=drop]
    o2,e2=pivots(A+[vec(e) for e in ex2],157)
    if e2 is None: best=drop;break
print('drop',best)
import pickle
pickle.dump((t,obs,tb,wb,pack(G),pack(H),pack(J),pack(E),o1,o2,ex2,best),open('exdata.pkl','wb'))
