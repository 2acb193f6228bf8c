from ex import *
import ex, sys
i3=pow(3,-1,p)
from itertools import permutations,product
uv=sorted({tuple(s*v for s,v in zip(sg,pm)) for pm in permutations((1,2,2)) for sg in product((1,-1),repeat=3)})
def trial(seed,N=2):
    rd=random.Random(seed)
    t=[rd.randint(-2,2) for _ in range(3)]
    obs=[];L1=[];L2=[]
    for i in range(6):
        f1=list(rd.choice(uv));f2=list(rd.choice(uv))   # times 1/3
        c1=[rd.randint(-N,N) for _ in range(3)]
        a=rd.choice([1,2]);b=rd.choice([1,2])
        X=[x+a*y for x,y in zip(c1,f1)]
        X2=mv(T(R),[x-y for x,y in zip(X,t)])
        c2=[x-b*y for x,y in zip(X2,f2)]
        obs.append((f1,c1,f2,c2,a,b))
        L1.append([x*i3%p for x in f1+cross(f1,c1)]); L2.append([x*i3%p for x in f2+cross(f2,c2)])
    return t,obs,L1,L2
if __name__=='__main__':
    for s in range(int(sys.argv[2]),int(sys.argv[3])):
        t,obs,L1,L2=trial(s)
        r=ranks(L1,L2)
        print(s,r[:4],flush=True)
        if r[3]==63: print(t,obs)
