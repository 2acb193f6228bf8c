import re,itertools
from check import *
txt=open(R+N['kneip'][0]+'init.cpp').read()
ent={}
for c,e in re.findall(r'row\(0,(\d+)\) = (.*);',txt):
    d={}
    for sg,a,i,j,b,k,l in re.findall(r'([-+]?)c123_1\[(\d)\]\((\d),(\d)\)\*c123_2\[(\d)\]\((\d),(\d)\)',e):
        key=(int(i),int(j),int(a),int(k),int(l),int(b))
        d[key]=d.get(key,0)+(-1 if sg=='-' else 1)
    assert len(re.findall('c123_1',e))==sum(abs(x) for x in d.values())
    ent[int(c)]=d
# expected
eps=lambda i,j,k:(i-j)*(j-k)*(k-i)//2
exp={}
# u_a[p] = sum eps(p,i,m) f1a[i] R[m][n] f2a[n]
for p in itertools.permutations(range(3)):
    sp=eps(*p)
    for ia,ma in itertools.product(range(3),repeat=2):
        ea=eps(p[0],ia,ma)
        if not ea: continue
        for ib,mb in itertools.product(range(3),repeat=2):
            eb=eps(p[1],ib,mb)
            if not eb: continue
            for ic,mc in itertools.product(range(3),repeat=2):
                ec=eps(p[2],ic,mc)
                if not ec: continue
                for na,nb,nc in itertools.product(range(3),repeat=3):
                    mon=[0]*9
                    for m,n in((ma,na),(mb,nb),(mc,nc)): mon[3*m+n]+=1
                    mon=tuple(mon)
                    key=(ia,ib,ic,na,nb,nc)
                    d=exp.setdefault(mon,{}); d[key]=d.get(key,0)+sp*ea*eb*ec
exp={m:{k:v for k,v in d.items() if v} for m,d in exp.items()}
exp={m:d for m,d in exp.items() if d}
print(len(ent),len(exp))
from collections import defaultdict
inv=defaultdict(list)
for m,d in exp.items(): inv[frozenset(d.items())].append(m)
cnt=0
amb=0
cands={}
for c in sorted(ent):
    s=frozenset(ent[c].items())
    cands[c]=[(m,1) for m in inv.get(s,[])]+[(m,-1) for m in inv.get(frozenset((k,-v) for k,v in ent[c].items()),[])]
for c in list(sorted(ent))[:60]: print(c,cands[c])
