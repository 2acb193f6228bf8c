from p import *
from fractions import Fraction as F
import random
mon=[(2,0,0),(1,1,0),(0,2,0),(1,0,1),(0,1,1),(0,0,2),(1,0,0),(0,1,0),(0,0,1),(0,0,0)]
# fillRow2 monomials
cm=[]
for c in range(84):
    s={tuple(sum(z) for z in zip(mon[a],mon[b],mon[d])) for (_,_,a,_,b,_,d) in fill2[c]}
    assert len(s)==1,(c,s); cm.append(s.pop())
assert len(set(cm))==84
# each entry is exactly det
allt=sorted(t for c in fill2 for t in fill2[c]); 
from itertools import permutations
def sgn(p): return (-1)**sum(p[i]>p[j] for i in range(3) for j in range(i+1,3))
want=sorted((s*sgn((p2,p1,p0)),p2,a,p1,b,p0,d) for p2,p1,p0 in permutations(range(3)) for a in range(10) for b in range(10) for d in range(10) for s in [1])
for s in (1,-1):
    print(s, sorted((s*t[0],)+t[1:] for t in allt)==want)
print(cm[:20])
def cross(a,b): return [a[1]*b[2]-a[2]*b[1],a[2]*b[0]-a[0]*b[2],a[0]*b[1]-a[1]*b[0]]
def dot(a,b): return sum(x*y for x,y in zip(a,b))
def KR(c):
    x,y,z=c
    return [[1+x*x-y*y-z*z,2*x*y-2*z,2*x*z+2*y],[2*x*y+2*z,1-x*x+y*y-z*z,2*y*z-2*x],[2*x*z-2*y,2*y*z+2*x,1-x*x-y*y+z*z]]
def mv(A,v): return [dot(r,v) for r in A]
def T(A): return [list(r) for r in zip(*A)]
def ev(terms,v): 
    r=0
    for co,vs in terms:
        p=co
        for n,i in vs: p*=v[n][i]
        r+=p
    return r
def rows(l01,l02,l11,l12):
    v={'01':l01,'02':l02,'11':l11,'12':l12}
    return [[ev(t,v) for t in fill1[k]] for k in range(3)]
def pe(co,c): return sum(a*c[0]**m[0]*c[1]**m[1]*c[2]**m[2] for a,m in zip(co,mon))
if __name__=='__main__':
    R=lambda n:[F(random.randint(-9,9)) for _ in range(n)]
    l=[R(6) for _ in range(4)]; c=R(3)
    C=rows(*l)
    c0,c1,c2=[pe(a,c) for a in C]
    A=KR(c); B=T(A)
    K=1+dot(c,c)
    f1,m1=l[2][:3],l[2][3:]; f2,m2=l[3][:3],l[3][3:]
    g1,n1=l[0][:3],l[0][3:]; g2,n2=l[1][:3],l[1][3:]
    for nm,M in (('S',A),('St',B)):
        w=cross(f1,mv(M,f2))
        print(nm,c0,dot(w,g1),c1,dot(w,mv(M,g2))/K, c2, dot(w,cross(g1,n1)), dot(w,mv(M,cross(g2,n2)))/K, dot(f1,mv(M,m2)),dot(m1,mv(M,f2)))
        from itertools import product
        for s in product((-1,1,0),repeat=4):
            val=s[0]*dot(w,cross(g1,n1))+s[1]*dot(w,mv(M,cross(g2,n2)))/K+s[2]*dot(f1,mv(M,m2))+s[3]*dot(m1,mv(M,f2))
            if val==c2: print(s)
