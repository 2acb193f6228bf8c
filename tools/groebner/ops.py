import re
from parse import *
def load(k):
    p,nr,nc=N[k]
    sp=funcs(R+p+'spolynomials.cpp'); rd=funcs(R+p+'reductors.cpp'); cd=funcs(R+p+'code.cpp')
    SP={}
    for f in sp:
        n=int(re.match(r'sPolynomial(\d+)$',f).group(1))
        ent=[]
        for ln,s in sp[f]:
            if s=='void': continue
            e=sp_entry(s); assert e and e[0]==n,(s,n)
            ent.append((e[1],e[2]))
        SP[n]=ent
    RD={}
    for f in rd:
        c=l=r=None; pr=[]; z=None
        for ln,s in rd[f]:
            if s=='void': continue
            m=re.match(r'double factor = groebnerMatrix\(targetRow,(\d+)\) / groebnerMatrix\((\d+),(\d+)\);',s)
            if m: c,r,l=map(int,m.groups()); continue
            m=re.match(r'groebnerMatrix\(targetRow,(\d+)\) = 0.0;',s)
            if m: z=int(m.group(1)); continue
            m=re.match(r'groebnerMatrix\(targetRow,(\d+)\) -= factor \* groebnerMatrix\((\d+),(\d+)\);',s)
            assert m,s
            a,b,d=map(int,m.groups()); assert b==r; pr.append((a,d))
        assert z==c,(f,z,c)
        RD[f]=(c,r,l,pr)
    ops=[]; 
    body=list(cd.values())[0]
    i=0
    while i<len(body):
        ln,s=body[i]
        if s.startswith('Eigen::') or s.startswith('double factor'): i+=1; continue
        m=re.match(r'sPolynomial(\d+)\(',s)
        if m: ops.append(('S',int(m.group(1)),SP[int(m.group(1))],ln)); i+=1; continue
        m=re.match(r'(groebnerRow\w+)\(groebnerMatrix,(\d+)\);',s)
        if m: c,r,l,pr=RD[m.group(1)]; ops.append(('E',int(m.group(2)),c,r,l,pr,'/',ln)); i+=1; continue
        m=re.match(r'factor = 1.0 / groebnerMatrix\((\d+),(\d+)\);',s)
        if m:
            r,c=map(int,m.groups()); m2=re.match(r'groebnerMatrix.row\((\d+)\) = factor \* groebnerMatrix.row\((\d+)\);',body[i+1][1]); assert m2 and int(m2.group(1))==r==int(m2.group(2))
            ops.append(('N',r,c,ln)); i+=2; continue
        m=re.match(r'factor = (-?)groebnerMatrix\((\d+),(\d+)\);',s); assert m,s
        sg,t,c=m.group(1),int(m.group(2)),int(m.group(3))
        m2=re.match(r'groebnerMatrix.row\((\d+)\) = groebnerMatrix.row\((\d+)\) - factor \* groebnerMatrix.row\((\d+)\);',body[i+1][1])
        if m2:
            a,b,r=map(int,m2.groups()); assert a==b==t and sg==''; ops.append(('W',t,c,r,ln)); i+=2; continue
        m2=re.match(r'groebnerMatrix\((\d+),(\d+)\) = 0.0;',body[i+1][1]); assert m2 and (int(m2.group(1)),int(m2.group(2)))==(t,c)
        i+=2; pr=[]; r=None
        while i<len(body):
            m3=re.match(r'groebnerMatrix\((\d+),(\d+)\) = groebnerMatrix\((\d+),(\d+)\) - factor \* groebnerMatrix\((\d+),(\d+)\);',body[i][1])
            if not m3: break
            a,b,a2,b2,rr,d=map(int,m3.groups()); assert a==a2==t and b==b2; assert r in(None,rr),(body[i]); r=rr; pr.append((b,d)); i+=1
        ops.append(('E',t,c,r,None,pr,sg or '+',ln))
    return nr,nc,ops
if __name__=='__main__':
    for k in N:
        nr,nc,ops=load(k)
        from collections import Counter
        print(k,nr,nc,Counter(o[0] for o in ops), sum(len(o[5]) for o in ops if o[0]=='E'))
