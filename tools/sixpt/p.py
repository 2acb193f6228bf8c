import re
S=open('/repo/src/relative_pose/modules/sixpt/modules2.cpp').read()
L=S.split('\n')
# fillRow2: M1(row,c) = terms
fill2={}
for m in re.finditer(r'M1\(row,(\d+)\) = ([^;]*);',S):
    c=int(m.group(1)); ex=m.group(2).replace(' ','')
    terms=[]
    for t in re.finditer(r'([+-]?)m2\[(\d)\]\[(\d)\]\*m1\[(\d)\]\[(\d)\]\*m0\[(\d)\]\[(\d)\]',ex):
        g=t.groups(); terms.append((-1 if g[0]=='-' else 1,)+tuple(map(int,g[1:])))
    assert ''.join(('-' if a<0 else ('+' if k else ''))+'m2[%d][%d]*m1[%d][%d]*m0[%d][%d]'%r for k,(a,*r) in enumerate([(t[0],)+t[1:] for t in terms]) for r in [tuple(r)])==ex,c
    fill2[c]=terms
assert len(fill2)==84
# fillRow1
fill1={0:[],1:[],2:[]}
for m in re.finditer(r'c(\d)\.push_back\(([^;]*)\);',S):
    k=int(m.group(1)); ex=m.group(2).replace(' ','')
    terms=[]
    for t in re.findall(r'[+-]?[^+-]+',ex):
        s=-1 if t[0]=='-' else 1
        t=t.lstrip('+-')
        fac=t.split('*'); co=s; vs=[]
        for f in fac:
            mm=re.fullmatch(r'l(\d\d)\[(\d)\]',f)
            if mm: vs.append((mm.group(1),int(mm.group(2))))
            else: co*=int(f)
        terms.append((co,tuple(vs)))
    fill1[k].append(terms)
print([len(fill1[k]) for k in fill1],[sum(len(t) for t in fill1[k]) for k in fill1])
# template
table={}
for m in re.finditer(r'M2\((\d+),(\d+)\) = M1\((\d+),(\d+)\);',S):
    r,c,k,j=map(int,m.groups())
    table.setdefault(r,[]).append((c,k,j))
assert sorted(table)==list(range(93))
assert all(len({k for _,k,_ in v})==1 for v in table.values())
if __name__=='__main__':
    print(S.count('M2('), sum(len(v) for v in table.values()))
    print('asc', all([c for c,_,_ in v]==sorted({c for c,_,_ in v}) for v in table.values()))
    pats={}
    for r,v in table.items(): pats.setdefault((v[0][1]),set()).add(tuple(j for _,_,j in v))
    for k in pats: print(k,len(pats[k]),[p[:4] for p in pats[k]], [len(p) for p in pats[k]])
    print(sum(len(t) for t in fill2.values()))
    print(fill1[0][0]); print(fill1[2][0])
