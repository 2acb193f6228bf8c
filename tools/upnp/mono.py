from parse import *
def add(a,b): return tuple(x+y for x,y in zip(a,b))
def sub(a,b): return tuple(x-y for x,y in zip(a,b))
def e(**k): return tuple(k.get('x%d'%i,0) for i in (1,2,3,4))
cub=[]
# order from code: by x4 power? list
names='111 112 122 222 113 123 223 133 233 333 114 124 224 134 234 334 144 244 344 444'.split()
cub=[tuple(n.count(str(i)) for i in (1,2,3,4)) for n in names]
lin=[tuple(1 if i==j else 0 for i in range(4)) for j in range(4)]
sq=[tuple(2 if i==j else 0 for i in range(4)) for j in range(4)]
m1s=cub+lin
m1n=cub+sq+lin+[(0,0,0,0)]
def mn(s): return tuple(s.count(str(i)) for i in (1,2,3,4))
fin_s=[mn(x) for x in '144 244 344 444 1 2 3 4'.split()]
fin_n=[mn(x) for x in ['4444','144','244','344','444','23','33','14','24','34','44','1','2','3','4','']]
def infer(rows,m1,known):
    col=dict(known); sh={}
    ch=True
    while ch:
        ch=False
        for r,l in rows.items():
            if r not in sh:
                for c,k,j in l:
                    if c in col: sh[r]=sub(col[c],m1[j]); ch=True; break
            if r in sh:
                for c,k,j in l:
                    m=add(sh[r],m1[j])
                    if c in col: assert col[c]==m,(r,c,col[c],m)
                    else: col[c]=m; ch=True
    return col,sh
def get(which):
    if which=='s':
        rows=parse('upnp4.cpp'); return rows,m1s,*infer(rows,m1s,{141+i:m for i,m in enumerate(fin_s)}),149,141,fin_s
    rows=parse('upnp2.cpp'); return rows,m1n,*infer(rows,m1n,{396+i:m for i,m in enumerate(fin_n)}),412,396,fin_n
if __name__=='__main__':
    for w in 'sn':
        rows,m1,col,sh,nc,nf,fin=get(w)
        print(w,len(col),len(sh),nc,len(set(col.values())), min(min(x) for x in sh.values()),max(sum(x) for x in sh.values()), max(map(sum,col.values())))
        print([ (c,col[c]) for c in range(nf-22,nc)])
        if w=='n': print([(c,col[c]) for c in (340,372,373,374,389,390,395)])
        if w=='s': print([(c,col[c]) for c in (121,122,123,124)])
