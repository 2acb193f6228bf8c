import re
D='/repo/src/absolute_pose/modules/'
def parse(fn):
    t=open(D+fn).read()
    rows={}
    for r,c,k,j in re.findall(r'\(\*\(M2\[(\d+)\]\)\)\[(\d+)\] = M1\((\d+),(\d+)\);',t):
        rows.setdefault(int(r),[]).append((int(c),int(k),int(j)))
    rest=re.findall(r'\(\*\(M2\[(\d+)\]\)\)\[(\d+)\] = (?!M1\()([^;]*);',t)
    print(fn,len(rows),max(rows),rest[:5], len(re.findall(r'\(\*\(M2\[',t)), sum(map(len,rows.values())))
    return rows
if __name__=='__main__':
  for fn,ncol,piv in (('upnp4.cpp',149,None),('upnp2.cpp',412,None)):
    rows=parse(fn)
    pats={}
    for r,l in rows.items():
        ks={k for _,k,_ in l}; assert len(ks)==1
        js=[j for _,_,j in l]; assert len(set(js))==len(js); cs=[c for c,_,_ in l]; assert len(set(cs))==len(cs)
        pats.setdefault(ks.pop(),set()).add(tuple(js))
    for k in sorted(pats): print(k,len(pats[k]),[ (len(p),p[:40]) for p in pats[k]])
    print(len({c for l in rows.values() for c,_,_ in l}))
