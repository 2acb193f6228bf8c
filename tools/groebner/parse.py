import re,sys
R='/repo/src/'
N={'gpnp1':('absolute_pose/modules/gpnp1/',5,3),'gpnp2':('absolute_pose/modules/gpnp2/',10,6),'gpnp3':('absolute_pose/modules/gpnp3/',15,18),'gpnp4':('absolute_pose/modules/gpnp4/',25,37),'gpnp5':('absolute_pose/modules/gpnp5/',44,80),'gp3p':('absolute_pose/modules/gp3p/',48,85),'kneip':('relative_pose/modules/fivept_kneip/',66,197)}
G=r'groebnerMatrix\((\w+),(\d+)\)'
def funcs(path):
    out={};cur=None;unk=[]
    for ln,l in enumerate(open(path),1):
        m=re.match(r'^opengv::.*::(\w+)\(',l)
        if m: cur=m.group(1); out[cur]=[]; continue
        s=l.strip()
        if cur and s and s not in('{','}') : out[cur].append((ln,s))
    return out
def sp_entry(s):
    m=re.match(G+r' = (.*);$',s)
    if not m: return None
    t,c,e=m.groups()
    terms=[]
    e=e.strip()
    for sg,body in re.findall(r'(^|[-+(])\(?('+G.replace('(\\w+)','\\w+').replace('(\\d+)','\\d+')+r'/\('+G.replace('(\\w+)','\\w+').replace('(\\d+)','\\d+')+r'\))',e):
        pass
    # tokenise
    pat=re.compile(r'groebnerMatrix\((\d+),(\d+)\)/\(groebnerMatrix\((\d+),(\d+)\)\)')
    rest=e;pos=0
    for mm in pat.finditer(e):
        sign='-' if e[:mm.start()].rstrip('(').endswith('-') else '+'
        a=tuple(map(int,mm.groups())); assert a[0]==a[2]
        terms.append((sign,a[0],a[1],a[3]))
    rest=pat.sub('X',e)
    if rest not in('X','(X-X)','-X'): return ('?',rest)
    return (int(t),int(c),terms)
if __name__=='__main__':
    for k in N:
        p,r,c=N[k]
        sp=funcs(R+p+'spolynomials.cpp'); rd=funcs(R+p+'reductors.cpp'); cd=funcs(R+p+'code.cpp')
        odd=set()
        for f in sp:
            for ln,s in sp[f]:
                e=sp_entry(s)
                if e is None or e[0]=='?': odd.add(re.sub(r'\d+','#',s)[:150])
        print(k,len(sp),len(rd),list(cd)[:3],odd)
        odd={}
        for f in rd:
            for ln,s in rd[f]:
                h=re.sub(r'\d+','#',s); odd[h]=odd.get(h,0)+1
        print(odd)
        odd={}
        for f in cd:
            for ln,s in cd[f]:
                h=re.sub(r'\d+','#',s); odd[h]=odd.get(h,0)+1
        print(odd)
