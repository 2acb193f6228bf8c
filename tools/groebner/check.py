import re,sys
from ops import *
def addv(a,b): return tuple(x+y for x,y in zip(a,b))
def subv(a,b): return tuple(x-y for x,y in zip(a,b))
def init(k):
    p,nr,nc=N[k]
    rows={}
    txt=open(R+p+'init.cpp').read()
    mono={}
    consts={}
    if k.startswith('gpnp'):
        vars_='nmkl'; 
        ent=re.findall(r'groebnerMatrix\((\d+),(\d+)\) = (.*);',txt)
        allv=[]
        sig=re.search(r'::init\((.*?)\)\n\{',txt,re.S).group(1)
        names=re.findall(r'Matrix<double,12,1> & (\w+)',sig)
        names=names[1:]
        nv=len(names)
        for r,c,e in ent:
            r=int(r);c=int(c); rows.setdefault(r,set()).add(c)
            e2=re.sub(r'c\d\dw','0',e)
            vs=set(re.findall(r'(?<![\w])([a-z])\(',e2))
            vs.discard('a') if len(vs)>1 else None
            # degree
            full=set(re.findall(r'(?<![\w])([a-z])\(',e2))
            m=[0]*nv
            if full=={'a'}: pass
            elif 'a' in full:
                (x,)=full-{'a'}; m[names.index(x)]=1
            elif len(full)==1:
                (x,)=full; m[names.index(x)]=2
            else:
                for x in full: m[names.index(x)]=1
                assert len(full)==2
            m=tuple(m)
            assert mono.get(c,m)==m,(k,c,m,mono[c])
            mono[c]=m
        return rows,mono,consts,names
    if k=='gp3p':
        for r,c in re.findall(r'groebnerMatrix\((\d+),(\d+)\) =',txt): rows.setdefault(int(r),set()).add(int(c))
        names=['x','y','z','n0','n1','n2']
        E=lambda s: tuple(s.count(ch) for ch in 'xyzabc')
        base={84:'',83:'x',82:'y',81:'z',80:'a',79:'b',78:'c',77:'xx',76:'xy',71:'yy',75:'xz',70:'yz',66:'zz'}
        base.update({53:'axx',52:'bxx',51:'cxx',33:'ayy',32:'byy',31:'cyy',21:'azz',20:'bzz',19:'czz'})
        return rows,{c:E(s) for c,s in base.items()},consts,names
    if k=='kneip':
        rr=set(map(int,re.findall(r'row\(0,(\d+)\) =',txt)))
        for i in range(10): rows[i]=set(rr)
        for r,c,v in re.findall(r'groebnerMatrix\((\d+),(\d+)\) = (-?\d+);',txt):
            rows.setdefault(int(r),set()).add(int(c)); consts[(int(r),int(c))]=int(v)
        mono={}
        names=['r%d%d'%(i,j) for i in range(3) for j in range(3)]
        mono[196]=(0,)*9
        for i in range(9):
            e=[0]*9; e[i]=1; mono[195-i]=tuple(e)
        # quadratic: 186.. down: 
        return rows,mono,consts,names
def infer(k,ops,mono):
    mono=dict(mono)
    for it in range(60):
        ch=False
        for o in ops:
            if o[0]=='S':
                # per (r,l): shift
                groups={}
                for c,terms in o[2]:
                    for sg,r,c2,l in terms: groups.setdefault((r,l,sg),[]).append((c,c2))
                gs=list(groups.values())
            elif o[0]=='E':
                gs=[o[5]+([(o[2],o[4])] if o[4] is not None else [])]
            else: continue
            for g in gs:
                sh=None
                for a,b in g:
                    if a in mono and b in mono:
                        s=subv(mono[a],mono[b])
                        if sh is not None and sh!=s: return mono,('conflict',o[0],o[1],o[-1],a,b)
                        sh=s
                if sh is None: continue
                for a,b in g:
                    if a in mono and b not in mono: mono[b]=subv(mono[a],sh); ch=True
                    if b in mono and a not in mono: mono[a]=addv(mono[b],sh); ch=True
        if not ch: break
    return mono,None
if __name__=='__main__':
    for k in N:
        nr,nc,ops=load(k)
        rows,mono,consts,names=init(k)
        if k=='kneip':
            # quadratic guess lex descending order: columns 142..186 are the 45 quadratic monomials?
            q=[]
            import itertools
            for i in range(9):
                for j in range(i+1): q.append((j,i))
            # will infer using order
        m,err=infer(k,ops,mono)
        print(k,len(m),nc,err)
        if err is None:
            # verify negative
            print([c for c in range(nc) if c not in m], [c for c in m if min(m[c])<0])
            mono=m
            supp={r:set(s) for r,s in rows.items()}
            one={}
            bad=0
            for o in ops:
                if o[0]=='S':
                    t=o[1]; 
                    if supp.get(t): print('nonempty',t); bad+=1
                    groups={}
                    for c,terms in o[2]:
                        for sg,r,c2,l in terms: groups.setdefault((sg,r,l),{})[c2]=c
                    assert len(groups)==2,(groups.keys())
                    lm=[]
                    for (sg,r,l),d in groups.items():
                        miss=supp[r]-set(d)-{l}
                        extra=set(d)-supp[r]
                        if miss or l not in supp[r] or l in d: print('S',t,r,l,'miss',miss, l in supp[r]); bad+=1
                        c2,c=next(iter(d.items())); sh=subv(mono[c],mono[c2])
                        if min(sh)<0: print('negshift'); bad+=1
                        if any(subv(mono[c],mono[c2])!=sh for c2,c in d.items()): print('inconsistent S',t); bad+=1
                        lm.append(addv(mono[l],sh))
                    if lm[0]!=lm[1]: print('lead mismatch',t,lm); bad+=1
                    supp[t]=set(c for c,_ in o[2])
                elif o[0]=='E':
                    _,t,c,r,l,pr,sg,ln=o
                    if r is None: print('empty',o); bad+=1; continue
                    if l is None:
                        cand=supp[r]-set(b for a,b in pr)
                        if len(cand)!=1: print('const lead',o,cand); bad+=1; continue
                        (l,)=cand
                        want={'+':1,'-':-1}[sg]
                        if consts.get((r,l))!=want: print('const val',o,l,consts.get((r,l))); bad+=1
                    miss=supp[r]-set(b for a,b in pr)-{l}
                    if miss or l not in supp[r]: print('E',t,r,l,ln,'miss',miss,l in supp[r]); bad+=1
                    if len(set(b for a,b in pr))!=len(pr): print('dup',ln); bad+=1
                    if r==t: print('alias',o); bad+=1
                    sh=subv(mono[c],mono[l])
                    if min(sh)<0: print('neg',o); bad+=1
                    if any(subv(mono[a],mono[b])!=sh for a,b in pr): print('inconsistent E',t,c,r,ln,[ (a,b) for a,b in pr if subv(mono[a],mono[b])!=sh]); bad+=1
                    supp[t]=(supp[t]-{c})|set(a for a,b in pr)
                    if c in set(a for a,b in pr): print('re-add'); bad+=1
                elif o[0]=='N':
                    one[o[1]]=o[2]
                    if o[2] not in supp[o[1]]: print('N zero',o)
                elif o[0]=='W':
                    _,t,c,r,ln=o
                    if one.get(r)!=c: print('W lead',o); bad+=1
                    supp[t]=(supp[t]|supp[r])-{c}
                if bad>20: print('too many'); break
            print('bad',bad, {r:min(supp[r]) for r in list(supp)[-12:]})
