import io,contextlib,sys
with contextlib.redirect_stdout(io.StringIO()):
    from mono import *
    D2={w:get(w) for w in 'sn'}
def code(m): return sum(e<<(4*i) for i,e in enumerate(m))
def pack(l): return sum(c<<(16*i) for i,c in enumerate(l))
def wraplist(l):
    out=[];cur='  '
    for x in l:
        if len(cur)+len(x)+2>98: out.append(cur.rstrip());cur='  '
        cur+=x+', '
    out.append(cur.rstrip().rstrip(','))
    return '\n'.join(out)
o=["""import Verif.Proof.Template

/-!
# The monomials of the tables of UPnP

The codes of the monomials that belong to the columns of `M1` and `M2`, and the monomials by which the
equations are multiplied in the rows of `M2`.
-/

namespace OpenGV
"""]
for w,name,what in (('s','Sym','upnp4.cpp'),('n','Gen','upnp2.cpp')):
    rows,m1,col,sh,nc,nf,fin=D2[w]
    o.append(f"/-- The monomials of the columns of `M1` in {what}. -/\ndef upnpEqs{name} : ℕ :=\n  {hex(pack([code(m) for m in m1]))}\n")
    o.append(f"/-- The monomials of the columns of `M2` in {what}. -/\ndef upnpCols{name} : ℕ :=\n  {hex(pack([code(col[c]) for c in range(nc)]))}\n")
    o.append(f"/-- The multipliers of the rows of `M2` in {what}. -/\ndef upnpShifts{name} : List ℕ := [\n{wraplist([str(code(sh[r])) for r in range(len(rows))])}]\n")
    pats=[]
    for r in range(len(rows)):
        p=(rows[r][0][1],tuple(j for _,_,j in rows[r]))
        if p not in pats: pats.append(p)
    pats.sort()
    o.append(f"/-- The columns of `M1` that are used in {what}, for each row. -/\ndef upnpPats{name} : List (ℕ × List ℕ) := [\n"+',\n'.join(f"  ({k}, {list(p)})" for k,p in pats)+"]\n")
    o.append(f"theorem upnpTable{name}_ok : tableOk upnpCols{name} upnpEqs{name} {nc} upnpPats{name} upnpShifts{name}\n    upnpTable{name} = true := by decide +kernel\n")
    o.append(f"theorem upnpTable{name}_length : upnpTable{name}.length = {len(rows)} := by decide +kernel\n")
o.append("end OpenGV")
open('/verif/lean/Verif/Proof/UpnpCodes.lean','w').write('\n'.join(o)+'\n')
