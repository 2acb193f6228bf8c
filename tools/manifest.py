import re,glob,json
props=[json.loads(l) for l in open('/verif/properties.jsonl')]
notes=json.load(open('/verif/tools/notes.json'))
thms={}
for f in sorted(glob.glob('/verif/lean/Verif/Props/*.lean')):
    ns=[]
    for line in open(f):
        m=re.match(r'namespace (\S+)',line)
        if m: ns.append(m.group(1))
        m=re.match(r'end (\S+)',line)
        if m and ns and ns[-1]==m.group(1): ns.pop()
        m=re.match(r'theorem (C\d\d\w*)',line)
        if m:
            n=m.group(1)
            for id in re.match(r'((?:C\d\d_)+)',n+'_').group(1).strip('_').split('_')[:1]:
                thms.setdefault(id,[]).append('.'.join(ns+[n]))
claims=[]
for p in props:
    id=p['id']
    if id in thms:
        n=notes.get(id,{})
        st=n.get('status') or 'proved'
        claims.append({"property":id,"status":st,"theorems":thms[id],"note":n.get('note','')})
    elif id in notes:
        claims.append({"property":id,"status":notes[id]['status'],"theorems":[],"note":notes[id]['note']})
json.dump({"claims":claims},open('/verif/MANIFEST.json','w'),indent=1)
print(len(claims), [ (c['property'],c['status']) for c in claims if c['status']!='proved'])
