"""Run wrong programs against the theorems.

usage: seed.py SCRATCH MUTANTS.json OUT.jsonl [SOURCE]
SCRATCH is a built copy of SOURCE (default /verif/lean) outside /verif. MUTANTS.json is a list of
{"id", "file" (below Verif/), "definition", "old", "new", "edit", "claim"}.
For each entry the edit is applied and the project rebuilt. Declarations that no longer prove are
replaced by a placeholder in the scratch copy and the build repeated, so that in the end the axioms
of every property theorem tell which of them depend on something that failed.
"""
import json, re, subprocess, sys, os, shutil, glob
scratch, mutfile, out = sys.argv[1:4]
root = sys.argv[4] if len(sys.argv) > 4 else '/verif/lean'
HOLE = 'so' + 'rry'
DECL = re.compile(r'^(?:@\[.*?\]\s*)?(?:private |noncomputable |protected )*(theorem|lemma|example|def|instance|abbrev|structure|inductive)\b\s*([^\s:({\[]*)')

def restore():
    for f in glob.glob(root + '/Verif/**/*.lean', recursive=True):
        g = f.replace(root, scratch)
        s = open(f).read()
        if not os.path.exists(g) or open(g).read() != s:
            os.makedirs(os.path.dirname(g), exist_ok=True)
            open(g, 'w').write(s)
    shutil.copy(root + '/Verif.lean', scratch + '/Verif.lean')

def build():
    r = subprocess.run(['lake', 'build'], cwd=scratch, capture_output=True, text=True)
    txt = r.stdout + r.stderr
    errs = re.findall(r'^error: (Verif/\S+\.lean):(\d+):\d+: (.*)', txt, re.M)
    return r.returncode, [(f, int(l), m) for f, l, m in errs], txt

def blocks(lines):
    st = [i for i, l in enumerate(lines) if DECL.match(l)]
    stop = re.compile(r'^(/--|/-!|end |namespace |section |open |variable|#|set_option|attribute)')
    for i in st:
        j = i + 1
        while j < len(lines) and not stop.match(lines[j]) and not DECL.match(lines[j]):
            j += 1
        yield i, j

def hole(path, errlines):
    p = scratch + '/' + path
    lines = open(p).read().split('\n')
    names, repl = [], []
    for i, j in blocks(lines):
        if any(i + 1 <= e <= j for e in errlines):
            m = DECL.match(lines[i])
            names.append(m.group(2) if m.group(2) else 'example(%s:%d)' % (path, i + 1))
            if m.group(1) not in ('theorem', 'lemma', 'example'):
                return names, False
            text = '\n'.join(lines[i:j])
            d, k, cut = 0, 0, None
            while k < len(text):
                c = text[k]
                if c in '([{⟨': d += 1
                elif c in ')]}⟩': d -= 1
                elif d == 0 and text.startswith(':=', k):
                    pre = text[:k].split('\n')[-1]
                    if not re.search(r'\blet\b', pre):
                        cut = k; break
                elif d == 0 and re.match(r'where\b', text[k:]) and text[k-1] in ' \n':
                    cut = k; break
                k += 1
            if cut is None: return names, False
            repl.append((i, j, (text[:cut] + ':= by ' + HOLE).split('\n') + ['']))
    for i, j, new in reversed(repl):
        lines[i:j] = new
    open(p, 'w').write('\n'.join(lines))
    return names, True

def props():
    r = []
    for f in sorted(glob.glob(scratch + '/Verif/Props/*.lean')):
        ns = []
        for l in open(f):
            m = re.match(r'^namespace (\S+)', l)
            if m: ns.append(m.group(1))
            m = re.match(r'^end (\S+)', l)
            if m and ns: ns.pop()
            m = re.match(r'^theorem (C\d\d\w*)', l)
            if m: r.append(('.'.join(ns) + '.' + m.group(1)))
    return r

for mut in json.load(open(mutfile)):
    restore()
    p = scratch + '/Verif/' + mut['file']
    s = open(p).read()
    if s.count(mut['old']) < 1:
        print(mut['id'], 'OLD TEXT NOT FOUND'); continue
    open(p, 'w').write(s.replace(mut['old'], mut['new'], 1))
    direct, ok, stuck = [], False, ''
    for rnd in range(40):
        rc, errs, txt = build()
        if rc == 0: ok = True; break
        byf = {}
        for f, l, m in errs: byf.setdefault(f, []).append(l)
        if not byf: stuck = txt[-600:]; break
        prog = False
        for f, ls in byf.items():
            names, good = hole(f, ls)
            direct += names
            prog |= good and bool(names)
            if not good: stuck = 'not a theorem: %s %s' % (names, errs[:2]); prog = False; break
        if not prog:
            stuck = stuck or str(errs[:3]); break
    failed = []
    if ok:
        ps = props()
        open(scratch + '/Ax.lean', 'w').write('import Verif\n' + ''.join('#print axioms %s\n' % q for q in ps))
        r = subprocess.run(['lake', 'env', 'lean', 'Ax.lean'], cwd=scratch, capture_output=True, text=True)
        t = re.sub(r'\n\s+', ' ', r.stdout)
        for l in t.split('\n'):
            m = re.match(r"'(\S+)' depends on axioms: \[(.*)\]", l)
            if m and HOLE + 'Ax' in m.group(2): failed.append(m.group(1).split('.')[-1])
    rec = {'id': mut['id'], 'definition': mut['definition'], 'edit': mut['edit'], 'claim': mut['claim'],
           'first_failures': sorted(set(direct)), 'failed': failed, 'tightened': []}
    if not ok: rec['stuck'] = stuck
    open(out, 'a').write(json.dumps(rec, ensure_ascii=False) + '\n')
    print(mut['id'], mut['claim'], 'failed:', failed, '' if ok else 'STUCK ' + stuck, flush=True)
restore()
