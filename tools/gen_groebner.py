"""Transcribes the generated elimination programs of opengv into Lean tables.

usage: python3 gen_groebner.py <directory of /repo/src> <lean/Verif>

Writes Model/<Name>Table.lean: one definition per function of spolynomials.cpp and reductors.cpp
and the statement list of code.cpp, with line numbers. Every line of the source must match one of
the expected patterns, otherwise the script stops.
"""
import re, sys

SRC, OUT = sys.argv[1].rstrip('/') + '/', sys.argv[2].rstrip('/') + '/'
PROGS = {
    'Gpnp1': ('absolute_pose/modules/gpnp1/', 5, 3),
    'Gpnp2': ('absolute_pose/modules/gpnp2/', 10, 6),
    'Gpnp3': ('absolute_pose/modules/gpnp3/', 15, 18),
    'Gpnp4': ('absolute_pose/modules/gpnp4/', 25, 37),
    'Gpnp5': ('absolute_pose/modules/gpnp5/', 44, 80),
    'Gp3p': ('absolute_pose/modules/gp3p/', 48, 85),
    'FiveKneip': ('relative_pose/modules/fivept_kneip/', 66, 197),
}
ENTRY = r'groebnerMatrix\((\d+),(\d+)\)'


def functions(path):
    """Bodies of the functions of a file, with line numbers."""
    out, cur = {}, None
    for ln, l in enumerate(open(path), 1):
        m = re.match(r'^opengv::.*::(\w+)\(', l)
        if m:
            cur = m.group(1)
            out[cur] = []
            continue
        s = l.strip()
        if cur and s and s not in ('{', '}', 'void') and not s.startswith('Eigen::'):
            out[cur].append((ln, s))
    return out


def spoly(name, body):
    t = int(re.fullmatch(r'sPolynomial(\d+)', name).group(1))
    q = r'groebnerMatrix\((\d+),(\d+)\)/\(groebnerMatrix\((\d+),(\d+)\)\)'
    first, second, es = None, None, []
    for ln, s in body:
        m = re.fullmatch(ENTRY + r' = (.*);', s)
        assert m and int(m.group(1)) == t, (name, s)
        c, e = int(m.group(2)), m.group(3)
        m2 = re.fullmatch(r'\(' + q + '-' + q + r'\)', e)
        a = b = None
        if m2:
            g = list(map(int, m2.groups()))
            a, b = g[:4], g[4:]
        elif re.fullmatch(q, e):
            a = list(map(int, re.fullmatch(q, e).groups()))
        else:
            m2 = re.fullmatch('-' + q, e)
            assert m2, (name, s)
            b = list(map(int, m2.groups()))
        for x in (a, b):
            assert x is None or x[0] == x[2], (name, s)
        if a:
            assert first in (None, (a[0], a[3]))
            first = (a[0], a[3])
        if b:
            assert second in (None, (b[0], b[3]))
            second = (b[0], b[3])
        es.append((c, a[1] if a else 999, b[1] if b else 999))
    return t, first, second, es


def reductor(body):
    c = r = l = z = None
    ps = []
    for ln, s in body:
        m = re.fullmatch(r'double factor = groebnerMatrix\(targetRow,(\d+)\) / ' + ENTRY + ';', s)
        if m:
            c, r, l = map(int, m.groups())
            continue
        m = re.fullmatch(r'groebnerMatrix\(targetRow,(\d+)\) = 0.0;', s)
        if m:
            z = int(m.group(1))
            continue
        m = re.fullmatch(r'groebnerMatrix\(targetRow,(\d+)\) -= factor \* ' + ENTRY + ';', s)
        assert m, s
        a, b, d = map(int, m.groups())
        assert b == r
        ps.append((a, d))
    assert z == c
    return c, r, l, ps


def wrap(items, indent):
    out, line = [], indent
    for i, x in enumerate(items):
        x = x + (',' if i + 1 < len(items) else ']')
        if len(line) + len(x) + 1 > 100:
            out.append(line.rstrip())
            line = indent
        line += x + ' '
    out.append(line.rstrip())
    return '\n'.join(out)


def pairs(ps):
    return [str(a * 1000 + b) for a, b in ps] or None


def leads(name):
    """The columns with coefficient 1 or -1 in the constant rows of fivept_kneip, from init.cpp:
    the column of a row that is not used by the eliminations with that row."""
    p, nr, nc = PROGS[name]
    rows = {}
    for r, c, v in re.findall(r'groebnerMatrix\((\d+),(\d+)\) = (-?\d+);', open(SRC + p + 'init.cpp').read()):
        rows.setdefault(int(r), {})[int(c)] = int(v)
    return rows


def main(name):
    p, nr, nc = PROGS[name]
    base = 'src/' + p
    L = ['import Verif.Model.Groebner', '',
         '/-!', f'# The elimination program of `{p.split("/")[-2]}`', '',
         f'Transcribed by `tools/gen_groebner.py` from {base} (spolynomials.cpp,',
         'reductors.cpp and code.cpp). Line numbers are given for each definition.', '-/', '',
         f'namespace OpenGV.{name}', '', f'/-! ### {base}spolynomials.cpp -/', '']
    sps = functions(SRC + p + 'spolynomials.cpp')
    for f, body in sps.items():
        t, (r1, l1), (r2, l2), es = spoly(f, body)
        L.append(f'/-- l.{body[0][0]}-{body[-1][0]} -/')
        L.append(f'def {f} : GStmt := .spoly {t} {r1} {l1} {r2} {l2} [')
        L.append(wrap([str(c * 1000000 + a * 1000 + b) for c, a, b in es], '  '))
    L += ['', f'/-! ### {base}reductors.cpp -/', '']
    rds = functions(SRC + p + 'reductors.cpp')
    for f, body in rds.items():
        c, r, l, ps = reductor(body)
        L.append(f'/-- l.{body[0][0]}-{body[-1][0]} -/')
        L.append(f'def {f[:-2]} (targetRow : ℕ) : GStmt := .elim targetRow {c} {r} {l} [')
        L.append(wrap(pairs(ps), '  ') if ps else '  ]')
    L += ['', f'/-! ### {base}code.cpp -/', '']
    (cf, body), = functions(SRC + p + 'code.cpp').items()
    stm, i = [], 0
    const = leads(name) if name == 'FiveKneip' else {}
    while i < len(body):
        ln, s = body[i]
        if s in ('double factor;', 'double factor = 0.0;'):
            i += 1
            continue
        m = re.fullmatch(r'(sPolynomial\d+)\(groebnerMatrix\);', s)
        if m:
            stm.append((ln, m.group(1)))
            i += 1
            continue
        m = re.fullmatch(r'(groebnerRow\w+)_f\(groebnerMatrix,(\d+)\);', s)
        if m:
            stm.append((ln, f'{m.group(1)} {m.group(2)}'))
            i += 1
            continue
        m = re.fullmatch(r'(?:double )?factor = 1.0 / ' + ENTRY + ';', s)
        if m:
            r, c = m.groups()
            assert body[i + 1][1] == f'groebnerMatrix.row({r}) = factor * groebnerMatrix.row({r});'
            stm.append((ln, f'.norm {r} {c}'))
            i += 2
            continue
        m = re.fullmatch(r'(?:double )?factor = (-?)' + ENTRY + ';', s)
        assert m, s
        sg, t, c = m.groups()
        m2 = re.fullmatch(r'groebnerMatrix.row\((\d+)\) = groebnerMatrix.row\((\d+)\) - factor \* '
                          r'groebnerMatrix.row\((\d+)\);', body[i + 1][1])
        if m2:
            a, b, r = m2.groups()
            assert a == b == t and sg == ''
            stm.append((ln, f'.rowSub {t} {c} {r}'))
            i += 2
            continue
        assert body[i + 1][1] == f'groebnerMatrix({t},{c}) = 0.0;', body[i + 1]
        i += 2
        ps, r = [], None
        while i < len(body):
            m3 = re.fullmatch(ENTRY + ' = ' + ENTRY + r' - factor \* ' + ENTRY + ';', body[i][1])
            if not m3:
                break
            a, b, a2, b2, r2, d = map(int, m3.groups())
            assert a == a2 == int(t) and b == b2 and r in (None, r2)
            r = r2
            ps.append((b, d))
            i += 1
        (l,) = set(const[r]) - {d for _, d in ps}
        stm.append((ln, f'.elimC {"true" if sg else "false"} {t} {c} {r} {l} [' +
                    ', '.join(pairs(ps)) + ']'))
    # blocks: one per sPolynomial, at most 60 statements
    blocks, cur = [], []
    for ln, s in stm:
        if cur and (s.startswith('sPolynomial') or len(cur) >= 60):
            blocks.append(cur)
            cur = []
        cur.append((ln, s))
    blocks.append(cur)
    for j, b in enumerate(blocks):
        L.append(f'/-- l.{b[0][0]}-{b[-1][0]} -/')
        L.append(f'def code{j} : List GStmt := [')
        L.append(wrap([s for _, s in b], '  '))
    L.append('')
    L.append(f'/-- `compute`: the statements in order ({base}code.cpp l.{stm[0][0]}-{stm[-1][0]}). -/')
    L.append('def compute : List GStmt :=')
    parts = [f'code{j}' for j in range(len(blocks))]
    line, out = '  [', []
    for j, x in enumerate(parts):
        x = x + (', ' if j + 1 < len(parts) else '].flatten')
        if len(line) + len(x.rstrip()) > 100:
            out.append(line.rstrip())
            line = '    '
        line += x
    out.append(line.rstrip())
    L += out
    L += ['', f'end OpenGV.{name}', '']
    open(OUT + f'Model/{name}Table.lean', 'w').write('\n'.join(L))


for n in sys.argv[3:] or PROGS:
    main(n)


def init_tables():
    """Model/GpnpInit.lean from the init.cpp files of gpnp1 to gpnp5."""
    L = ['import Verif.Model.Groebner', 'import Verif.Model.Geometry', '', '/-!',
         '# The initial matrices of `gpnp1` to `gpnp5`', '',
         'Transcribed by `tools/gen_groebner.py` from src/absolute_pose/modules/gpnp1/init.cpp to',
         'src/absolute_pose/modules/gpnp5/init.cpp. An entry of the matrix is a list of terms. A term is',
         'packed in decimal, with sign: `c * 1000000 + u * 1000 + v` is the coefficient `c` times the',
         'variables `u` and `v`. The component `i` of the arguments `a`, `n`, `m`, ... has the number `i`,',
         '`100 + i`, `200 + i`, ... in the order of the argument list. The square distance `cijw` is',
         '`900 + 10 * i + j`, and `999` stands for a missing factor. For example `-2100103` is',
         '`-2*n(0,0)*n(3,0)`. `temp.norm()*temp.norm()` is written as the scalar product of `temp` with',
         'itself. The other entries of the matrix are zero (src/absolute_pose/modules/main.cpp l.472-473',
         'and following).', '-/', '',
         'namespace OpenGV', '', 'open Matrix', '',
         '/-- The variables of a term. -/',
         'def gVars (vecs : List (Fin 12 → ℝ)) (c : Fin 4 → Vec3) (u : ℕ) : ℝ :=',
         '  if u = 999 then 1',
         '  else if 900 ≤ u then',
         '    (c (Fin.ofNat 4 (u / 10 % 10)) - c (Fin.ofNat 4 (u % 10))) ⬝ᵥ',
         '      (c (Fin.ofNat 4 (u / 10 % 10)) - c (Fin.ofNat 4 (u % 10)))',
         '  else vecs.getD (u / 100) 0 (Fin.ofNat 12 (u % 100))', '',
         '/-- The value of a term. -/',
         'def gTerm (X : ℕ → ℝ) (t : ℤ) : ℝ :=',
         '  (t.sign * (t.natAbs / 1000000 : ℕ) : ℤ) * (X (t.natAbs / 1000 % 1000) * X (t.natAbs % 1000))', '',
         '/-- A matrix whose first rows have the given entries from column `s` on. -/',
         'def gInit (s : ℕ) (rows : List (List (List ℤ))) (X : ℕ → ℝ) : GMat ℝ :=',
         '  fun r c => if c < s then 0 else (((rows.getD r []).getD (c - s) []).map (gTerm X)).sum', '']
    for k in range(1, 6):
        path = SRC + f'absolute_pose/modules/gpnp{k}/init.cpp'
        txt = open(path).read()
        lines = txt.split('\n')
        sig = re.search(r'::init\((.*?)\)\n\{', txt, re.S).group(1)
        names = re.findall(r'Matrix<double,12,1> & (\w+)', sig)
        assert names[0] == 'a' and len(names) == k + 1
        assert re.findall(r'Vector3d & (\w+)', sig) == ['c0', 'c1', 'c2', 'c3']
        dist = re.findall(r'temp = (c\d)-(c\d);\n  double (c\d\dw) = temp.norm\(\)\*temp.norm\(\);', txt)
        known = [w for x, y, w in dist]
        for x, y, w in dist:
            assert w == f'c{x[1]}{y[1]}w'
        rows, first, last = {}, None, None
        for i, l in enumerate(lines, 1):
            m = re.fullmatch(r'  ' + ENTRY + r' = (.*);', l)
            if not m:
                assert 'groebnerMatrix(' not in l, l
                continue
            first, last = first or i, i
            r, c, e = int(m.group(1)), int(m.group(2)), m.group(3)
            # only sums and differences: brackets open at the start of a left operand
            assert not re.search(r'[-+*]\((?!.*,)', e)
            e = re.sub(r'pow\((\w)\((\d+),0\),2\)', r'\1<\2>*\1<\2>', e)
            e = re.sub(r'\b([a-z])\((\d+),0\)', r'\1<\2>', e)
            assert re.fullmatch(r'\(*[^()]*[^(]*', e), e
            e = e.replace('(', '').replace(')', '')
            ts, pos = [], 0
            tok = re.compile(r'([-+]?)(?:(\d+)\*)?(?:(\w)<(\d+)>\*(\w)<(\d+)>|(c\d\dw))')
            while pos < len(e):
                m = tok.match(e, pos)
                assert m, e[pos:]
                sg, co, v1, i1, v2, i2, w = m.groups()
                co = int(co or 1)
                if w:
                    assert w in known
                    code = co * 1000000 + (900 + int(w[1:3])) * 1000 + 999
                else:
                    code = co * 1000000 + (100 * names.index(v1) + int(i1)) * 1000 + \
                        100 * names.index(v2) + int(i2)
                ts.append(('-' if sg == '-' else '') + str(code))
                pos = m.end()
            rows.setdefault(r, []).append((c, ts))
        s = rows[0][0][0]
        n = PROGS[f'Gpnp{k}'][2]
        for r in rows:
            assert [c for c, _ in rows[r]] == list(range(s, n))
        start = next(i for i, l in enumerate(lines, 1) if '::init(' in l)
        L.append(f'/-- The entries from column {s} on (src/absolute_pose/modules/gpnp{k}/init.cpp '
                 f'l.{first}-{last}). -/')
        L.append(f'def Gpnp{k}.initTerms : List (List (List ℤ)) := [')
        for r in sorted(rows):
            L.append('  [')
            for j, (c, ts) in enumerate(rows[r]):
                x = wrap(ts, '      ')
                L.append('    [' + x.lstrip() + (',' if j + 1 < len(rows[r]) else
                                                 ']' + (',' if r + 1 < len(rows) else ']')))
        L.append('')
        L.append(f'/-- src/absolute_pose/modules/gpnp{k}/init.cpp l.{start}-{last + 1} -/')
        L.append(f'def Gpnp{k}.init ({" ".join(names)} : Fin 12 → ℝ) (c0 c1 c2 c3 : Vec3) : GMat ℝ :=')
        L.append(f'  gInit {s} Gpnp{k}.initTerms (gVars [{", ".join(names)}] ![c0, c1, c2, c3])')
        L.append('')
    L += ['end OpenGV', '']
    open(OUT + 'Model/GpnpInit.lean', 'w').write('\n'.join(L))


init_tables()
