"""Transcribe the two composeA functions of the five-point solvers into Lean tables.

usage: gen_fivept.py  (writes lean/Verif/Model/NisterTable.lean and SteweniusTable.lean)
Each statement `A(r,c) = ...;` becomes a list of terms. The script stops when the text has any other
form than sums of a number times three variables.
"""
import re
from fractions import Fraction

def load(path):
    text = open(path).read()
    i = text.index('::composeA')
    body = text[i:text.index('\n}', i)]
    A, defs = {}, {}
    for st in body.replace('\n', ' ').split(';'):
        st = st.strip()
        m = re.match(r'^A\((\d+),(\d+)\)\s*=\s*(.*)$', st)
        if m:
            A[(int(m[1]), int(m[2]))] = m[3]
        m = re.match(r'^(e\d+)\s*=\s*(.*)$', st)
        if m:
            defs[m[1]] = m[2].replace(' ', '')
    for i in range(4):
        for j in range(9):
            e = f'e{i}{j}'
            assert defs[e] == f'EE({j},{i})'
            assert defs[e + '2'] == f'{e}*{e}' and defs[e + '3'] == f'{e}*{e}*{e}'
    assert len(A) == 200
    lines = [n + 1 for n, l in enumerate(text.split('\n')) if re.match(r'\s*A\(\d+,\d+\)', l)]
    assert lines == list(range(lines[0], lines[0] + 200))
    return A, lines[0]

def terms(e, scale):
    out, pos = [], 0
    for m in re.finditer(r'([+\-]?)([^+\-]+)', e):
        assert m.start() == pos
        pos = m.end()
        c, v = Fraction(-scale if m[1] == '-' else scale), []
        for f in m[2].split('*'):
            q = re.match(r'^e(\d)(\d)([23]?)$', f)
            if q:
                v += [10 * int(q[1]) + int(q[2])] * int(q[3] or 1)
            else:
                c *= Fraction(f)
        assert len(v) == 3 and c.denominator == 1
        out.append((int(c), *v))
    assert pos == len(e)
    return out

def row(nm, r, A, scale, path, line):
    s = (f'/-- Row {r} of `A` ({path} lines {line + 20 * r}-{line + 20 * r + 19}). -/\n'
         f'def {nm}Row{r} : List (List Term) :=\n  [')
    cs = []
    for c in range(20):
        ts = ['(%d,%d,%d,%d)' % t for t in terms(A[(r, c)], scale)]
        o, cur = [], '['
        for i, t in enumerate(ts):
            t += ',' if i < len(ts) - 1 else ']'
            if len(cur) + len(t) > 94:
                o.append(cur)
                cur = '   '
            cur += t
        cs.append('\n'.join(o + [cur]))
    return s + ',\n   '.join(cs) + ']\n'

def write(nm, cap, scale, note):
    path = f'src/relative_pose/modules/fivept_{nm}/modules.cpp'
    A, line = load('/repo/' + path)
    s = f'''import Verif.Model.CubicTerm

/-!
# The coefficients composed by `composeA` of fivept_{nm}

Transcribed from {path} by
tools/gen_fivept.py. A term `(c, a, b, d)` is the product `c * e_a * e_b * e_d`, where the variable
`eij` of the code has the number `10 i + j`.{note}
-/

namespace OpenGV

'''
    s += '\n'.join(row(nm, r, A, scale, path, line) for r in range(10))
    s += f'''
/-- All rows. -/
def {nm}Table : List (List (List Term)) :=
  [{', '.join(f'{nm}Row{r}' for r in range(5))},
   {', '.join(f'{nm}Row{r}' for r in range(5, 10))}]

end OpenGV
'''
    open(f'/verif/lean/Verif/Model/{cap}Table.lean', 'w').write(s)

write('nister', 'Nister', 1, '')
write('stewenius', 'Stewenius', 2, ' The numbers are\nin halves: `c` stands for the factor `c / 2`.')
