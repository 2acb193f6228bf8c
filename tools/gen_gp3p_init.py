"""Transcribes src/absolute_pose/modules/gp3p/init.cpp into Lean.

usage: python3 gen_gp3p_init.py <directory of /repo/src> <lean/Verif>

Writes Model/Gp3pInit.lean. Every line of the function must match the expected pattern.
"""
import re, sys

SRC, OUT = sys.argv[1].rstrip('/') + '/', sys.argv[2].rstrip('/') + '/'
rows, seen = [[] for _ in range(9)], set()
lines = [[] for _ in range(9)]
for ln, l in enumerate(open(SRC + 'absolute_pose/modules/gp3p/init.cpp'), 1):
    if ln < 42 or not l.strip() or l.strip() == '}':
        continue
    m = re.fullmatch(r'groebnerMatrix\((\d+),(\d+)\) = ([-+*()fvp\d, ]+);', l.strip())
    assert m, l
    r, c = int(m.group(1)), int(m.group(2))
    assert (r, c) not in seen
    seen.add((r, c))
    e = re.sub(r'([fvp])\((\d),(\d)\)', r'\1 \2 \3', m.group(3))
    e = re.sub(r'(?<=[\d)])([-+*])', r' \1 ', e)
    rows[r].append((c, e))
    lines[r].append(ln)
out = '''import Verif.Model.Groebner
import Verif.Model.Geometry

/-!
# The nine equations of `gp3p`

Transcribed by `tools/gen_gp3p_init.py` from src/absolute_pose/modules/gp3p/init.cpp l.42-186.
-/

namespace OpenGV.Gp3p

/-- The entries of the rows, by column. -/
def initRow (f v p : Mat3) : ℕ → List (ℕ × ℝ)
'''
for r in range(9):
    out += '  -- l.%d-%d\n  | %d => [' % (lines[r][0], lines[r][-1], r)
    out += ',\n      '.join('(%d, %s)' % x for x in rows[r]) + ']\n'
out += '''  | _ => []

/-- `groebnerMatrix` after `init`. -/
def init (f v p : Mat3) : GMat ℝ := fun r c =>
  match (initRow f v p r).find? (·.1 == c) with
  | some e => e.2
  | none => 0

end OpenGV.Gp3p
'''
open(OUT + 'Model/Gp3pInit.lean', 'w').write(out)
