#!/usr/bin/env python3
"""Translate the tables of sixpt/modules2.cpp to Lean.

usage: gen_sixpt.py <src/relative_pose/modules/sixpt/modules2.cpp> <output .lean>
The entries are taken over one by one, in the order of the source.
"""
import re
import sys

src, out = sys.argv[1], sys.argv[2]
lines = open(src).read().split("\n")


def wrap(s, ind, width=98):
    words, res, cur = s.split(" "), [], " " * ind
    for w in words:
        if len(cur) + len(w) > width and cur.strip():
            res.append(cur.rstrip())
            cur = " " * ind
        cur += w + " "
    res.append(cur.rstrip())
    return "\n".join(res)


o = ["""import Mathlib.Algebra.Ring.Defs
import Mathlib.Data.Fin.VecNotation

/-!
# Tables of the six point solver

Generated by tools/gen_sixpt.py from `src/relative_pose/modules/sixpt/modules2.cpp`; the entries are
those of the source, in its order. The numbers are from a ring `R`; the code has `ℝ`.
-/

namespace OpenGV

set_option linter.unusedVariables false
"""]

# fillRow1
coef = {0: [], 1: [], 2: []}
where = {0: [], 1: [], 2: []}
for no, line in enumerate(lines, 1):
    m = re.match(r"\s*c(\d)\.push_back\((.*)\);\s*$", line)
    if not m:
        continue
    e = re.sub(r"(l\d\d)\[(\d)\]", r"\1 \2", m.group(2))
    e = e.replace("*", " * ")
    e = e[0] + e[1:].replace("+", " + ").replace("-", " - ")
    coef[int(m.group(1))].append(e)
    where[int(m.group(1))].append(no)
for k in range(3):
    assert len(coef[k]) == 10
    o.append(f"/-- The numbers pushed to `c{k}` (src/relative_pose/modules/sixpt/modules2.cpp lines\n"
             f"{where[k][0]}-{where[k][-1]}). -/")
    o.append(f"def sixC{k} {{R : Type}} [CommRing R] (l01 l02 l11 l12 : Fin 6 → R) : Fin 10 → R :=")
    o.append(wrap("![" + ", ".join(coef[k]) + "]", 2) + "\n")

# fillRow2
fill, first, last = [], None, None
for no, line in enumerate(lines, 1):
    m = re.match(r"\s*M1\(row,(\d+)\) = ([^;]*);\s*$", line)
    if not m:
        continue
    assert int(m.group(1)) == len(fill)
    first, last = first or no, no
    e = m.group(2).replace(" ", "")
    terms = re.findall(r"([+-]?)m2\[(\d)\]\[(\d)\]\*m1\[(\d)\]\[(\d)\]\*m0\[(\d)\]\[(\d)\]", e)
    back = "".join("%sm2[%s][%s]*m1[%s][%s]*m0[%s][%s]" % t for t in terms)
    assert back == e
    fill.append(["0x" + ("1" if t[0] == "-" else "") + "".join(t[1:]) for t in terms])
assert len(fill) == 84
CH = 12
names = []
for c in range(0, 84, CH):
    names.append(f"sixFill{c // CH}")
    o.append(f"/-- The terms of columns {c} to {c + CH - 1} "
             f"(src/relative_pose/modules/sixpt/modules2.cpp lines\n{first + c}-{first + c + CH - 1}). -/")
    o.append(f"def {names[-1]} : List (List ℕ) :=")
    o.append(wrap("[" + ", ".join("[" + ", ".join(f) + "]" for f in fill[c:c + CH]) + "]", 2) + "\n")
o.append(f"""/-- The right hand sides of the assignments to `M1(row,c)` in `fillRow2`, for each column `c` the list
of its terms: `0xabcdef` is `+m2[a][b]*m1[c][d]*m0[e][f]`, `0x1abcdef` is `-m2[a][b]*m1[c][d]*m0[e][f]`
(src/relative_pose/modules/sixpt/modules2.cpp lines {first}-{last}). -/
def sixFill : List (List ℕ) :=
{wrap("[" + ", ".join(names) + "].flatten", 2)}
""")

# template
rows, no0 = {}, {}
first = last = None
for no, line in enumerate(lines, 1):
    for r, c, k, j in re.findall(r"M2\((\d+),(\d+)\) = M1\((\d+),(\d+)\);", line):
        rows.setdefault(int(r), []).append((int(c), int(k), int(j)))
        no0[int(r)] = no
        first, last = first or no, no
assert sorted(rows) == list(range(93))
names = []
CH = 16
for r0 in range(0, 93, CH):
    names.append(f"sixTable{r0 // CH}")
    rs = list(range(r0, min(r0 + CH, 93)))
    o.append(f"/-- Rows {rs[0]} to {rs[-1]} (src/relative_pose/modules/sixpt/modules2.cpp lines "
             f"{no0[rs[0]]}-{no0[rs[-1]]}). -/")
    o.append(f"def {names[-1]} : List (ℕ × List (ℕ × ℕ)) :=")
    ent = []
    for r in rs:
        ks = {k for _, k, _ in rows[r]}
        assert len(ks) == 1
        ent.append(f"({ks.pop()}, [" + ", ".join(f"({c},{j})" for c, _, j in rows[r]) + "])")
    o.append(wrap("[" + ", ".join(ent) + "]", 2) + "\n")
o.append(f"""/-- The assignments `M2(r,c) = M1(k,j)`: row `r` of the table has `k` and the pairs `(c,j)`
(src/relative_pose/modules/sixpt/modules2.cpp lines {first}-{last}). -/
def sixTable : List (ℕ × List (ℕ × ℕ)) :=
{wrap("[" + ", ".join(names) + "].flatten", 2)}

end OpenGV""")
open(out, "w").write("\n".join(o) + "\n")
