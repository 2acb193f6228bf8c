"""Transcribe src/relative_pose/modules/fivept_kneip/init.cpp into Model/FiveKneipInit.lean.

Usage: gen_kneip_init.py <repo/src> <outdir>
"""
import re, sys, os

src, out = sys.argv[1:3]
path = "relative_pose/modules/fivept_kneip/init.cpp"
lines = open(os.path.join(src, path)).read().split("\n")
term = r"([-+]?)c123_1\[(\d)\]\((\d),(\d)\)\*c123_2\[(\d)\]\((\d),(\d)\)"
rows, consts = {}, {}
first = last = cf = cl = None
for i, l in enumerate(lines, 1):
    m = re.fullmatch(r"\s*row\(0,(\d+)\) = (.*);", l)
    if m:
        ts = re.findall(term, m.group(2))
        assert re.sub(term, "", m.group(2)) == "", l
        c = int(m.group(1))
        assert c not in rows
        rows[c] = [("2" if t[0] == "-" else "1") + "".join(t[1:]) for t in ts]
        first = first or i
        last = i
    m = re.fullmatch(r"\s*groebnerMatrix\((\d+),(\d+)\) = (-?1);", l)
    if m:
        consts.setdefault(int(m.group(1)), []).append((int(m.group(2)), int(m.group(3))))
        cf = cf or i
        cl = i
o = ["import Mathlib.Data.Int.Basic", "", "/-!", "# The initial rows of `fivept_kneip`", "",
     "Transcribed by `tools/gen_kneip_init.py` from src/%s." % path, "-/", "",
     "namespace OpenGV.FiveKneip", ""]
n = max(rows) + 1
for k in range(0, n, 20):
    o += ["/-- Columns %d to %d. -/" % (k, min(k + 20, n) - 1), "def initTerms%d : List (List ℕ) := [" % (k // 20)]
    for c in range(k, min(k + 20, n)):
        s = "  [" + ", ".join(rows.get(c, [])) + "]" + ("," if c + 1 < min(k + 20, n) else "]")
        while len(s) > 98:
            i = s.rfind(" ", 0, 98)
            o.append(s[:i])
            s = "    " + s[i + 1:]
        o.append(s)
o += ["", "/-- `initEpncpRowR` (l.%d-%d): for each column the terms that are added. The number `1aijbkl` is" % (first, last),
      "`c123_1[a](i,j)*c123_2[b](k,l)`, and `2aijbkl` is the same with a minus. -/",
      "def initTerms : List (List ℕ) :=",
      "  " + " ++ ".join("initTerms%d" % k for k in range((n + 19) // 20))]
o += ["", "/-- `initMatrix` (l.%d-%d): the entries `(column, value)` of the rows 10 to 29. -/" % (cf, cl),
      "def constRows : List (List (ℕ × ℤ)) := ["]
for r in range(10, 30):
    o.append("  [" + ", ".join("(%d, %d)" % e for e in consts[r]) + "]" + ("," if r < 29 else "]"))
assert sorted(consts) == list(range(10, 30))
o += ["", "end OpenGV.FiveKneip", ""]
open(os.path.join(out, "Model/FiveKneipInit.lean"), "w").write("\n".join(o))
