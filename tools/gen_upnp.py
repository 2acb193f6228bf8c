#!/usr/bin/env python3
"""Translate the tables of upnp4.cpp and upnp2.cpp to Lean.

usage: gen_upnp.py <src/absolute_pose/modules> <output .lean>
The entries are taken over one by one, in the order of the source.
"""
import re
import sys

src, out = sys.argv[1], sys.argv[2]


def matrix(fn, rows, cols):
    t = open(f"{src}/{fn}").read()
    m = [["0"] * cols for _ in range(rows)]
    lines = {}
    for no, line in enumerate(t.split("\n"), 1):
        for r, c, e in re.findall(r"\bM1\((\d+),(\d+)\) = ([^;]*);", line):
            e = re.sub(r"M\((\d+),(\d+)\)", r"M \1 \2", e)
            e = re.sub(r"C\(0,(\d+)\)", r"C \1", e)
            e = e.replace("*", " * ").replace("+", " + ").strip()
            m[int(r)][int(c)] = e
            lines[int(r)] = no
    return m, lines


def table(fn):
    rows = {}
    first = last = None
    for no, line in enumerate(open(f"{src}/{fn}"), 1):
        for r, c, k, j in re.findall(r"\(\*\(M2\[(\d+)\]\)\)\[(\d+)\] = M1\((\d+),(\d+)\);", line):
            rows.setdefault(int(r), []).append((int(c), int(k), int(j)))
            first = first or no
            last = no
    assert sorted(rows) == list(range(len(rows)))
    res = []
    for r in range(len(rows)):
        ks = {k for _, k, _ in rows[r]}
        assert len(ks) == 1
        res.append((ks.pop(), [(c, j) for c, _, j in rows[r]]))
    return res, first, last


def wrap(s, ind, width=98):
    words, lines, cur = s.replace(", ", ",\0").split("\0"), [], " " * ind
    for w in words:
        if len(cur) + len(w) + 1 > width and cur.strip():
            lines.append(cur.rstrip())
            cur = " " * ind
        cur += w + " "
    lines.append(cur.rstrip())
    return "\n".join(lines)


o = []
o.append("""import Mathlib.LinearAlgebra.Matrix.Notation
import Mathlib.Data.Real.Basic

/-!
# Tables of UPnP

Generated by tools/gen_upnp.py from `src/absolute_pose/modules/upnp4.cpp` and `upnp2.cpp`; the entries
are those of the source, in its order. The numbers are from a ring `R`; the code has `ℝ`.
-/

namespace OpenGV
""")
for name, fn, rows, cols, first in (("Sym", "upnp4.cpp", 8, 24, 43), ("Gen", "upnp2.cpp", 5, 29, 43)):
    m, lines = matrix(fn, rows, cols)
    for r in range(rows):
        o.append(f"/-- Row {r} of `M1` as initialised (src/absolute_pose/modules/{fn} line {lines[r]}). -/")
        if r < 4:
            o.append(f"def upnp{name}Row{r} {{R : Type}} [CommRing R]\n    (M : Matrix (Fin 10) (Fin 10) R) (C : Fin 10 → R) : Fin {cols} → R :=")
        else:
            o.append(f"def upnp{name}Row{r} {{R : Type}} [CommRing R] : Fin {cols} → R :=")
        o.append(wrap("![" + ", ".join(m[r]) + "]", 2) + "\n")
    args = [f"upnp{name}Row{r}" + (" M C" if r < 4 else "") for r in range(rows)]
    l0, l1 = min(lines.values()), max(lines.values())
    o.append(f"/-- `M1` as initialised (src/absolute_pose/modules/{fn} lines {l0 - 1}-{l1}). -/")
    o.append(f"def upnpM1{name}Init {{R : Type}} [CommRing R]\n    (M : Matrix (Fin 10) (Fin 10) R) (C : Fin 10 → R) :")
    o.append(f"    Matrix (Fin {rows}) (Fin {cols}) R :=")
    o.append(wrap("Matrix.of ![" + ", ".join(args) + "]", 2) + "\n")
    t, f, l = table(fn)
    n = 20
    parts = []
    for i in range(0, len(t), n):
        parts.append(f"upnpTable{name}{i // n}")
        o.append(f"/-- Rows {i} to {min(i + n, len(t)) - 1} of `M2` (src/absolute_pose/modules/{fn} lines {f + i}-{f + min(i + n, len(t)) - 1}). -/")
        o.append(f"def {parts[-1]} : List (ℕ × List (ℕ × ℕ)) := [")
        body = []
        for k, es in t[i:i + n]:
            body.append(wrap(f"({k}, [" + ", ".join(f"({c},{j})" for c, j in es) + "])", 2))
        o.append(",\n".join(body) + "]\n")
    o.append(f"/-- The entries of `M2`: for each row the row of `M1` it is filled from, and the pairs of a column")
    o.append(f"of `M2` and the column of `M1` (src/absolute_pose/modules/{fn} lines {f}-{l}). -/")
    o.append(f"def upnpTable{name} : List (ℕ × List (ℕ × ℕ)) :=")
    o.append(wrap("[" + ", ".join(parts) + "].flatten", 2) + "\n")
o.append("end OpenGV")
open(out, "w").write("\n".join(o) + "\n")
