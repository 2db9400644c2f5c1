#!/usr/bin/env python3
"""Copies the literals of /repo/poseidonperm_x17.sage into lean/Verif/Params/Sage.lean."""
import os, re
src = open("/repo/poseidonperm_x17.sage").read()
def lines(a, b):
    return src[:a].count("\n") + 1, src[:b].count("\n") + 1
m = re.search(r"round_constants = \[(.*?)\]", src, re.S)
consts = re.findall(r"\d+", m.group(1))
c0, c1 = lines(m.start(), m.end())
m = re.search(r"MDS_matrix = \[(.*?)\]\]", src, re.S)
rows = [re.findall(r"\d+", r) for r in m.group(1).split("]")]
m0, m1 = lines(m.start(), m.end())
out = ["/-! Generated by tools/gen_sage.py from poseidonperm_x17.sage; do not edit. -/", "", "namespace Poseidon", "",
       f"/-- `round_constants`, poseidonperm_x17.sage:{c0}-{c1} -/",
       "def sageRoundConstants : List Nat := ["]
out.append(",\n".join("  " + c for c in consts) + "]")
out += ["", f"/-- `MDS_matrix`, poseidonperm_x17.sage:{m0}-{m1} -/", "def sageMdsMatrix : List (List Nat) := ["]
out.append(",\n".join("  [" + ", ".join(r) + "]" for r in rows) + "]")
out += ["", "end Poseidon", ""]
path = os.path.join(os.path.dirname(__file__), "..", "lean", "Verif", "Params", "Sage.lean")
open(path, "w").write("\n".join(out))
print(len(consts), [len(r) for r in rows])
