#!/usr/bin/env python3
"""Write lean/Verif/Spec/AuthorVectors.lean from the scripts of the authors of Poseidon in /repo/vendor/hadeshash/code."""
import os, re
from collections import deque
D = "/repo/vendor/hadeshash/code/"
out = ["""/-!
# The authors' parameters and test vectors

Generated by `tools/gen_authors.py` from `vendor/hadeshash/code/poseidonperm_x5_*.sage` (lines 7, 10 and 12),
`vendor/hadeshash/code/poseidonperm_x3_64_24_optimized.sage` (lines 15-20) and `vendor/hadeshash/code/test_vectors.txt`.  The lists
`xs_*` and `ys_*` are the values from which `generate_parameters_grain.sage` computes the matrices.
-/

namespace Poseidon.Authors
"""]
def seeds(n, t, rp, p, rc, m):
    """the lists xs, ys of `create_mds_p`, generate_parameters_grain.sage:109-119, for these parameters"""
    s = deque(int(c) for c in f"{1:02b}{0:04b}{n:012b}{t:012b}{8:010b}{rp:010b}" + "1" * 30)
    def step():
        b = s[62] ^ s[51] ^ s[38] ^ s[23] ^ s[13] ^ s[0]
        s.popleft(); s.append(b)
        return b
    for _ in range(160): step()
    def bit():
        while step() == 0: step()
        return step()
    def rnd():
        v = 0
        for _ in range(n): v = 2 * v + bit()
        return v
    def const():
        while True:
            v = rnd()
            if v < p: return v
    assert [const() for _ in range((8 + rp) * t)] == rc
    l = [rnd() for _ in range(2 * t)]
    xs, ys = l[:t], l[t:]
    assert [pow(x + y, -1, p) for x in xs for y in ys] == m
    return xs, ys
def table(nm, l, doc):
    out.append(f"/-- {doc} -/\ndef {nm} : List Nat :=\n  [" + ",\n   ".join(l) + "]\n")
vec = open(D + "test_vectors.txt").read()
for name in ["255_3", "255_5", "254_3", "254_5"]:
    s = open(D + f"poseidonperm_x5_{name}.sage").read()
    t = int(re.search(r"^t = (\d+)", s, re.M).group(1))
    rf = int(re.search(r"^R_F = (\d+)", s, re.M).group(1))
    rp = int(re.search(r"^R_P = (\d+)", s, re.M).group(1))
    rc = re.findall(r"'(0x[0-9a-f]+)'", re.search(r"^round_constants = (.*)$", s, re.M).group(1))
    m = re.findall(r"'(0x[0-9a-f]+)'", re.search(r"^MDS_matrix = (.*)$", s, re.M).group(1))
    assert len(m) == t * t and len(rc) == (rf + rp) * t and rf == 8
    sec = vec[vec.index(f"# poseidonperm_x5_{name}"):]
    inp, outp = re.findall(r"^\[(.*)\]$", sec, re.M)[:2]
    assert [int(x, 16) for x in re.findall(r"0x[0-9a-f]+", inp)] == list(range(t))
    outp = re.findall(r"0x[0-9a-f]+", outp)
    assert len(outp) == t
    for nm, l, doc in [("mds", m, f"`MDS_matrix`, poseidonperm_x5_{name}.sage:12"),
                       ("arc", rc, f"`round_constants`, poseidonperm_x5_{name}.sage:10"),
                       ("out", outp, f"the output of poseidonperm_x5_{name} on 0, 1, .., test_vectors.txt")]:
        table(f"{nm}_{name}", l, doc)
    prime = int(re.search(r"^prime = (0x[0-9a-f]+)", s, re.M).group(1), 16)
    for nm, l in zip(["xs", "ys"], seeds(int(name[:3]), t, rp, prime, [int(x, 16) for x in rc], [int(x, 16) for x in m])):
        table(f"{nm}_{name}", [hex(x) for x in l], f"`{nm}` in `create_mds_p` for poseidonperm_x5_{name}, generate_parameters_grain.sage:118-119")
s = open(D + "poseidonperm_x3_64_24_optimized.sage").read()
i, j, k = s.index("round_constants = ["), s.index("MDS_matrix = ["), s.index("MDS_matrix_field = ")
rc, m = re.findall(r"0x[0-9a-f]+", s[i:j]), re.findall(r"0x[0-9a-f]+", s[j:k])
assert len(rc) == 50 * 24 and len(m) == 24 * 24
table("mds_64_24", m, "`MDS_matrix`, poseidonperm_x3_64_24_optimized.sage:19-20")
table("arc_64_24", rc, "`round_constants`, poseidonperm_x3_64_24_optimized.sage:15-17")
for nm, l in zip(["xs", "ys"], seeds(64, 24, 42, 2**64 - 2**8 - 1, [int(x, 16) for x in rc], [int(x, 16) for x in m])):
    table(f"{nm}_64_24", [hex(x) for x in l], f"`{nm}` in `create_mds_p` for poseidonperm_x3_64_24_optimized, generate_parameters_grain.sage:118-119")
out.append("end Poseidon.Authors\n")
open(os.path.join(os.path.dirname(__file__), "..", "lean/Verif/Spec/AuthorVectors.lean"), "w").write("\n".join(out))
