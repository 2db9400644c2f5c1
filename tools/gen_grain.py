#!/usr/bin/env python3
"""Write lean/Verif/Params/GrainTests.lean: certificates that the matrices of the authors' scripts pass the three matrix tests."""
import os, re
D = "/repo/vendor/hadeshash/code/"
out = ["/-! Generated by `tools/gen_grain.py`: certificates for the tests of the matrices in the authors' scripts. -/\n\nnamespace Poseidon.Authors\n"]

def solve(A, b, p):
    """x with A x = b modulo p, for a list of columns b"""
    n = len(A)
    rows = [A[i][:] + [c[i] for c in b] for i in range(n)]
    for i in range(n):
        j = next(j for j in range(i, n) if rows[j][i] % p)
        rows[i], rows[j] = rows[j], rows[i]
        inv = pow(rows[i][i], -1, p)
        rows[i] = [x * inv % p for x in rows[i]]
        for j in range(n):
            if j != i and rows[j][i]:
                f = rows[j][i]
                rows[j] = [(x - f * y) % p for x, y in zip(rows[j], rows[i])]
    return [[rows[i][n + c] for i in range(n)] for c in range(len(b))]

def cols(l): return [list(r) for r in zip(*l)]

def rowlist(nm, l, doc):
    if len(l) > 24:
        parts = [l[i:i + 24] for i in range(0, len(l), 24)]
        for i, x in enumerate(parts): rowlist(f"{nm}_{i}", x, f"Part {i} of the next table")
        out.append(f"/-- {doc} -/\ndef {nm} : List (List Nat) := " + " ++ ".join(f"{nm}_{i}" for i in range(len(parts))) + "\n")
        return
    out.append(f"/-- {doc} -/\ndef {nm} : List (List Nat) := [\n" + ",\n".join("  [" + ", ".join(map(str, r)) + "]" for r in l) + "]\n")

for name in ["255_3", "255_5", "254_3", "254_5", "64_24"]:
    s = open(D + (f"poseidonperm_x5_{name}.sage" if name != "64_24" else "poseidonperm_x3_64_24_optimized.sage")).read()
    i = s.index("MDS_matrix = ["); j = s.index("MDS_matrix_field = ")
    m = [int(x, 16) for x in re.findall(r"0x[0-9a-f]+", s[i:j])]
    t = int(name.split("_")[1])
    p = {"255": 0x73eda753299d7d483339d80809a1d80553bda402fffe5bfeffffffff00000001,
         "254": 0x30644e72e131a029b85045b68181585d2833e84879b9709143e1f593f0000001, "64": 2**64 - 2**8 - 1}[name.split("_")[0]]
    M = [m[t * i:t * i + t] for i in range(t)]
    def krylov(M):
        w = [1] + [0] * (t - 1); ws = [w]
        for _ in range(t):
            w = [sum(a * b for a, b in zip(r, w)) % p for r in M]
            ws.append(w)
        return ws
    eye = [[int(i == j) for j in range(t)] for i in range(t)]
    def inverse(ws): return cols(solve(cols(ws[:t]), eye, p))
    ws = krylov(M)
    a = solve(cols(ws[:t]), [ws[t]], p)[0]
    k = [1] + [0] * (t - 1); ks = [k]
    for _ in range(4 * t * (t - 1)):
        c = k[-1]
        k = [(x + c * y) % p for x, y in zip([0] + k[:-1], a)]
        ks.append(k)
    cs = [solve(cols([ks[r * j] for j in range(t)]), [ks[1]], p)[0] for r in range(2, 4 * t + 1)]
    rowlist(f"inv_{name}", inverse(ws), f"The inverse of the matrix with the columns `M^j e0`, for the matrix `mds_{name}`")
    rowlist(f"invT_{name}", inverse(krylov(cols(M))), f"The same for the transpose of `mds_{name}`")
    out.append(f"/-- The coordinates of `M^{t} e0`, the highest first -/\ndef rel_{name} : List Nat := [" + ", ".join(map(str, a[::-1])) + "]\n")
    rowlist(f"pow_{name}", cs, f"Row `r - 2`: `M e0` in terms of `M^(r j) e0`")
out.append("end Poseidon.Authors\n")
open(os.path.join(os.path.dirname(os.path.abspath(__file__)), "../lean/Verif/Params/GrainTests.lean"), "w").write("\n".join(out))
