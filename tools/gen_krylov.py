#!/usr/bin/env python3
"""Certificates for C16: rows e0*M^j of the Cauchy MDS matrix and the inverse of that matrix.
Lean checks them in the kernel; this script is not trusted."""
q = 8444461749428370424248824938781546531375899335154063827935233455917409239041
def inv(A):
    n = len(A); B = [r[:] + [int(i == j) for j in range(n)] for i, r in enumerate(A)]
    for c in range(n):
        p = next(r for r in range(c, n) if B[r][c]); B[c], B[p] = B[p], B[c]
        x = pow(B[c][c], -1, q); B[c] = [a * x % q for a in B[c]]
        for r in range(n):
            if r != c and B[r][c]:
                f = B[r][c]; B[r] = [(a - f * b) % q for a, b in zip(B[r], B[c])]
    return [r[n:] for r in B]
out = "/-! Generated by tools/gen_krylov.py; certificates only, checked in Proofs/Krylov.lean. -/\n\nnamespace Poseidon\n"
for t in range(2, 9):
    M = [[pow(i + j + t, -1, q) for j in range(t)] for i in range(t)]
    K = [[int(j == 0) for j in range(t)]]
    for _ in range(t - 1):
        K.append([sum(K[-1][l] * M[l][j] for l in range(t)) % q for j in range(t)])
    N = inv(K)
    for nm, A in (("K", K), ("N", N)):
        out += f"\n/-- certificate for width {t} -/\ndef krylov{nm}{t} : List Nat := [\n  " + ",\n  ".join(str(x) for r in A for x in r) + "]\n"
out += "\nend Poseidon\n"
open("/verif/lean/Verif/Params/Krylov.lean", "w").write(out)
