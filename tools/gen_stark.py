#!/usr/bin/env python3
"""Writes lean/Verif/Params/Stark.lean: the matrices tried by vendor/generate_mds.sage for the sizes 2 to 6 over GF(q), an eigenvector for
each matrix it rejects, the inverse of M^q - M for each matrix it returns, and certificates that these pass the tests of the authors."""
import hashlib, pathlib
q = 8444461749428370424248824938781546531375899335154063827935233455917409239041
def elt(n, i): return int(hashlib.sha256(("%s%d" % (n, i)).encode()).hexdigest(), 16) % q
def mul(A, B): return [[sum(a * b for a, b in zip(r, c)) % q for c in zip(*B)] for r in A]
def power(M, e):
    n = len(M); r = [[int(i == j) for j in range(n)] for i in range(n)]
    for b in bin(e)[2:]:
        r = mul(r, r)
        if b == "1": r = mul(r, M)
    return r
def inverse(M):
    n = len(M); A = [r[:] + [int(i == j) for j in range(n)] for i, r in enumerate(M)]
    for c in range(n):
        p = next((r for r in range(c, n) if A[r][c]), None)
        if p is None: return None
        A[c], A[p] = A[p], A[c]
        k = pow(A[c][c], -1, q); A[c] = [x * k % q for x in A[c]]
        for r in range(n):
            if r != c and A[r][c]:
                k = A[r][c]; A[r] = [(x - k * y) % q for x, y in zip(A[r], A[c])]
    return [r[n:] for r in A]
def kernel(M):
    """a non-zero vector of the (one-dimensional) kernel"""
    n = len(M); A = [r[:] for r in M]; piv = []; row = 0
    for c in range(n):
        p = next((r for r in range(row, n) if A[r][c]), None)
        if p is None: continue
        A[row], A[p] = A[p], A[row]
        k = pow(A[row][c], -1, q); A[row] = [x * k % q for x in A[row]]
        for r in range(n):
            if r != row and A[r][c]:
                k = A[r][c]; A[r] = [(x - k * y) % q for x, y in zip(A[r], A[row])]
        piv.append(c); row += 1
    free = [c for c in range(n) if c not in piv]
    assert len(free) == 1
    v = [0] * n; v[free[0]] = 1
    for r, c in enumerate(piv): v[c] = -A[r][free[0]] % q
    return v, free[0]
def krylov(M):
    w = [1] + [0] * (len(M) - 1); ws = [w]
    for _ in M:
        w = [sum(a * b for a, b in zip(r, w)) % q for r in M]; ws.append(w)
    return ws
def cols(A): return [list(r) for r in zip(*A)]
def solve(A, b): return [sum(x * y for x, y in zip(r, b)) % q for r in inverse(A)]
def tests(M):
    """certificates for `checkTests`, as in gen_grain.py"""
    t = len(M); ws = krylov(M); a = solve(cols(ws[:t]), ws[t])
    k = [1] + [0] * (t - 1); ks = [k]
    for _ in range(4 * t * (t - 1)):
        c = k[-1]; k = [(x + c * y) % q for x, y in zip([0] + k[:-1], a)]; ks.append(k)
    cs = [solve(cols([ks[r * j] for j in range(t)]), ks[1]) for r in range(2, 4 * t + 1)]
    return inverse(cols(ws[:t])), inverse(cols(krylov(cols(M))[:t])), a[::-1], cs
def rows(A): return "[" + ",\n    ".join("[" + ", ".join(map(str, r)) + "]" for r in A) + "]"
out = ["/-!\n# Certificates for the matrices of `vendor/generate_mds.sage`\n\nWritten by tools/gen_stark.py; everything here is checked by the kernel (`Proofs/StarkRuns.lean`).\n-/\n\nnamespace Poseidon\n"]
for m in range(2, 7):
    for a in range(100):
        xs = [elt("HadesMDSx", a * m + i) for i in range(m)]; ys = [elt("HadesMDSy", a * m + i) for i in range(m)]
        M = [[pow(x - y, -1, q) for y in ys] for x in xs]
        N = power(M, q)
        D = [[(x - y) % q for x, y in zip(r, s)] for r, s in zip(N, M)]
        B = inverse(D)
        out.append(f"/-- The matrix of attempt {a} for size {m} -/\ndef starkT{m}_{a} : List (List Nat) := {rows(M)}\n")
        if B is not None:
            out.append(f"/-- The inverse of `M^q - M` -/\ndef starkB{m} : List (List Nat) := {rows(B)}\n")
            N, NT, rel, cs = tests(M)
            out.append(f"/-- The entries of the matrix, row by row -/\ndef starkM{m} : List Nat := [{', '.join(str(x) for r in M for x in r)}]\n")
            out.append(f"/-- The inverse of the matrix with the columns `M^j e0` -/\ndef starkN{m} : List (List Nat) := {rows(N)}\n")
            out.append(f"/-- The same for the transpose -/\ndef starkNT{m} : List (List Nat) := {rows(NT)}\n")
            out.append(f"/-- The coordinates of `M^{m} e0`, the highest first -/\ndef starkR{m} : List Nat := [{', '.join(map(str, rel))}]\n")
            out.append(f"/-- Row `r - 2`: `M e0` in terms of `M^(r j) e0` -/\ndef starkP{m} : List (List Nat) := {rows(cs)}\n")
            print(m, a); break
        v, one = kernel(D)
        Mv = [sum(x * y for x, y in zip(r, v)) % q for r in M]
        c = Mv[one]
        assert Mv == [c * x % q for x in v]
        out.append(f"/-- An eigenvector, its eigenvalue, and the place of an entry 1 -/\ndef starkV{m}_{a} : List Nat := [{', '.join(map(str, v))}]\n"
                   f"def starkC{m}_{a} : Nat := {c}\ndef starkO{m}_{a} : Nat := {one}\n")
out.append("end Poseidon\n")
(pathlib.Path(__file__).resolve().parent.parent / "lean/Verif/Params/Stark.lean").write_text("\n".join(out))
