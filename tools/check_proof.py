#!/usr/bin/env python3
"""Make proofs with the proving key shipped in /repo and check them with the shipped verifying key.

Runs the prover of lean/Verif/Model/Groth16.lean (`witnessMap`, `createProof`) on the rows that check_key.py
builds, with the points of /repo/poseidon-tests/test_vectors/preimage_pk.bin, which the real program wrote,
and then the verifier (`verify`) with a pairing of BLS12-377.  A proof is accepted only if the rows, with
their constants, their order, the order of the variables, the extra rows of the public variables, the
evaluation domain and the formulas of the prover are those of the real program.  Then it checks that
changed public inputs and a false claim are rejected, and that a proof made without preimages by the
forms of C88 (`C88_malleable`) is accepted.

It is a test of the model against an output of the real program, not a proof.  Usage: check_proof.py [repo]
"""
import random
from check_key import *

random.seed(377)
beta5 = -5 % p


# ---- Fp12 = Fp[w] / (w^12 + 5), Fp2 = Fp[u] / (u^2 + 5), u = w^6 ----
def m12(f, g):
    r = [0] * 23
    for i, x in enumerate(f):
        if x:
            for j, y in enumerate(g):
                if y:
                    r[i + j] += x * y
    return [(r[i] + (beta5 * r[i + 12] if i < 11 else 0)) % p for i in range(12)]


def pow12(f, n):
    acc = [1] + [0] * 11
    for bit in bin(n)[2:]:
        acc = m12(acc, acc)
        if bit == "1":
            acc = m12(acc, f)
    return acc


def m2(x, y):
    return (x[0] * y[0] - 5 * x[1] * y[1]) % p, (x[0] * y[1] + x[1] * y[0]) % p


def a2(x, y):
    return (x[0] + y[0]) % p, (x[1] + y[1]) % p


def s2(x, y):
    return (x[0] - y[0]) % p, (x[1] - y[1]) % p


def inv2(x):
    n = pow(x[0] * x[0] + 5 * x[1] * x[1], -1, p)
    return x[0] * n % p, -x[1] * n % p


B2 = inv2((0, 1))                                      # the twist: y^2 = x^3 + 1 / u


def point2(raw):
    if raw[-1] & 0x40:
        return None
    c = [int.from_bytes(raw[48 * i:48 * i + 48], "little") for i in range(4)]
    c[3] &= (1 << 382) - 1
    x, y = (c[0], c[1]), (c[2], c[3])
    assert m2(y, y) == a2(m2(m2(x, x), x), B2)
    return x, y


# ---- affine arithmetic in both groups, generic ----
class G1:
    zero = None

    @staticmethod
    def add(P, Q):
        if P is None: return Q
        if Q is None: return P
        if P[0] == Q[0]:
            if (P[1] + Q[1]) % p == 0: return None
            l = 3 * P[0] * P[0] * pow(2 * P[1], -1, p) % p
        else:
            l = (Q[1] - P[1]) * pow(Q[0] - P[0], -1, p) % p
        x = (l * l - P[0] - Q[0]) % p
        return x, (l * (P[0] - x) - P[1]) % p

    @staticmethod
    def neg(P):
        return None if P is None else (P[0], -P[1] % p)


class G2:
    @staticmethod
    def add(P, Q):
        if P is None: return Q
        if Q is None: return P
        if P[0] == Q[0]:
            if a2(P[1], Q[1]) == (0, 0): return None
            l = m2(m2((3, 0), m2(P[0], P[0])), inv2(m2((2, 0), P[1])))
        else:
            l = m2(s2(Q[1], P[1]), inv2(s2(Q[0], P[0])))
        x = s2(s2(m2(l, l), P[0]), Q[0])
        return x, s2(m2(l, s2(P[0], x)), P[1])

    @staticmethod
    def neg(P):
        return None if P is None else (P[0], s2((0, 0), P[1]))


def smul(G, n, P):
    acc = None
    for bit in bin(n % q)[2:]:
        acc = G.add(acc, acc)
        if bit == "1":
            acc = G.add(acc, P)
    return acc


def msm(G, bases, scalars, w=8):
    pairs = [(P, x % q) for P, x in zip(bases, scalars) if P is not None and x % q]
    total = None
    for k in reversed(range(0, 256, w)):
        for _ in range(w):
            total = G.add(total, total)
        buckets = [None] * (1 << w)
        for P, x in pairs:
            i = x >> k & ((1 << w) - 1)
            if i:
                buckets[i] = G.add(buckets[i], P)
        run = acc = None
        for i in reversed(range(1, 1 << w)):
            run = G.add(run, buckets[i])
            acc = G.add(acc, run)
        total = G.add(total, acc)
    return total


# ---- the Tate pairing (verticals vanish in the final exponentiation) ----
def miller(P, Q):
    if P is None or Q is None:
        return [1] + [0] * 11
    (x0, x1), (y0, y1) = Q

    def line(l, T):                                     # y - yT - l (x - xT) at (x w^2, y w^3)
        r = [0] * 12
        r[0] = (l * T[0] - T[1]) % p
        r[2], r[8] = -l * x0 % p, -l * x1 % p
        r[3], r[9] = y0, y1
        return r
    f, T = [1] + [0] * 11, P
    for bit in bin(q)[3:]:
        f = m12(f, f)
        if T is not None:
            f = m12(f, line(3 * T[0] * T[0] * pow(2 * T[1], -1, p) % p, T))
            T = G1.add(T, T)
        if bit == "1" and T is not None:
            if T[0] != P[0]:
                f = m12(f, line((P[1] - T[1]) * pow(P[0] - T[0], -1, p) % p, T))
            T = G1.add(T, P)
    assert T is None
    return f


FINAL = (p ** 12 - 1) // q


def pairing_product_is_one(pairs):
    f = [1] + [0] * 11
    for P, Q in pairs:
        f = m12(f, miller(P, Q))
    return pow12(f, FINAL) == [1] + [0] * 11


# ---- the key ----
pos = 0
raw = lambda n: (data[globals().__setitem__("pos", pos + n) or pos - n:pos])
alpha1, beta2, gamma2, delta2 = point(raw(96)), point2(raw(192)), point2(raw(192)), point2(raw(192))
abc = [point(r) for r in gamma_abc]
pos += 8 + 96 * len(gamma_abc)
beta1, delta1 = point(raw(96)), point(raw(96))
B2_pt, H_pt, L_pt = [point2(r) for r in b2_raw], [point(r) for r in h_raw], [point(r) for r in l_raw]
assert pairing_product_is_one([(alpha1, beta2), (G1.neg(beta1), beta2)]) == (alpha1 == beta1)
assert pairing_product_is_one([(smul(G1, 6, delta1), delta2), (G1.neg(smul(G1, 2, delta1)), smul(G2, 3, delta2))])
print("6: pairing is bilinear")


# ---- the circuit's assignment ----
def permute(n, words):
    t = n + 1
    arc, mds = table(n, "arc"), table(n, "mds")
    k, wit, s = 0, [], words
    for r in range(39):
        s = [(x + c) % q for x, c in zip(s, arc[k:k + t])]
        k += t
        for i in range(t):
            if r < 4 or r >= 35 or i == 0:
                x = s[i]
                s[i] = pow(x, 17, q)
                if not (r == 0 and i == 0):            # the first word is a constant: no variables
                    wit += [pow(x, 2, q), pow(x, 4, q), pow(x, 8, q), pow(x, 16, q), s[i]]
        s = [sum(mds[i * t + j] * s[j] for j in range(t)) % q for i in range(t)]
    return s[1], wit


def assignment(pre):
    outs, wit = [], list(pre)
    for n in range(1, 8):
        y, w = permute(n, [domain] + pre[:n])
        outs.append(y)
        wit += w
    assert len(wit) == n_wit
    return outs, wit


def dot(row, z):
    return sum(c * z[v] for v, c in row.items()) % q


# ---- the evaluation domain ----
def fft(x, g):
    n = len(x)
    if n == 1:
        return x
    e, o, w, r = fft(x[::2], g * g % q), fft(x[1::2], g * g % q), 1, [0] * n
    for i in range(n // 2):
        t = w * o[i] % q
        r[i], r[i + n // 2] = (e[i] + t) % q, (e[i] - t) % q
        w = w * g % q
    return r


def ifft(x, g):
    n = pow(len(x), -1, q)
    return [v * n % q for v in fft(x, pow(g, -1, q))]


def scale(x, g):
    r, c = [], 1
    for v in x:
        r.append(v * c % q)
        c = c * g % q
    return r


def witness_map(z, root, g=22):
    a = [dot(r[0], z) for r in rows] + z[:PUBLIC]
    b = [dot(r[1], z) for r in rows]
    c = [x * y % q for x, y in zip(a, b)]
    a, b, c = (x + [0] * (size - len(x)) for x in (a, b, c))
    a, b, c = (fft(scale(ifft(x, root), g), root) for x in (a, b, c))
    inv = pow(pow(g, size, q) - 1, -1, q)
    ab = [(x * y - w) * inv % q for x, y, w in zip(a, b, c)]
    return scale(ifft(ab, root), pow(g, -1, q))


def prove(z, root, r, s):
    pub, aux = z[1:PUBLIC], z[PUBLIC:]
    h = witness_map(z, root)
    coeff = lambda G, init, query, vkp: G.add(G.add(init, msm(G, query, z)), vkp)
    gA = coeff(G1, smul(G1, r, delta1), A_pt, alpha1)
    g1B = coeff(G1, smul(G1, s, delta1), B_pt, beta1)
    g2B = coeff(G2, smul(G2, s, delta2), B2_pt, beta2)
    gC = G1.add(G1.add(smul(G1, s, gA), smul(G1, r, g1B)), G1.neg(smul(G1, r * s, delta1)))
    return gA, g2B, G1.add(G1.add(gC, msm(G1, L_pt, aux)), msm(G1, H_pt, h))


def verify(pub, proof):
    assert len(pub) + 1 == len(abc)
    prepared = G1.add(abc[0], msm(G1, abc[1:], pub))
    A, B, C = proof
    return pairing_product_is_one([(A, B), (prepared, G2.neg(gamma2)), (C, G2.neg(delta2)), (G1.neg(alpha1), beta2)])


# ---- 7 ----
root = pow(22, (q - 1) // size, q)
for _ in range(2):
    pre = [random.randrange(q) for _ in range(7)]
    outs, wit = assignment(pre)
    z = [1] + outs + wit
    assert all(dot(a, z) * dot(b, z) % q == dot(c, z) for a, b, c in rows)
    proof = prove(z, root, random.randrange(q), random.randrange(q))
    assert verify(outs, proof), "a proof made with the shipped key is accepted"
    assert not verify([(outs[0] + 1) % q] * 7, proof), "with other public inputs it is not"
    x = random.randrange(1, q)
    assert verify(outs, (smul(G1, x, proof[0]), smul(G2, pow(x, -1, q), proof[1]), proof[2]))
    bad = [1, (outs[0] + 1) % q] + outs[1:] + wit
    assert not verify(bad[1:PUBLIC], prove(bad, root, 1, 2)), "nor is that of a false claim"
print("7: proofs made with the shipped key are accepted, those of false claims are not")
