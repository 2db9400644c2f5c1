#!/usr/bin/env python3
"""Compare the circuit, as modelled, with the proving key shipped in /repo.

/repo/poseidon-tests/test_vectors/preimage_pk.bin was written by the real program: it is the Groth16
key of the test circuit, so its points are the columns of the three matrices at a secret point.  This
script builds the rows of the circuit from the tables of /repo the way lean/Verif/Model/R1cs.lean does,
and checks relations between the points which hold only if the rows are the right ones:

  1. the number of points of every query (columns, public columns, size of the domain);
  2. the points at infinity of `b_g1_query` and `b_g2_query` are exactly the empty columns of B, and
     `a_query` has none, as A has no empty column;
  3. two points of `a_query` and `b_g1_query` are equal exactly when the columns are;
  4. for every column v that only feeds S-boxes, b[v] - a[v] = sum_k c(k, v) a[x4(k)], where c(k, v) is
     the coefficient of v in the input of the S-box k and x4(k) the column of its fourth product.  This
     checks every coefficient of every S-box input but the constant term;
  5. the columns of the last round are proportional to the row of the MDS matrix which is output.

It is a test of the model against an output of the real program, not a proof.  Usage: check_key.py [repo]
"""
import re, struct, sys

REPO = sys.argv[1] if len(sys.argv) > 1 else "/repo"
q = 8444461749428370424248824938781546531375899335154063827935233455917409239041
p = 258664426012969094010652733694893533536393512754914660539884262666720468348340822774968888139573360124440321458177
RINV = pow(1 << 256, -1, q)


# ---- the key (ark-serialize, uncompressed) ----
data = open(REPO + "/poseidon-tests/test_vectors/preimage_pk.bin", "rb").read()
vk = open(REPO + "/poseidon-tests/test_vectors/preimage_vk.param", "rb").read()
pos = 0


def take(n):
    global pos
    pos += n
    return data[pos - n:pos]


def vec(size):
    return [take(size) for _ in range(struct.unpack("<Q", take(8))[0])]


take(96), take(192), take(192), take(192)                 # alpha, beta, gamma, delta of the verifying key
gamma_abc = vec(96)
assert data[:pos] == vk, "the key begins with the verifying key"
take(96), take(96)                                        # beta_g1, delta_g1
a_raw, b_raw, b2_raw, h_raw, l_raw = vec(96), vec(96), vec(192), vec(96), vec(96)
assert pos == len(data)


def point(raw):
    if raw[-1] & 0x40:
        return None
    x, y = int.from_bytes(raw[:48], "little"), int.from_bytes(raw[48:95] + bytes([raw[95] & 0x3f]), "little")
    assert (y * y - x * x * x - 1) % p == 0
    return (x, y)


A_pt, B_pt = [point(r) for r in a_raw], [point(r) for r in b_raw]


# ---- curve arithmetic: y^2 = x^3 + 1, Jacobian ----
def dbl(P):
    X, Y, Z = P
    if Z == 0:
        return P
    A, B = X * X % p, Y * Y % p
    C = B * B % p
    D = 2 * ((X + B) ** 2 - A - C) % p
    E = 3 * A % p
    X3 = (E * E - 2 * D) % p
    return X3, (E * (D - X3) - 8 * C) % p, 2 * Y * Z % p


def add(P, Q):
    if P[2] == 0:
        return Q
    if Q[2] == 0:
        return P
    X1, Y1, Z1 = P
    X2, Y2, Z2 = Q
    U, V = Z1 * Z1 % p, Z2 * Z2 % p
    U1, U2, S1, S2 = X1 * V % p, X2 * U % p, Y1 * Z2 * V % p, Y2 * Z1 * U % p
    if U1 == U2:
        return dbl(P) if S1 == S2 else (1, 1, 0)
    H, R = (U2 - U1) % p, (S2 - S1) % p
    HH = H * H % p
    HHH, W = H * HH % p, U1 * HH % p
    X3 = (R * R - HHH - 2 * W) % p
    return X3, (R * (W - X3) - S1 * HHH) % p, H * Z1 * Z2 % p


def mul(n, P):
    acc = (1, 1, 0)
    for bit in bin(n % q)[2:]:
        acc = dbl(acc)
        if bit == "1":
            acc = add(acc, P)
    return acc


def jac(P):
    return (1, 1, 0) if P is None else (P[0], P[1], 1)


def neg(P):
    return P[0], -P[1] % p, P[2]


# ---- the rows of the circuit; a linear combination is a dict from columns to coefficients ----
def table(n, name):
    src = open(REPO + "/poseidon377/src/params/rate_%d.rs" % n).read()
    start = src.index("    PoseidonParameters {")
    at = start + re.search(r"\b%s: " % name, src[start:]).start()
    end = {"arc": "mds: ", "mds": "optimized_mds"}[name]
    stop = at + src[at + 5:].index(end) if end in src[at + 5:] else len(src)
    res = []
    for m in re.findall(r"from_montgomery_limbs\(\[([^\]]*)\]\)", src[at:stop + 5]):
        l = [int(x) for x in m.split(",") if x.strip()]
        res.append(sum(x << (64 * i) for i, x in enumerate(l)) * RINV % q)
    return res


PUBLIC = 8
rows, inputs, x4, last, n_wit = [], [], [], [], 7


def col(w):
    return PUBLIC + w


def sbox(word):
    global n_wit
    if set(word) <= {0}:
        return {0: pow(word.get(0, 0), 17, q)}
    w = [col(n_wit + i) for i in range(5)]
    n_wit += 5
    rows.append((word, word, {w[0]: 1}))
    for i in range(3):
        rows.append(({w[i]: 1}, {w[i]: 1}, {w[i + 1]: 1}))
    rows.append(({w[3]: 1}, word, {w[4]: 1}))
    inputs.append(word)
    x4.append(w[3])
    return {w[4]: 1}


def lin(pairs):
    res = {}
    for c, word in pairs:
        for v, x in word.items():
            res[v] = (res.get(v, 0) + c * x) % q
    return {v: x for v, x in res.items() if x}


src = open(REPO + "/poseidon-tests/tests/poseidon377_r1cs.rs").read()
limbs = re.findall(r"\d+", re.search(r"DOMAIN_SEP: Fq = Fq::from_montgomery_limbs\(\[([^\]]*)\]", src).group(1))
domain = sum(int(x) << (64 * i) for i, x in enumerate(limbs)) * RINV % q
for n in range(1, 8):
    t = n + 1
    arc, mds = table(n, "arc"), table(n, "mds")
    assert len(arc) == 39 * t and len(mds) == t * t, (len(arc), len(mds))
    state = [{0: domain}] + [{col(i): 1} for i in range(n)]
    k = 0
    for r in range(39):
        state = [lin([(1, s), (c, {0: 1})]) for s, c in zip(state, arc[k:k + t])]
        k += t
        full = r < 4 or r >= 35
        state = [sbox(s) if full or i == 0 else s for i, s in enumerate(state)]
        if r == 38:
            last.append([(mds[t + j], next(iter(s))) for j, s in enumerate(state)])
        state = [lin([(mds[i * t + j], s) for j, s in enumerate(state)]) for i in range(t)]
    rows.append((lin([(1, {n: 1}), (q - 1, state[1])]), {0: 1}, {}))
cols = PUBLIC + n_wit
# LibsnarkReduction: one more row of A for every public column
full_rows = rows + [({i: 1}, {}, {}) for i in range(PUBLIC)]
size = 1
while size < len(full_rows):
    size *= 2

# ---- 1 ----
assert (len(a_raw), len(b_raw), len(b2_raw)) == (cols, cols, cols) and len(gamma_abc) == PUBLIC
assert len(l_raw) == n_wit and len(h_raw) == size - 1
print("1: %d rows, %d columns, %d of them public, domain of %d" % (len(rows), cols, PUBLIC, size))

# ---- 2 ----
colA, colB = [{} for _ in range(cols)], [{} for _ in range(cols)]
for i, (a, b, _) in enumerate(full_rows):
    for v, x in a.items():
        colA[v][i] = x
    for v, x in b.items():
        colB[v][i] = x
empty = [v for v in range(cols) if not colB[v]]
assert all(colA) and all(A_pt)
assert empty == [v for v in range(cols) if B_pt[v] is None] == [v for v in range(cols) if b2_raw[v][-1] & 0x40]
print("2: %d points at infinity, the empty columns of B" % len(empty))

# ---- 3 ----
key, cls = {}, {}
for v in range(cols):
    for P, c in ((A_pt[v], colA[v]), (B_pt[v], colB[v])):
        f = frozenset(c.items())
        assert key.setdefault(P, f) == f and cls.setdefault(f, P) == P
print("3: %d different points, one for each different column; a[v] = b[v] for %d columns" %
      (len(key), sum(1 for v in range(cols) if a_raw[v] == b_raw[v])))

# ---- 4 ----
uses = [[] for _ in range(cols)]
for k, word in enumerate(inputs):
    for v, x in word.items():
        uses[v].append((x, x4[k]))
n_coef = n_cols = 0
for v in range(PUBLIC, cols):
    if not uses[v]:
        continue
    acc = add(jac(A_pt[v]), neg(jac(B_pt[v])))
    for c, w in uses[v]:
        acc = add(acc, mul(c, jac(A_pt[w])))
        n_coef += 1
    assert acc[2] == 0, v
    n_cols += 1
print("4: %d columns, %d coefficients" % (n_cols, n_coef))

# ---- 5 ----
for words in last:
    (m0, v0), rest = words[0], words[1:]
    for m, v in rest:
        assert add(mul(m, jac(A_pt[v0])), neg(mul(m0, jac(A_pt[v]))))[2] == 0
print("5: %d columns of the last rounds" % sum(len(w) for w in last))
