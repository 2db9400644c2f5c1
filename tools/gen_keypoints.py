#!/usr/bin/env python3
"""Generate lean/Verif/Model/KeyPoints.lean: the points of the keys shipped in /repo, packed into numbers of 384 bits for each
coordinate, and check that writing them out again (signs as in `Affine.toFlags`) gives the files byte for byte."""
import struct, sys

REPO = sys.argv[1] if len(sys.argv) > 1 else "/repo"
DIR = REPO + "/poseidon-tests/test_vectors/"
data = open(DIR + "preimage_pk.bin", "rb").read()
vkfile = open(DIR + "preimage_vk.param", "rb").read()
p = 258664426012969094010652733694893533536393512754914660539884262666720468348340822774968888139573360124440321458177
CHUNK = 32
pos = 0


def take(n):
    global pos
    pos += n
    return data[pos - n:pos]


def point(size):
    raw = take(size)
    c = [int.from_bytes(raw[i:i + 48], "little") for i in range(0, size, 48)]
    flags, c[-1] = c[-1] >> 382, c[-1] & (1 << 382) - 1
    assert all(x < p for x in c) and flags != 3
    y = c[len(c) // 2:][::-1]
    if flags == 1:
        assert not any(c)
    else:
        assert any(c) and (flags == 2) == (y > [-x % p for x in y])
    return c


def vec(size):
    return [point(size) for _ in range(struct.unpack("<Q", take(8))[0])]


alpha, beta, gamma, delta = point(96), point(192), point(192), point(192)
abc = vec(96)
assert data[:pos] == vkfile
beta1, delta1 = point(96), point(96)
a, b1, b2, h, l = vec(96), vec(96), vec(192), vec(96), vec(96)
assert pos == len(data)

# the bytes again, the way the model writes them
def text(c):
    y = c[len(c) // 2:][::-1]
    f = 1 if not any(c) else 2 if y > [-x % p for x in y] else 0
    return b"".join((x + (f << 382 if i == len(c) - 1 else 0)).to_bytes(48, "little") for i, x in enumerate(c))
def vtext(v):
    return struct.pack("<Q", len(v)) + b"".join(map(text, v))
vktext = text(alpha) + text(beta) + text(gamma) + text(delta) + vtext(abc)
assert vktext == vkfile
assert vktext + text(beta1) + text(delta1) + vtext(a) + vtext(b1) + vtext(b2) + vtext(h) + vtext(l) == data


def pack(points):
    n, i = 0, 0
    for c in points:
        for x in c:
            n |= x << (384 * i)
            i += 1
    return n


out = ['''import Verif.Model.KeyFile

/-!
# The keys shipped with the tests

Generated by tools/gen_keypoints.py from poseidon-tests/test_vectors/preimage_pk.bin and preimage_vk.param: the coordinates of the points,
384 bits each, many in one number.  The script checks that writing them gives the two files byte for byte.
-/

namespace Poseidon.Groth16

/-- Points packed into a number, the first in the lowest bits; two zeros stand for the point at infinity.  Notation for
poseidon-tests/test_vectors/preimage_pk.bin. -/
def unpack1 : Nat → Nat → List (Affine Fp)
  | 0, _ => []
  | k + 1, n =>
    let x : Nat := n % 2 ^ 384
    let y : Nat := n / 2 ^ 384 % 2 ^ 384
    (if x = 0 ∧ y = 0 then Affine.identity else ⟨x, y, false⟩) :: unpack1 k (n / 2 ^ 768)

/-- The same for the second group.  Notation for poseidon-tests/test_vectors/preimage_pk.bin. -/
def unpack2 : Nat → Nat → List (Affine Fp2)
  | 0, _ => []
  | k + 1, n =>
    let x0 : Nat := n % 2 ^ 384
    let x1 : Nat := n / 2 ^ 384 % 2 ^ 384
    let y0 : Nat := n / 2 ^ 768 % 2 ^ 384
    let y1 : Nat := n / 2 ^ 1152 % 2 ^ 384
    (if x0 = 0 ∧ x1 = 0 ∧ y0 = 0 ∧ y1 = 0 then Affine.identity else ⟨⟨x0, x1⟩, ⟨y0, y1⟩, false⟩) :: unpack2 k (n / 2 ^ 1536)
''']
lists = {}
for name, pts, chunk in (("single1", [alpha, beta1, delta1], CHUNK), ("single2", [beta, gamma, delta], CHUNK), ("abc", abc, CHUNK), ("a", a, CHUNK),
                         ("b1", b1, CHUNK), ("b2", b2, CHUNK // 2), ("h", h, CHUNK), ("l", l, CHUNK)):
    parts = []
    for i in range(0, len(pts), chunk):
        c = pts[i:i + chunk]
        d = "%sPoints%d" % (name, i // chunk)
        out.append("\n/-- Points of poseidon-tests/test_vectors/preimage_pk.bin. -/\ndef %s : Nat :=\n  0x%x\n" % (d, pack(c)))
        parts.append((len(c), d))
    out.append("\n/-- Points of poseidon-tests/test_vectors/preimage_pk.bin, with their numbers. -/\ndef %sPoints : List (Nat × Nat) :=\n  [%s]\n" %
               (name, ", ".join("(%d, %s)" % q for q in parts)))
out.append('''
/-- A list of packed points.  Notation for poseidon-tests/test_vectors/preimage_pk.bin. -/
def points1 (l : List (Nat × Nat)) : List (Affine Fp) := l.flatMap fun x => unpack1 x.1 x.2

/-- The same for the second group.  Notation for poseidon-tests/test_vectors/preimage_pk.bin. -/
def points2 (l : List (Nat × Nat)) : List (Affine Fp2) := l.flatMap fun x => unpack2 x.1 x.2

/-- The shipped verifying key, poseidon-tests/test_vectors/preimage_vk.param -/
def shippedVk : VerifyingKey (Affine Fp) (Affine Fp2) where
  alphaG1 := (points1 single1Points).getD 0 Affine.identity
  betaG2 := (points2 single2Points).getD 0 Affine.identity
  gammaG2 := (points2 single2Points).getD 1 Affine.identity
  deltaG2 := (points2 single2Points).getD 2 Affine.identity
  gammaAbcG1 := points1 abcPoints

/-- The shipped proving key, poseidon-tests/test_vectors/preimage_pk.bin -/
def shippedPk : ProvingKey (Affine Fp) (Affine Fp2) where
  vk := shippedVk
  betaG1 := (points1 single1Points).getD 1 Affine.identity
  deltaG1 := (points1 single1Points).getD 2 Affine.identity
  aQuery := points1 aPoints
  bG1Query := points1 b1Points
  bG2Query := points2 b2Points
  hQuery := points1 hPoints
  lQuery := points1 lPoints

end Poseidon.Groth16
''')
open("lean/Verif/Model/KeyPoints.lean", "w").write("".join(out))
