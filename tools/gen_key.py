#!/usr/bin/env python3
"""Generate lean/Verif/Model/KeyShape.lean from the keys shipped in /repo (see check_key.py for the format)."""
import struct, sys

REPO = sys.argv[1] if len(sys.argv) > 1 else "/repo"
DIR = REPO + "/poseidon-tests/test_vectors/"
data = open(DIR + "preimage_pk.bin", "rb").read()
vk = open(DIR + "preimage_vk.param", "rb").read()
pos = 0


def take(n):
    global pos
    pos += n
    return data[pos - n:pos]


def vec(size):
    return [take(size) for _ in range(struct.unpack("<Q", take(8))[0])]


take(96 + 3 * 192)
gamma_abc = vec(96)
assert data[:pos] == vk
take(2 * 96)
a, b, b2, h, l = vec(96), vec(96), vec(192), vec(96), vec(96)
assert pos == len(data)


def mask(bits):
    return "0x%x" % sum(1 << i for i, x in enumerate(bits) if x)


def infinity(points):
    return mask(p[-1] & 0x40 for p in points)


with open("lean/Verif/Model/KeyShape.lean", "w") as f:
    f.write('''/-!
# What can be read off the proving key shipped with the tests

Generated by tools/gen_key.py from poseidon-tests/test_vectors/preimage_pk.bin and preimage_vk.param.  The points of the key are
multiples of the generators by secret numbers; what can be read off are the numbers of points, which points are the point at
infinity, and which points are equal.
-/

namespace Poseidon.Groth16

/-- Shape of a key; the sets of columns are written in binary, column `j` is bit `j`. -/
structure KeyShape where
  gammaAbcG1 : Nat
  aQuery : Nat
  bG1Query : Nat
  bG2Query : Nat
  hQuery : Nat
  lQuery : Nat
  /-- columns with the point at infinity in `a_query` -/
  aZero : Nat
  /-- columns with the point at infinity in `b_g1_query` -/
  bG1Zero : Nat
  /-- columns with the point at infinity in `b_g2_query` -/
  bG2Zero : Nat
  /-- columns with the same point in `a_query` and `b_g1_query` -/
  same : Nat

/-- The shipped key: poseidon-tests/test_vectors/preimage_pk.bin, read by poseidon-tests/tests/poseidon377_r1cs.rs:27-31, and
preimage_vk.param (its beginning), lines 33-37 -/
def shippedKey : KeyShape where
  gammaAbcG1 := %d
  aQuery := %d
  bG1Query := %d
  bG2Query := %d
  hQuery := %d
  lQuery := %d
  aZero := %s
  bG1Zero := %s
  bG2Zero := %s
  same := %s

end Poseidon.Groth16
''' % (len(gamma_abc), len(a), len(b), len(b2), len(h), len(l), infinity(a), infinity(b), infinity(b2),
       mask(x == y for x, y in zip(a, b))))
