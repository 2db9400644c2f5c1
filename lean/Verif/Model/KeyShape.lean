/-!
# What can be read off the proving key shipped with the tests

Generated by tools/gen_key.py from poseidon-tests/test_vectors/preimage_pk.bin and preimage_vk.param.  The points of the key are
multiples of the generators by secret numbers; what can be read off are the numbers of points, which points are the point at
infinity, and which points are equal.
-/

namespace Poseidon.Groth16

/-- Shape of a key; the sets of columns are written in binary, column `j` is bit `j`. -/
structure KeyShape where
  gammaAbcG1 : Nat
  aQuery : Nat
  bG1Query : Nat
  bG2Query : Nat
  hQuery : Nat
  lQuery : Nat
  /-- columns with the point at infinity in `a_query` -/
  aZero : Nat
  /-- columns with the point at infinity in `b_g1_query` -/
  bG1Zero : Nat
  /-- columns with the point at infinity in `b_g2_query` -/
  bG2Zero : Nat
  /-- columns with the same point in `a_query` and `b_g1_query` -/
  same : Nat

/-- The shipped key: poseidon-tests/test_vectors/preimage_pk.bin, read by poseidon-tests/tests/poseidon377_r1cs.rs:27-31, and
preimage_vk.param (its beginning), lines 33-37 -/
def shippedKey : KeyShape where
  gammaAbcG1 := 8
  aQuery := 2465
  bG1Query := 2465
  bG2Query := 2465
  hQuery := 4095
  lQuery := 2457
  aZero := 0x0
  bG1Zero := 0x18c6318c630842108421084210842108421084210842108421084210842108421084210842108421084210842108421084210842108421084210846318c63184210842108421084210842108421084210842108421084210842108421084210842108421084210842108421084210842118c6318c2108421084210842108421084210842108421084210842108421084210842108421084210842108421084210846318c610842108421084210842108421084210842108421084210842108421084210842108421084210842118c630842108421084210842108421084210842108421084210842108421084210842108421084631842108421084210842108421084210842108421084210842108421084210842118c210842108421084210842108421084210842108421084210842108400fe
  bG2Zero := 0x18c6318c630842108421084210842108421084210842108421084210842108421084210842108421084210842108421084210842108421084210846318c63184210842108421084210842108421084210842108421084210842108421084210842108421084210842108421084210842118c6318c2108421084210842108421084210842108421084210842108421084210842108421084210842108421084210846318c610842108421084210842108421084210842108421084210842108421084210842108421084210842118c630842108421084210842108421084210842108421084210842108421084210842108421084631842108421084210842108421084210842108421084210842108421084210842118c210842108421084210842108421084210842108421084210842108400fe
  same := 0x739ce739ce739ce739ce739ce739ce739ce739ce739ce739ce739ce739ce739ce739ce739ce739ce739ce739ce739ce739ce739ce739ce739ce739ce739ce739ce739ce739ce739ce739ce739ce739ce739ce739ce739ce739ce739ce739ce739ce739ce739ce739ce739ce739ce739ce739ce739ce739ce739ce739ce739ce739ce739ce739ce739ce739ce739ce739ce739ce739ce739ce739ce739ce739ce739ce739ce739ce739ce739ce739ce739ce739ce739ce739ce739ce739ce739ce739ce739ce739ce739ce739ce739ce739ce739ce739ce739ce739ce739ce739ce739ce739ce739ce739ce739ce739ce739ce739ce739ce739ce739ce739ce739ce739ce739ce739ce739ce739ce739ce739ce739ce739ce739ce739ce739ce739ce739ce739ce739ce739ce739ce739ce738000

end Poseidon.Groth16
