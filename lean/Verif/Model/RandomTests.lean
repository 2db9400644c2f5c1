import Verif.Model.Hash
import Verif.Model.KeyFile

/-!
# The tests on random inputs

The bodies of the two `proptest!` blocks of poseidon-consistency/src/lib.rs and poseidon-tests/tests/parameters.rs.  (Those of
poseidon377_r1cs.rs are in `Model/Preimage.lean` and `Model/Groth16.lean`.)  A test passes if it returns.
-/

namespace Poseidon

/-- `Fq::from_le_bytes_mod_order`: the number with these bytes, reduced.  Library function under poseidon-consistency/src/lib.rs:70 and
poseidon-tests/tests/parameters.rs:140. -/
def fromLeBytesModOrder (bytes : List UInt8) : Fq := (Groth16.leNat bytes : Nat)

/-- `assert_eq!`, poseidon-consistency/src/lib.rs:86 and poseidon-tests/tests/parameters.rs:150 -/
def assertEq {α : Type _} [DecidableEq α] (x y : α) : R Unit := if x = y then .ok () else .error .assertFailed

/-- `fq_strategy`, applied to the random bytes: poseidon-consistency/src/lib.rs:68-72 (32 bytes) and
poseidon-tests/tests/parameters.rs:138-142 (16 bytes) -/
def fqStrategy {n : Nat} (bytes : Vector UInt8 n) : Fq := fromLeBytesModOrder bytes.toList

/-- `optimized_and_unoptimized_permutation_consistent`, poseidon-consistency/src/lib.rs:76-87 -/
def consistentTest (b1 b2 b3 b4 b5 : Vector UInt8 32) : R Unit := do
  let elem1 := fqStrategy b1
  let elem2 := fqStrategy b2
  let elem3 := fqStrategy b3
  let elem4 := fqStrategy b4
  let elem5 := fqStrategy b5
  let (ourResult, _) ← (Instance.new rate4Params).nTo1FixedHash #v[elem1, elem2, elem3, elem4, elem5]
  let (unoptimizedResult, _) ← (Instance.new rate4Params).unoptimizedNTo1FixedHash #v[elem1, elem2, elem3, elem4, elem5]
  assertEq unoptimizedResult ourResult

/-- `Result::unwrap`, poseidon-tests/tests/parameters.rs:149 -/
def unwrap {α : Type _} : Except ParamError α → R α
  | .ok x => .ok x
  | .error _ => .error .unwrapNone

/-- `inverse_2x2`, poseidon-tests/tests/parameters.rs:146-151.  `debug`: with debug assertions. -/
def inverseTest (debug : Bool) (b1 b2 b3 b4 : Vector UInt8 16) : R Unit := do
  let a := fqStrategy b1
  let b := fqStrategy b2
  let c := fqStrategy b3
  let d := fqStrategy b4
  let matrix ← Mat.new 2 2 4 [a, b, c, d]
  let res ← matrix.inverse debug
  let res ← unwrap res
  let product ← matMul 4 matrix res
  let identity ← Mat.identity Fq 2 4
  assertEq product identity

end Poseidon
