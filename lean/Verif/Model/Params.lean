import Verif.Model.Matrix

/-!
# Model of the parameter structures (`poseidon-parameters/src/{alpha,round_numbers,mds_matrix,v1}.rs`)
-/

namespace Poseidon

/-- `Alpha`, alpha.rs:3-9.  The `u32` payload is kept as a `Nat`; statements about bytes bound it. -/
inductive Alpha where
  | exponent (e : Nat)
  | inverse
  deriving DecidableEq, Repr

/-- The four little-endian bytes of a `u32` (`u32::to_le_bytes`).  alpha.rs:14. -/
def u32le (x : Nat) : List Nat := [x % 256, x / 256 % 256, x / 65536 % 256, x / 16777216 % 256]

/-- `Alpha::to_bytes_le`, alpha.rs:12-17; `(-1i32).to_le_bytes()` is four bytes 255. -/
def Alpha.toBytesLe : Alpha → List Nat
  | .exponent e => u32le e
  | .inverse => [255, 255, 255, 255]

/-- `RoundNumbers`, round_numbers.rs:1-9 -/
structure RoundNumbers where
  rP : Nat
  rF : Nat
  deriving DecidableEq, Repr

/-- `RoundNumbers::full`, round_numbers.rs:12-14. -/
def RoundNumbers.full (x : RoundNumbers) : Nat := x.rF
/-- `RoundNumbers::partial`, round_numbers.rs:22-24. -/
def RoundNumbers.partialRounds (x : RoundNumbers) : Nat := x.rP
/-- `RoundNumbers::total`, round_numbers.rs:32-34. -/
def RoundNumbers.total (x : RoundNumbers) : Nat := x.rP + x.rF

section MdsMatrix
variable {F : Type _} [Field F] [DecidableEq F]

/-- `<MdsMatrix as MatrixOperations>::new`, mds_matrix.rs:25-30 (`t`, `tm1`, `n`, `nhat` are the const
generics) -/
def mdsNew (t tm1 n nhat : Nat) (elements : List F) : R (Mat F t t n) :=
  if t ≠ tm1 + 1 then .error .assertFailed
  else if t * t ≠ n then .error .assertFailed
  else if tm1 * tm1 ≠ nhat then .error .assertFailed
  else Mat.new t t n elements

/-- `MdsMatrix::from_elements`, mds_matrix.rs:75-77 -/
def mdsFromElements (t n : Nat) (elements : List F) : R (Mat F t t n) := Mat.new t t n elements

/-- `MdsMatrix::inverse`, mds_matrix.rs:84-88 -/
def mdsInverse (debug : Bool) {t n : Nat} (m : Mat F t t n) : R (Mat F t t n) := do
  match ← m.inverse debug with
  | .ok x => return x
  | .error _ => .error .unwrapNone

/-- `MdsMatrix::v`, mds_matrix.rs:93-96.  The slice `elements()[1..n_rows]` panics if `n_rows` is `0` or
exceeds the number of elements. -/
def mdsV {t n : Nat} (tm1 : Nat) (m : Mat F t t n) : R (Mat F 1 tm1 tm1) :=
  if 1 ≤ t ∧ t ≤ n then Mat.new 1 tm1 tm1 ((m.elements.toList.take t).drop 1)
  else .error .indexOOB

/-- `MdsMatrix::w`, mds_matrix.rs:101-107 -/
def mdsW {t n : Nat} (tm1 : Nat) (m : Mat F t t n) : R (Mat F tm1 1 tm1) := do
  let els ← forRange 1 t (Vector.replicate tm1 (0 : F)) fun i els => do
    let x ← m.get i 0
    aset els (i - 1) x
  Mat.new tm1 1 tm1 els.toList

/-- `MdsMatrix::hat`, mds_matrix.rs:114-125 -/
def mdsHat {t n : Nat} (tm1 nhat : Nat) (m : Mat F t t n) : R (Mat F tm1 tm1 nhat) := do
  let (els, _) ← forRange 1 t (Vector.replicate nhat (0 : F), 0) fun i s =>
    forRange 1 t s fun j (els, index) => do
      let x ← m.get i j
      let els ← aset els index x
      return (els, index + 1)
  Mat.new tm1 tm1 nhat els.toList

end MdsMatrix

/-- `OptimizedMdsMatrices`, mds_matrix.rs:141-172 (`N_ROUNDS` is a phantom const generic) -/
structure OptimizedMds (F : Type _) (npart t tm1 nmds nhat : Nat) where
  mHat : Mat F tm1 tm1 nhat
  v : Mat F 1 tm1 tm1
  w : Mat F tm1 1 tm1
  mPrime : Mat F t t nmds
  mDoublePrime : Mat F t t nmds
  mInverse : Mat F t t nmds
  mHatInverse : Mat F tm1 tm1 nhat
  m00 : F
  mI : Mat F t t nmds
  vCollection : Vector (Mat F 1 tm1 tm1) npart
  wHatCollection : Vector (Mat F tm1 1 tm1) npart

/-- `v1::PoseidonParameters`, v1.rs:15-59; the eight const generics are kept independent as in Rust. -/
structure Params (F : Type _) (t tm1 nmds nhat rows cols nround npart : Nat) where
  /-- `M`, the security level (renamed to avoid a clash) -/
  security : Nat
  alpha : Alpha
  rounds : RoundNumbers
  mds : Mat F t t nmds
  arc : Mat F rows cols nround
  optimizedArc : Mat F rows cols nround
  optimizedMds : OptimizedMds F npart t tm1 nmds nhat

end Poseidon
