import Verif.Model.Groth16

/-!
# Files with keys

`write_params` and `generate_test_vectors` (poseidon-tests/tests/poseidon377_r1cs.rs:247-274) write the two keys with
`serialize_uncompressed`, `PREIMAGE_PK` and `PREIMAGE_VK` (lines 27-37) read them with `deserialize_uncompressed`.  The formats are those of
`ark-serialize` 0.4 and `ark-ec` 0.4 (points in short Weierstrass form), written from the published source, from memory, and compared
with all points of the shipped files by tools/gen_keypoints.py, which reads and writes both of them.  The library checks that the points it reads are on the curve and in the
subgroup of prime order; the second test is a parameter of the model (`subgroup`), so the theorems hold for every such test.
-/

namespace Poseidon.Groth16

/-- The modulus of the base field of BLS12-377.  Library constant under poseidon377_r1cs.rs:27. -/
def basePrime : Nat :=
  258664426012969094010652733694893533536393512754914660539884262666720468348340822774968888139573360124440321458177

instance : NeZero basePrime := ⟨by decide⟩

/-- Base field of BLS12-377: `ark_bls12_377::Fq`.  Library type under poseidon377_r1cs.rs:27. -/
abbrev Fp := ZMod basePrime

/-- `ark_bls12_377::Fq2`, `c0 + c1 u` with `u^2 = -5`.  Library type under poseidon377_r1cs.rs:27. -/
structure Fp2 where
  c0 : Fp
  c1 : Fp
deriving DecidableEq

/-- Errors of `ark-serialize`: `SerializationError`.  Library type under poseidon377_r1cs.rs:29. -/
inductive SerError where
  /-- the file is too short -/
  | ioError
  /-- a number that is not below the modulus, or a point that fails the tests -/
  | invalidData
  /-- both flags are set -/
  | unexpectedFlags
deriving DecidableEq

/-- A reader: what it returns and the rest of the file.  `impl Read` under poseidon377_r1cs.rs:29. -/
abbrev Reader (α : Type) := List UInt8 → Except SerError (α × List UInt8)

/-- Sequencing with `?`.  Library code under poseidon377_r1cs.rs:29. -/
def Reader.bind {α β : Type} (r : Reader α) (f : α → Reader β) : Reader β := fun s => match r s with
  | .error e => .error e
  | .ok (x, s) => f x s

/-- `Ok(x)`.  Library code under poseidon377_r1cs.rs:29. -/
def Reader.pure {α : Type} (x : α) : Reader α := fun s => .ok (x, s)

/-- `Err(e)`.  Library code under poseidon377_r1cs.rs:29. -/
def Reader.fail {α : Type} (e : SerError) : Reader α := fun _ => .error e

/-- `do` notation stands for the two above. -/
instance : Monad Reader where
  pure := Reader.pure
  bind := Reader.bind

/-- `read_exact` into a buffer of `n` bytes.  Library code under poseidon377_r1cs.rs:29. -/
def readExact : Nat → Reader (List UInt8)
  | 0 => Reader.pure []
  | n + 1 => fun s => match s with
    | [] => .error .ioError
    | b :: s => ((readExact n).bind fun l => Reader.pure (b :: l)) s

/-- The number with these bytes, least significant first.  Library code under poseidon377_r1cs.rs:29. -/
def leNat : List UInt8 → Nat
  | [] => 0
  | b :: l => b.toNat + 256 * leNat l

/-- The `n` bytes of a number, least significant first.  Library code under poseidon377_r1cs.rs:262. -/
def leBytes : Nat → Nat → List UInt8
  | 0, _ => []
  | n + 1, x => UInt8.ofNat (x % 256) :: leBytes n (x / 256)

/-! ## Flags -/

/-- `SWFlags`.  Library type under poseidon377_r1cs.rs:262. -/
inductive SWFlags where
  | yIsPositive
  | pointAtInfinity
  | yIsNegative
deriving DecidableEq

/-- `SWFlags::u8_bitmask`.  Library code under poseidon377_r1cs.rs:262. -/
def SWFlags.mask : SWFlags → UInt8
  | .yIsPositive => 0
  | .pointAtInfinity => 0x40
  | .yIsNegative => 0x80

/-- `SWFlags::from_u8`.  Library code under poseidon377_r1cs.rs:29. -/
def SWFlags.fromU8 (b : UInt8) : Option SWFlags :=
  match b >>> 7 &&& 1 == 1, b >>> 6 &&& 1 == 1 with
  | true, true => none
  | false, true => some .pointAtInfinity
  | true, false => some .yIsNegative
  | false, false => some .yIsPositive

/-! ## Field elements -/

/-- The coordinates of points: what the code of the library for points needs.  Library traits under poseidon377_r1cs.rs:27. -/
class Coordinate (F : Type) where
  zero : F
  add : F → F → F
  mul : F → F → F
  neg : F → F
  /-- `<=` -/
  le : F → F → Bool
  /-- `serialize_with_mode` -/
  write : F → List UInt8
  /-- `serialize_with_flags` -/
  writeFlags : F → SWFlags → List UInt8
  /-- `deserialize_with_mode` -/
  read : Reader F
  /-- `deserialize_with_flags` -/
  readFlags : Reader (F × SWFlags)

/-- Bytes of an element of `Fp`: 377 bits and at most 2 flags.  Library constant under poseidon377_r1cs.rs:262. -/
def fpBytes : Nat := 48

/-- `Fp::serialize_with_flags` with `EmptyFlags`.  Library code under poseidon377_r1cs.rs:262. -/
def writeFp (x : Fp) : List UInt8 := leBytes fpBytes x.val

/-- The flags go to the last byte.  Library code under poseidon377_r1cs.rs:262. -/
def orLast (m : UInt8) : List UInt8 → List UInt8
  | [] => []
  | [b] => [b ||| m]
  | b :: c :: l => b :: orLast m (c :: l)

/-- `Fp::serialize_with_flags`.  Library code under poseidon377_r1cs.rs:262. -/
def writeFpFlags (x : Fp) (f : SWFlags) : List UInt8 := orLast f.mask (writeFp x)

/-- `Fp::from_bigint`: only numbers below the modulus.  Library code under poseidon377_r1cs.rs:29. -/
def fromBigint (n : Nat) : Reader Fp := if n < basePrime then Reader.pure n else Reader.fail .invalidData

/-- `Fp::deserialize_with_flags` with `EmptyFlags`.  Library code under poseidon377_r1cs.rs:29. -/
def readFp : Reader Fp := do
  let l ← readExact fpBytes
  fromBigint (leNat l)

/-- The last byte without the flag.  Library code under poseidon377_r1cs.rs:29. -/
def clearLast (m : UInt8) : List UInt8 → List UInt8
  | [] => []
  | [b] => [b &&& ~~~m]
  | b :: c :: l => b :: clearLast m (c :: l)

/-- `Fp::deserialize_with_flags`.  Library code under poseidon377_r1cs.rs:29. -/
def readFpFlags : Reader (Fp × SWFlags) := do
  let l ← readExact fpBytes
  match SWFlags.fromU8 (l.getLastD 0) with
  | none => Reader.fail .unexpectedFlags
  | some f => do
    let x ← fromBigint (leNat (clearLast f.mask l))
    Reader.pure (x, f)

/-- `Fp` as coordinates.  Library code under poseidon377_r1cs.rs:27. -/
instance : Coordinate Fp where
  zero := 0
  add := (· + ·)
  mul := (· * ·)
  neg := (- ·)
  le x y := x.val ≤ y.val
  write := writeFp
  writeFlags := writeFpFlags
  read := readFp
  readFlags := readFpFlags

/-- `Fp2` as coordinates: `QuadExtField`; ordered by `c1` first, written `c0` first, flags with `c1`.  Library code under
poseidon377_r1cs.rs:27. -/
instance : Coordinate Fp2 where
  zero := ⟨0, 0⟩
  add x y := ⟨x.c0 + y.c0, x.c1 + y.c1⟩
  mul x y := ⟨x.c0 * y.c0 - 5 * (x.c1 * y.c1), x.c0 * y.c1 + x.c1 * y.c0⟩
  neg x := ⟨-x.c0, -x.c1⟩
  le x y := x.c1.val < y.c1.val || x.c1.val == y.c1.val && x.c0.val ≤ y.c0.val
  write x := writeFp x.c0 ++ writeFp x.c1
  writeFlags x f := writeFp x.c0 ++ writeFpFlags x.c1 f
  read := do
    let c0 ← readFp
    let c1 ← readFp
    Reader.pure ⟨c0, c1⟩
  readFlags := do
    let c0 ← readFp
    let (c1, f) ← readFpFlags
    Reader.pure (⟨c0, c1⟩, f)

/-! ## Points -/

/-- `short_weierstrass::Affine`.  Library type under poseidon377_r1cs.rs:27. -/
structure Affine (F : Type) where
  x : F
  y : F
  infinity : Bool
deriving DecidableEq

/-- A curve `y^2 = x^3 + b` and the test for the subgroup of prime order.  Library trait `SWCurveConfig` under poseidon377_r1cs.rs:27. -/
structure Curve (F : Type) where
  b : F
  subgroup : Affine F → Bool

/-- The curve of the first group, `y^2 = x^3 + 1`, with a test for the subgroup.  Library constant under poseidon377_r1cs.rs:27. -/
def bls1 (subgroup : Affine Fp → Bool) : Curve Fp := ⟨1, subgroup⟩

/-- The second coordinate of `1 / u`: `-1 / 5`.  Library constant under poseidon377_r1cs.rs:27. -/
def twistB : Nat :=
  155198655607781456406391640216936120121836107652948796323930557600032281009004493664981332883744016074664192874906

/-- The curve of the second group, `y^2 = x^3 + 1 / u`, with a test for the subgroup.  Library constant under poseidon377_r1cs.rs:27. -/
def bls2 (subgroup : Affine Fp2 → Bool) : Curve Fp2 := ⟨⟨0, twistB⟩, subgroup⟩

/-- `Affine::identity`.  Library code under poseidon377_r1cs.rs:27. -/
def Affine.identity {F : Type} [Coordinate F] : Affine F := ⟨Coordinate.zero, Coordinate.zero, true⟩

/-- `Affine::to_flags`.  Library code under poseidon377_r1cs.rs:262. -/
def Affine.toFlags {F : Type} [Coordinate F] (P : Affine F) : SWFlags :=
  if P.infinity then .pointAtInfinity else if Coordinate.le P.y (Coordinate.neg P.y) then .yIsPositive else .yIsNegative

/-- `Affine::is_on_curve`.  Library code under poseidon377_r1cs.rs:29. -/
def Affine.isOnCurve {F : Type} [Coordinate F] [DecidableEq F] (E : Curve F) (P : Affine F) : Bool :=
  if !P.infinity then Coordinate.mul P.y P.y = Coordinate.add (Coordinate.mul (Coordinate.mul P.x P.x) P.x) E.b else true

/-- `Valid::check` for points.  Library code under poseidon377_r1cs.rs:29. -/
def Affine.check {F : Type} [Coordinate F] [DecidableEq F] (E : Curve F) (P : Affine F) : Bool := P.isOnCurve E && E.subgroup P

/-- `SWCurveConfig::serialize_with_mode` with `Compress::No`.  Library code under poseidon377_r1cs.rs:262. -/
def writePoint {F : Type} [Coordinate F] (P : Affine F) : List UInt8 :=
  if P.infinity then Coordinate.write (Coordinate.zero : F) ++ Coordinate.writeFlags (Coordinate.zero : F) .pointAtInfinity
  else Coordinate.write P.x ++ Coordinate.writeFlags P.y P.toFlags

/-- `SWCurveConfig::deserialize_with_mode` with `Compress::No` and `Validate::Yes`.  Library code under poseidon377_r1cs.rs:29. -/
def readPoint {F : Type} [Coordinate F] [DecidableEq F] (E : Curve F) : Reader (Affine F) := do
  let x ← (Coordinate.read : Reader F)
  let (y, f) ← (Coordinate.readFlags : Reader (F × SWFlags))
  if f = .pointAtInfinity then Reader.pure Affine.identity
  else
    let P : Affine F := ⟨x, y, false⟩
    if P.check E then Reader.pure P else Reader.fail .invalidData

/-- `Vec<T>::serialize_with_mode`.  Library code under poseidon377_r1cs.rs:262. -/
def writeVec {α : Type} (write : α → List UInt8) (l : List α) : List UInt8 := leBytes 8 l.length ++ l.flatMap write

/-- The loop of `Vec<T>::deserialize_with_mode`.  Library code under poseidon377_r1cs.rs:29. -/
def readMany {α : Type} (read : Reader α) : Nat → Reader (List α)
  | 0 => Reader.pure []
  | n + 1 => do
    let x ← read
    let l ← readMany read n
    Reader.pure (x :: l)

/-- `Vec<T>::deserialize_with_mode`.  Simplified: the points are tested as they are read, not all at the end; which files are
refused is the same.  Library code under poseidon377_r1cs.rs:29. -/
def readVec {α : Type} (read : Reader α) : Reader (List α) := do
  let l ← readExact 8
  readMany read (leNat l)

/-! ## Keys -/

/-- `VerifyingKey::serialize_uncompressed`, poseidon-tests/tests/poseidon377_r1cs.rs:263 -/
def writeVk (vk : VerifyingKey (Affine Fp) (Affine Fp2)) : List UInt8 :=
  writePoint vk.alphaG1 ++ writePoint vk.betaG2 ++ writePoint vk.gammaG2 ++ writePoint vk.deltaG2 ++ writeVec writePoint vk.gammaAbcG1

/-- `ProvingKey::serialize_uncompressed`, poseidon-tests/tests/poseidon377_r1cs.rs:262 -/
def writePk (pk : ProvingKey (Affine Fp) (Affine Fp2)) : List UInt8 :=
  writeVk pk.vk ++ writePoint pk.betaG1 ++ writePoint pk.deltaG1 ++ writeVec writePoint pk.aQuery ++ writeVec writePoint pk.bG1Query ++
    writeVec writePoint pk.bG2Query ++ writeVec writePoint pk.hQuery ++ writeVec writePoint pk.lQuery

/-- `VerifyingKey::deserialize_with_mode`, under poseidon-tests/tests/poseidon377_r1cs.rs:35 -/
def readVk (E1 : Curve Fp) (E2 : Curve Fp2) : Reader (VerifyingKey (Affine Fp) (Affine Fp2)) := do
  let alphaG1 ← readPoint E1
  let betaG2 ← readPoint E2
  let gammaG2 ← readPoint E2
  let deltaG2 ← readPoint E2
  let gammaAbcG1 ← readVec (readPoint E1)
  Reader.pure ⟨alphaG1, betaG2, gammaG2, deltaG2, gammaAbcG1⟩

/-- `ProvingKey::deserialize_with_mode`, under poseidon-tests/tests/poseidon377_r1cs.rs:29 -/
def readPk (E1 : Curve Fp) (E2 : Curve Fp2) : Reader (ProvingKey (Affine Fp) (Affine Fp2)) := do
  let vk ← readVk E1 E2
  let betaG1 ← readPoint E1
  let deltaG1 ← readPoint E1
  let aQuery ← readVec (readPoint E1)
  let bG1Query ← readVec (readPoint E1)
  let bG2Query ← readVec (readPoint E2)
  let hQuery ← readVec (readPoint E1)
  let lQuery ← readVec (readPoint E1)
  Reader.pure ⟨vk, betaG1, deltaG1, aQuery, bG1Query, bG2Query, hQuery, lQuery⟩

/-- `.expect(..)` on the result of `deserialize_uncompressed`; bytes that are left over are not an error,
poseidon-tests/tests/poseidon377_r1cs.rs:29-30 and 35-36 -/
def parse {α : Type} (read : Reader α) (file : List UInt8) : R α := match read file with
  | .ok (x, _) => .ok x
  | .error _ => .error .unwrapNone

/-- `PREIMAGE_PK`, poseidon-tests/tests/poseidon377_r1cs.rs:27-31 -/
def preimagePk (E1 : Curve Fp) (E2 : Curve Fp2) (file : List UInt8) : R (ProvingKey (Affine Fp) (Affine Fp2)) := parse (readPk E1 E2) file

/-- `PREIMAGE_VK`, poseidon-tests/tests/poseidon377_r1cs.rs:33-37 -/
def preimageVk (E1 : Curve Fp) (E2 : Curve Fp2) (file : List UInt8) : R (VerifyingKey (Affine Fp) (Affine Fp2)) := parse (readVk E1 E2) file

/-- A verifying key of other groups, in coordinates: the points of the keys are kept as `Affine`, poseidon377_r1cs.rs:161-170 -/
def VerifyingKey.map {G1 G2 H1 H2 : Type} (f : G1 → H1) (g : G2 → H2) (vk : VerifyingKey G1 G2) : VerifyingKey H1 H2 where
  alphaG1 := f vk.alphaG1
  betaG2 := g vk.betaG2
  gammaG2 := g vk.gammaG2
  deltaG2 := g vk.deltaG2
  gammaAbcG1 := vk.gammaAbcG1.map f

/-- The same for a proving key, poseidon377_r1cs.rs:161-170 -/
def ProvingKey.map {G1 G2 H1 H2 : Type} (f : G1 → H1) (g : G2 → H2) (pk : ProvingKey G1 G2) : ProvingKey H1 H2 where
  vk := pk.vk.map f g
  betaG1 := f pk.betaG1
  deltaG1 := f pk.deltaG1
  aQuery := pk.aQuery.map f
  bG1Query := pk.bG1Query.map f
  bG2Query := pk.bG2Query.map g
  hQuery := pk.hQuery.map f
  lQuery := pk.lQuery.map f

/-- `write_params`: the contents of the two files.  Simplified: no errors of the file system.
poseidon-tests/tests/poseidon377_r1cs.rs:247-266 -/
def writeParams (pk : ProvingKey (Affine Fp) (Affine Fp2)) (vk : VerifyingKey (Affine Fp) (Affine Fp2)) : List UInt8 × List UInt8 :=
  (writePk pk, writeVk vk)

end Poseidon.Groth16
