import Verif.Model.Basic

/-!
# Model of the transcript library: Keccak-f[1600], STROBE-128 and Merlin

`poseidon-paramgen` depends on the crate `merlin` (3.0.0), which is not part of /repo; it is modelled here
from its published sources and the specifications (FIPS 202, STROBE v1.0.2, Merlin v1.0).  The model is
validated by `C19`: run on the generator's inputs it yields all 1365 shipped round constants.

Bytes and words are natural numbers.  The 200-byte state of STROBE is kept as one number, the bytes in
little-endian order.
-/

namespace Poseidon

/-! ## Keccak-f[1600] -/

/-- The 25 lanes `A[x, y]` of the state (FIPS 202, 3.1).  Library code under `merlin::Transcript`, imported in transcript.rs:4. -/
abbrev Lanes := Fin 5 → Fin 5 → Nat

/-- Rotation of a 64-bit word to the left (`0 ≤ n < 64`).  Library code under `merlin::Transcript`, imported in transcript.rs:4. -/
def rotl64 (x n : Nat) : Nat := ((x <<< n) % 2 ^ 64) ||| (x >>> (64 - n))

/-- Column parities.  Library code under `merlin::Transcript`, imported in transcript.rs:4. -/
def parity (A : Lanes) (x : Fin 5) : Nat := A x 0 ^^^ A x 1 ^^^ A x 2 ^^^ A x 3 ^^^ A x 4

/-- θ (FIPS 202, 3.2.1).  Library code under `merlin::Transcript`, imported in transcript.rs:4. -/
def theta (A : Lanes) : Lanes := fun x y => A x y ^^^ (parity A (x - 1) ^^^ rotl64 (parity A (x + 1)) 1)

/-- Offsets of ρ (FIPS 202, 3.2.2, table 2), by `x` then `y`.  Library code under `merlin::Transcript`, imported in transcript.rs:4. -/
def rhoOffset : Fin 5 → Fin 5 → Nat
  | 0 => fun | 0 => 0  | 1 => 36 | 2 => 3  | 3 => 41 | 4 => 18
  | 1 => fun | 0 => 1  | 1 => 44 | 2 => 10 | 3 => 45 | 4 => 2
  | 2 => fun | 0 => 62 | 1 => 6  | 2 => 43 | 3 => 15 | 4 => 61
  | 3 => fun | 0 => 28 | 1 => 55 | 2 => 25 | 3 => 21 | 4 => 56
  | 4 => fun | 0 => 27 | 1 => 20 | 2 => 39 | 3 => 8  | 4 => 14

/-- ρ (FIPS 202, 3.2.2).  Library code under `merlin::Transcript`, imported in transcript.rs:4. -/
def rho (A : Lanes) : Lanes := fun x y => rotl64 (A x y) (rhoOffset x y)

/-- π (FIPS 202, 3.2.3).  Library code under `merlin::Transcript`, imported in transcript.rs:4. -/
def piStep (A : Lanes) : Lanes := fun x y => A (x + 3 * y) x

/-- χ (FIPS 202, 3.2.4).  Library code under `merlin::Transcript`, imported in transcript.rs:4. -/
def chi (A : Lanes) : Lanes := fun x y => A x y ^^^ (((2 ^ 64 - 1) ^^^ A (x + 1) y) &&& A (x + 2) y)

/-- ι (FIPS 202, 3.2.5).  Library code under `merlin::Transcript`, imported in transcript.rs:4. -/
def iota (rc : Nat) (A : Lanes) : Lanes := fun x y => if x = 0 ∧ y = 0 then A x y ^^^ rc else A x y

/-- The round constants of ι.  Library code under `merlin::Transcript`, imported in transcript.rs:4. -/
def keccakRC : List Nat := [
  0x0000000000000001, 0x0000000000008082, 0x800000000000808A, 0x8000000080008000,
  0x000000000000808B, 0x0000000080000001, 0x8000000080008081, 0x8000000000008009,
  0x000000000000008A, 0x0000000000000088, 0x0000000080008009, 0x000000008000000A,
  0x000000008000808B, 0x800000000000008B, 0x8000000000008089, 0x8000000000008003,
  0x8000000000008002, 0x8000000000000080, 0x000000000000800A, 0x800000008000000A,
  0x8000000080008081, 0x8000000000008080, 0x0000000080000001, 0x8000000080008008]

/-- One round (FIPS 202, 3.3).  Library code under `merlin::Transcript`, imported in transcript.rs:4. -/
def keccakRound (A : Lanes) (rc : Nat) : Lanes := iota rc (chi (piStep (rho (theta A))))

/-- The permutation on lanes.  Library code under `merlin::Transcript`, imported in transcript.rs:4. -/
def keccakLanes (A : Lanes) : Lanes := keccakRC.foldl keccakRound A

/-- The lanes of a state of 200 bytes: lane `(x, y)` is the word `x + 5 y`.
Library code under `merlin::Transcript`, imported in transcript.rs:4. -/
def unpackLanes (st : Nat) : Lanes := fun x y => (st >>> (64 * (x.val + 5 * y.val))) % 2 ^ 64

/-- The state with the given lanes.  Library code under `merlin::Transcript`, imported in transcript.rs:4. -/
def packLanes (A : Lanes) : Nat :=
  [0, 1, 2, 3, 4].foldr (fun y acc =>
    [0, 1, 2, 3, 4].foldr (fun x acc => A x y + 2 ^ 64 * acc) acc) 0

/-- `keccak::f1600`.  Library code under `merlin::Transcript`, imported in transcript.rs:4. -/
def keccakF1600 (st : Nat) : Nat := packLanes (keccakLanes (unpackLanes st))

/-! ## STROBE-128 (merlin/src/strobe.rs) -/

/-- `STROBE_R`.  Library code under `merlin::Transcript`, imported in transcript.rs:4. -/
def strobeR : Nat := 166

/-- `Strobe128`.  Library code under `merlin::Transcript`, imported in transcript.rs:4. -/
structure Strobe where
  state : Nat
  pos : Nat
  posBegin : Nat
  curFlags : Nat
  deriving DecidableEq, Repr

/-- `FLAG_I`.  Library code under `merlin::Transcript`, imported in transcript.rs:4. -/
def flagI : Nat := 1
/-- `FLAG_A`.  Library code under `merlin::Transcript`, imported in transcript.rs:4. -/
def flagA : Nat := 2
/-- `FLAG_C`.  Library code under `merlin::Transcript`, imported in transcript.rs:4. -/
def flagC : Nat := 4
/-- `FLAG_T`.  Library code under `merlin::Transcript`, imported in transcript.rs:4. -/
def flagT : Nat := 8
/-- `FLAG_M`.  Library code under `merlin::Transcript`, imported in transcript.rs:4. -/
def flagM : Nat := 16
/-- `FLAG_K`.  Library code under `merlin::Transcript`, imported in transcript.rs:4. -/
def flagK : Nat := 32

/-- `state[i] ^= b`.  Library code under `merlin::Transcript`, imported in transcript.rs:4. -/
def xorByte (st i b : Nat) : Nat := st ^^^ (b <<< (8 * i))

/-- `state[i]`.  Library code under `merlin::Transcript`, imported in transcript.rs:4. -/
def getByte (st i : Nat) : Nat := (st >>> (8 * i)) % 256

/-- `run_f`.  Library code under `merlin::Transcript`, imported in transcript.rs:4. -/
def Strobe.runF (s : Strobe) : Strobe :=
  let st := xorByte s.state s.pos s.posBegin
  let st := xorByte st (s.pos + 1) 0x04
  let st := xorByte st (strobeR + 1) 0x80
  { s with state := keccakF1600 st, pos := 0, posBegin := 0 }

/-- The tail of the bodies of `absorb` and `squeeze`: advance, and permute at the end of the block.
Library code under `merlin::Transcript`, imported in transcript.rs:4. -/
def Strobe.advance (s : Strobe) : Strobe :=
  let s := { s with pos := s.pos + 1 }
  if s.pos = strobeR then s.runF else s

/-- `absorb`.  Library code under `merlin::Transcript`, imported in transcript.rs:4. -/
def Strobe.absorb (s : Strobe) : List Nat → Strobe
  | [] => s
  | b :: bs => ({ s with state := xorByte s.state s.pos b }.advance).absorb bs

/-- `squeeze` into a buffer of `n` bytes.  Library code under `merlin::Transcript`, imported in transcript.rs:4. -/
def Strobe.squeeze (s : Strobe) : Nat → List Nat × Strobe
  | 0 => ([], s)
  | n + 1 =>
    let b := getByte s.state s.pos
    let r := ({ s with state := xorByte s.state s.pos b }.advance).squeeze n
    (b :: r.1, r.2)

/-- `begin_op`.  Library code under `merlin::Transcript`, imported in transcript.rs:4. -/
def Strobe.beginOp (s : Strobe) (flags : Nat) (more : Bool) : R Strobe :=
  if more then
    if s.curFlags = flags then .ok s else .error .assertFailed
  else if flags &&& flagT ≠ 0 then .error .assertFailed
  else
    let oldBegin := s.posBegin
    let s := { s with posBegin := s.pos + 1, curFlags := flags }
    let s := s.absorb [oldBegin, flags]
    if flags &&& (flagC ||| flagK) ≠ 0 ∧ s.pos ≠ 0 then .ok s.runF else .ok s

/-- `meta_ad`.  Library code under `merlin::Transcript`, imported in transcript.rs:4. -/
def Strobe.metaAd (s : Strobe) (data : List Nat) (more : Bool) : R Strobe := do
  let s ← s.beginOp (flagM ||| flagA) more
  return s.absorb data

/-- `ad`.  Library code under `merlin::Transcript`, imported in transcript.rs:4. -/
def Strobe.ad (s : Strobe) (data : List Nat) (more : Bool) : R Strobe := do
  let s ← s.beginOp flagA more
  return s.absorb data

/-- `prf`.  Library code under `merlin::Transcript`, imported in transcript.rs:4. -/
def Strobe.prf (s : Strobe) (n : Nat) (more : Bool) : R (List Nat × Strobe) := do
  let s ← s.beginOp (flagI ||| flagA ||| flagC) more
  return s.squeeze n

/-- The first `n` little-endian bytes of a number.  transcript.rs:26-28. -/
def leBytes : Nat → Nat → List Nat
  | 0, _ => []
  | n + 1, x => x % 256 :: leBytes n (x / 256)

/-- The number spelled by little-endian bytes.  transcript.rs:41. -/
def leValue : List Nat → Nat
  | [] => 0
  | b :: bs => b + 256 * leValue bs

/-- The bytes of a string literal.  transcript.rs:24-34. -/
def asciiBytes (s : String) : List Nat := s.toList.map Char.toNat

/-- `Strobe128::new`.  Library code under `merlin::Transcript`, imported in transcript.rs:4. -/
def Strobe.new (protocolLabel : List Nat) : R Strobe :=
  let st := leValue ([1, strobeR + 2, 1, 0, 1, 96] ++ asciiBytes "STROBEv1.0.2")
  ({ state := keccakF1600 st, pos := 0, posBegin := 0, curFlags := 0 } : Strobe).metaAd protocolLabel false

/-! ## Merlin (merlin/src/transcript.rs) -/

/-- `encode_usize_as_u32`.  Library code under `merlin::Transcript`, imported in transcript.rs:4. -/
def encodeUsizeAsU32 (x : Nat) : R (List Nat) :=
  if x < 2 ^ 32 then .ok (leBytes 4 x) else .error .assertFailed

/-- `Transcript::append_message`.  Called in transcript.rs:24-34. -/
def appendMessage (s : Strobe) (label message : List Nat) : R Strobe := do
  let dataLen ← encodeUsizeAsU32 message.length
  let s ← s.metaAd label false
  let s ← s.metaAd dataLen true
  s.ad message false

/-- `Transcript::new`.  Called in round_constants.rs:21. -/
def transcriptNew (label : List Nat) : R Strobe := do
  let s ← Strobe.new (asciiBytes "Merlin v1.0")
  appendMessage s (asciiBytes "dom-sep") label

/-- `Transcript::challenge_bytes` into a buffer of `n` bytes.  Called in transcript.rs:40. -/
def challengeBytes (s : Strobe) (label : List Nat) (n : Nat) : R (List Nat × Strobe) := do
  let dataLen ← encodeUsizeAsU32 n
  let s ← s.metaAd label false
  let s ← s.metaAd dataLen true
  s.prf n false

end Poseidon
