import Verif.Model.Field

/-!
# SHA-256

`hashlib.sha256`, the hash function of `vendor/generate_mds.sage`, from its specification (FIPS 180-4, sections 4.1.2, 5.1.1 and 6.2).
Words of 32 bits and bytes are natural numbers.  `force n f` is `f n`; it makes the kernel evaluate `n` first.
-/

namespace Poseidon.Sha256

/-- Rotation of a 32-bit word to the right, section 3.2.  Library code (`hashlib`) called in generate_mds.sage:82. -/
def rotr (x n : Nat) : Nat := (x >>> n) ||| ((x <<< (32 - n)) % 2 ^ 32)

/-- The round constants, section 4.2.2.  Library code (`hashlib`) called in generate_mds.sage:82. -/
def K : List Nat := [
  0x428a2f98, 0x71374491, 0xb5c0fbcf, 0xe9b5dba5, 0x3956c25b, 0x59f111f1, 0x923f82a4, 0xab1c5ed5,
  0xd807aa98, 0x12835b01, 0x243185be, 0x550c7dc3, 0x72be5d74, 0x80deb1fe, 0x9bdc06a7, 0xc19bf174,
  0xe49b69c1, 0xefbe4786, 0x0fc19dc6, 0x240ca1cc, 0x2de92c6f, 0x4a7484aa, 0x5cb0a9dc, 0x76f988da,
  0x983e5152, 0xa831c66d, 0xb00327c8, 0xbf597fc7, 0xc6e00bf3, 0xd5a79147, 0x06ca6351, 0x14292967,
  0x27b70a85, 0x2e1b2138, 0x4d2c6dfc, 0x53380d13, 0x650a7354, 0x766a0abb, 0x81c2c92e, 0x92722c85,
  0xa2bfe8a1, 0xa81a664b, 0xc24b8b70, 0xc76c51a3, 0xd192e819, 0xd6990624, 0xf40e3585, 0x106aa070,
  0x19a4c116, 0x1e376c08, 0x2748774c, 0x34b0bcb5, 0x391c0cb3, 0x4ed8aa4a, 0x5b9cca4f, 0x682e6ff3,
  0x748f82ee, 0x78a5636f, 0x84c87814, 0x8cc70208, 0x90befffa, 0xa4506ceb, 0xbef9a3f7, 0xc67178f2]

/-- The initial hash value, section 5.3.3.  Library code (`hashlib`) called in generate_mds.sage:82. -/
def H0 : List Nat := [
  0x6a09e667, 0xbb67ae85, 0x3c6ef372, 0xa54ff53a, 0x510e527f, 0x9b05688c, 0x1f83d9ab, 0x5be0cd19]

/-- A number from its bytes, the first the most significant.  Library code (`hashlib`) called in generate_mds.sage:82. -/
def ofBytes (l : List Nat) : Nat := l.foldl (fun a b => 256 * a + b) 0

/-- Padding, section 5.1.1: a bit 1, zeros up to 8 bytes before the end of a block of 64 bytes, the length in bits.
Library code (`hashlib`) called in generate_mds.sage:82. -/
def pad (msg : List Nat) : List Nat :=
  let len := msg.length
  msg ++ 128 :: List.replicate ((119 - len % 64) % 64) 0 ++ (List.range 8).map fun i => (8 * len) / 256 ^ (7 - i) % 256

/-- The 16 words of a block.  Library code (`hashlib`) called in generate_mds.sage:82. -/
def blockWords (block : List Nat) : List Nat := (List.range 16).map fun i => ofBytes ((block.drop (4 * i)).take 4)

/-- One word of the message schedule from the previous ones, the last first: `σ1(w[t-2]) + w[t-7] + σ0(w[t-15]) + w[t-16]`.
Library code (`hashlib`) called in generate_mds.sage:82. -/
def nextWord (ws : List Nat) : Nat :=
  force (ws.getD 1 0) fun a => force (ws.getD 14 0) fun b =>
    ((rotr a 17 ^^^ rotr a 19 ^^^ (a >>> 10)) + ws.getD 6 0 + (rotr b 7 ^^^ rotr b 18 ^^^ (b >>> 3)) + ws.getD 15 0) % 2 ^ 32

/-- The message schedule, section 6.2.2 step 1: `n` more words.  Library code (`hashlib`) called in generate_mds.sage:82. -/
def schedule : Nat → List Nat → List Nat
  | 0, ws => ws.reverse
  | n + 1, ws => force (nextWord ws) fun w => schedule n (w :: ws)

/-- The rounds, section 6.2.2 step 3.  Library code (`hashlib`) called in generate_mds.sage:82. -/
def rounds : List Nat → List Nat → Nat → Nat → Nat → Nat → Nat → Nat → Nat → Nat → List Nat
  | k :: ks, w :: ws, a, b, c, d, e, f, g, h =>
    force ((h + (rotr e 6 ^^^ rotr e 11 ^^^ rotr e 25) + ((e &&& f) ^^^ ((2 ^ 32 - 1 - e) &&& g)) + k + w) % 2 ^ 32) fun t1 =>
    force ((t1 + (rotr a 2 ^^^ rotr a 13 ^^^ rotr a 22) + ((a &&& b) ^^^ (a &&& c) ^^^ (b &&& c))) % 2 ^ 32) fun a' =>
    force ((d + t1) % 2 ^ 32) fun e' =>
    rounds ks ws a' a b c e' e f g
  | _, _, a, b, c, d, e, f, g, h => [a, b, c, d, e, f, g, h]

/-- One block, section 6.2.2.  Library code (`hashlib`) called in generate_mds.sage:82. -/
def compress (hash : List Nat) (block : List Nat) : List Nat :=
  let r := rounds K (schedule 48 (blockWords block).reverse) (hash.getD 0 0) (hash.getD 1 0) (hash.getD 2 0) (hash.getD 3 0)
    (hash.getD 4 0) (hash.getD 5 0) (hash.getD 6 0) (hash.getD 7 0)
  (List.zip hash r).map fun x => (x.1 + x.2) % 2 ^ 32

/-- The digest of a list of bytes, as the number its hexadecimal form denotes.  Library code (`hashlib`) called in generate_mds.sage:82. -/
def sha256 (msg : List Nat) : Nat :=
  let padded := pad msg
  let digest := (List.range (padded.length / 64)).foldl (fun hash i => compress hash ((padded.drop (64 * i)).take 64)) H0
  digest.foldl (fun a w => 2 ^ 32 * a + w) 0

end Poseidon.Sha256
