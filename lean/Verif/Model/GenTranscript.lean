import Verif.Model.Merlin
import Verif.Model.GenMds

/-!
# Model of the parameter generator: round constants

`poseidon-paramgen/src/transcript.rs` and the generating half of `poseidon-paramgen/src/round_constants.rs`.
`usize` has 64 bits; `nlimbs` is the number of 64-bit limbs of `F::BigInt`.
-/

namespace Poseidon

/-- The messages of `domain_sep`, transcript.rs:24-34, as pairs of label and message. -/
def domainSepMessages (nlimbs : Nat) (input : GenInput) (rounds : RoundNumbers) (alpha : Alpha) :
    List (List Nat × List Nat) := [
  (asciiBytes "dom-sep", asciiBytes "poseidon-paramgen"),
  (asciiBytes "t", leBytes 8 input.t),
  (asciiBytes "M", leBytes 8 input.security),
  (asciiBytes "p", leBytes (8 * nlimbs) input.p),
  (asciiBytes "r_F", [rounds.full % 256]),
  (asciiBytes "r_P", [rounds.partialRounds % 256]),
  (asciiBytes "alpha", alpha.toBytesLe)]

/-- `domain_sep`, transcript.rs:18-35 -/
def domainSep (nlimbs : Nat) (input : GenInput) (rounds : RoundNumbers) (alpha : Alpha) (s : Strobe) : R Strobe :=
  forList (domainSepMessages nlimbs input rounds alpha) s fun m s => appendMessage s m.1 m.2

/-- `round_constant`, transcript.rs:37-42.  `F::MODULUS_BIT_SIZE` is the bit length of `p`, and
`F::from_le_bytes_mod_order` is the residue of the number spelled by the bytes. -/
def roundConstant (F : Type _) [Field F] (p : Nat) (s : Strobe) : R (F × Strobe) := do
  let sizeInBytes := (numBits p + 135) / 8
  let r ← challengeBytes s (asciiBytes "round-constant") sizeInBytes
  return ((leValue r.1 : F), r.2)

/-- The elements drawn by `v1_generate` and `v2_generate`, round_constants.rs:21-27, 37-45. -/
def arcElements (F : Type _) [Field F] (nlimbs : Nat) (input : GenInput) (rounds : RoundNumbers) (alpha : Alpha)
    (n : Nat) : R (List F) := do
  let s ← transcriptNew (asciiBytes "round-constants")
  let s ← domainSep nlimbs input rounds alpha s
  let r ← forRange 0 n (([] : List F), s) fun _ st => do
    let c ← roundConstant F input.p st.2
    return (st.1 ++ [c.1], c.2)
  return r.1

/-- `v1_generate`, round_constants.rs:16-29 -/
def arcV1Generate (F : Type _) [Field F] (nlimbs rows nround : Nat) (input : GenInput) (rounds : RoundNumbers)
    (alpha : Alpha) : R (Mat F rows input.t nround) := do
  let els ← arcElements F nlimbs input rounds alpha (rounds.total * input.t)
  Mat.new rows input.t nround els

/-- `v2_generate`, round_constants.rs:32-47: one column. -/
def arcV2Generate (F : Type _) [Field F] (nlimbs nround : Nat) (input : GenInput) (rounds : RoundNumbers)
    (alpha : Alpha) : R (Mat F nround 1 nround) := do
  let els ← arcElements F nlimbs input rounds alpha (rounds.full * input.t + rounds.partialRounds)
  Mat.new nround 1 nround els

end Poseidon
