import Verif.Model.GenTranscript

/-!
# Round constants on machines of other word sizes

`GenTranscript.lean` models the transcript on a machine with 64-bit words.  `input.t` and `input.M` are of type `usize`, and
`usize::to_le_bytes` gives as many bytes as the machine's word has: `wordBytes` is 8, or 4 on 32-bit machines and wasm32.
-/

namespace Poseidon

/-- The messages of `domain_sep`, transcript.rs:24-34 -/
def domainSepMessagesW (wordBytes nlimbs : Nat) (input : GenInput) (rounds : RoundNumbers) (alpha : Alpha) :
    List (List Nat × List Nat) := [
  (asciiBytes "dom-sep", asciiBytes "poseidon-paramgen"),
  (asciiBytes "t", leBytes wordBytes input.t),
  (asciiBytes "M", leBytes wordBytes input.security),
  (asciiBytes "p", leBytes (8 * nlimbs) input.p),
  (asciiBytes "r_F", [rounds.full % 256]),
  (asciiBytes "r_P", [rounds.partialRounds % 256]),
  (asciiBytes "alpha", alpha.toBytesLe)]

/-- `domain_sep`, transcript.rs:18-35 -/
def domainSepW (wordBytes nlimbs : Nat) (input : GenInput) (rounds : RoundNumbers) (alpha : Alpha) (s : Strobe) : R Strobe :=
  forList (domainSepMessagesW wordBytes nlimbs input rounds alpha) s fun m s => appendMessage s m.1 m.2

/-- The elements drawn by `v1_generate` and `v2_generate`, round_constants.rs:21-27, 37-45. -/
def arcElementsW (F : Type _) [Field F] (wordBytes nlimbs : Nat) (input : GenInput) (rounds : RoundNumbers) (alpha : Alpha)
    (n : Nat) : R (List F) := do
  let s ← transcriptNew (asciiBytes "round-constants")
  let s ← domainSepW wordBytes nlimbs input rounds alpha s
  let r ← forRange 0 n (([] : List F), s) fun _ st => do
    let c ← roundConstant F input.p st.2
    return (st.1 ++ [c.1], c.2)
  return r.1

/-- `v1_generate`, round_constants.rs:16-29 -/
def arcV1GenerateW (F : Type _) [Field F] (wordBytes nlimbs rows nround : Nat) (input : GenInput) (rounds : RoundNumbers)
    (alpha : Alpha) : R (Mat F rows input.t nround) := do
  let els ← arcElementsW F wordBytes nlimbs input rounds alpha (rounds.total * input.t)
  Mat.new rows input.t nround els

end Poseidon
