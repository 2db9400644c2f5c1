import Verif.Model.GenV1

/-!
# Model of the parameter generator: the argument `p`

`v1::generate::<F, ..>(M, t, p, allow_inverse)` is generic in the field `F` and takes a number `p : F::BigInt`
besides; nothing compares `p` with `F::MODULUS`.  `Model/GenV1.lean` is the case where the two are equal.  Here the
modulus `m` of `F` and the argument `p` are separate.
-/

namespace Poseidon

/-- `alpha_coprime_to_p_minus_one`, alpha.rs:64-70: `F::one()` and `F::from(alpha)` are reduced modulo `m`, the
subtraction and the gcd are on big integers, the comparison is in `F`. -/
def alphaCoprimeArg (m alpha p : Nat) : R Bool := do
  let one := 1 % m
  let pMinusOne ← usub p one
  let alphaBig := alpha % m
  let g := Nat.gcd alphaBig pMinusOne
  return g % m == 1 % m

/-- The loop of `generate`, alpha.rs:51-55 -/
def alphaLoopArg (m p : Nat) : List Nat → R (Option Nat)
  | [] => return none
  | candidate :: rest =>
    if candidate % 2 != 0 then do
      let c ← alphaCoprimeArg m candidate p
      if c then return some candidate else alphaLoopArg m p rest
    else alphaLoopArg m p rest

/-- `generate`, alpha.rs:48-62 -/
def alphaGenerateArg (m p : Nat) (allowInverse : Bool) : R Alpha := do
  match ← alphaLoopArg m p depthsInOrder with
  | some a => return .exponent a
  | none => if allowInverse then return .inverse else .error .explicit

/-- The elements drawn by `v1_generate`, round_constants.rs:21-27: the transcript is bound to `input.p`
(transcript.rs:28), the number of bytes of a challenge is that of `F::MODULUS_BIT_SIZE` (transcript.rs:38). -/
def arcElementsArg (F : Type _) [Field F] (m nlimbs : Nat) (input : GenInput) (rounds : RoundNumbers) (alpha : Alpha)
    (n : Nat) : R (List F) := do
  let s ← transcriptNew (asciiBytes "round-constants")
  let s ← domainSep nlimbs input rounds alpha s
  let r ← forRange 0 n (([] : List F), s) fun _ st => do
    let c ← roundConstant F m st.2
    return (st.1 ++ [c.1], c.2)
  return r.1

/-- `v1_generate`, round_constants.rs:16-29 -/
def arcV1GenerateArg (F : Type _) [Field F] (m nlimbs rows nround : Nat) (input : GenInput) (rounds : RoundNumbers)
    (alpha : Alpha) : R (Mat F rows input.t nround) := do
  let els ← arcElementsArg F m nlimbs input rounds alpha (rounds.total * input.t)
  Mat.new rows input.t nround els

/-- `generate`, v1.rs:17-57, over a field `F` of modulus `m`, with the argument `p`.  The logarithm (input.rs:29),
the round numbers (rounds.rs), the two tests of the size of the field (mds.rs:19-22, 53-55) and the transcript use
`p`; the field operations use `m`. -/
noncomputable def v1GenerateArg (L : Libm) (debug : Bool) (F : Type _) [Field F] [DecidableEq F] (m nlimbs : Nat)
    (k nmds nhat rows nround npart : Nat) (security p : Nat) (allowInverse : Bool) :
    R (Params F (k + 1) k nmds nhat rows (k + 1) nround npart) := do
  let input : GenInput := { allowInverse, security, t := k + 1, p }
  let logP := log2Big L p
  let alpha ← alphaGenerateArg m p allowInverse
  let rounds ← roundsV1Generate L input logP alpha
  let mds ← mdsGenerate F nmds input
  let arc ← arcV1GenerateArg F m nlimbs rows nround input rounds alpha
  let optimizedMds ← mdsGenerateOptimized debug nhat mds rounds
  let optimizedArc ← arcGenerateOptimized debug arc mds rounds
  let optimizedMds ← fitRounds npart optimizedMds
  return { security := input.security, alpha, rounds, mds, arc, optimizedMds, optimizedArc }

end Poseidon
