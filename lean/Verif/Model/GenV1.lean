import Verif.Model.GenAlpha
import Verif.Model.GenRounds
import Verif.Model.GenTranscript

/-!
# Model of the parameter generator: `v1::generate`

`poseidon-paramgen/src/v1.rs` and `poseidon-paramgen/src/input.rs`.
-/

namespace Poseidon

/-- Storing collections of `r_P` matrices in arrays of the const-generic length `NUM_PARTIAL_ROUNDS` of
`PoseidonParameters` (poseidon-parameters/src/v1.rs:15-24); the generator's text leaves that argument out. -/
def fitRounds {F : Type _} {m t tm1 nmds nhat : Nat} (npart : Nat) (o : OptimizedMds F m t tm1 nmds nhat) :
    R (OptimizedMds F npart t tm1 nmds nhat) :=
  if h : m = npart then .ok (h ▸ o) else .error .sliceLen

/-- `generate`, v1.rs:17-57, with `InputParameters::generate`, input.rs:28-37, inlined.  The argument `t` and
the const generics `STATE_SIZE` and `NUM_ROUND_COLS` are `k + 1`, `STATE_SIZE_MINUS_1` is `k`; the other const
generics are independent.  `nlimbs` is the number of limbs of `F::BigInt`. -/
noncomputable def v1Generate (L : Libm) (debug : Bool) (F : Type _) [Field F] [DecidableEq F] (nlimbs : Nat)
    (k nmds nhat rows nround npart : Nat) (security p : Nat) (allowInverse : Bool) :
    R (Params F (k + 1) k nmds nhat rows (k + 1) nround npart) := do
  let input : GenInput := { allowInverse, security, t := k + 1, p }
  let logP := log2Big L p
  let alpha ← alphaGenerate p allowInverse
  let rounds ← roundsV1Generate L input logP alpha
  let mds ← mdsGenerate F nmds input
  let arc ← arcV1Generate F nlimbs rows nround input rounds alpha
  let optimizedMds ← mdsGenerateOptimized debug nhat mds rounds
  let optimizedArc ← arcGenerateOptimized debug arc mds rounds
  let optimizedMds ← fitRounds npart optimizedMds
  return { security := input.security, alpha, rounds, mds, arc, optimizedMds, optimizedArc }

end Poseidon
