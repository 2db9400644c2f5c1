import Verif.Model.GenV1

/-!
# Model of the parameter generator: `v2::generate`

`poseidon-paramgen/src/v2.rs`, `v2/internal.rs`, `v2/external.rs` and `poseidon-parameters/src/v2.rs`.
The generator's text writes `SquareMatrix::from_vec(v)`; the type `SquareMatrix` it names has the constructor
`SquareMatrix::new(&[Fq])` only, which is what is modelled.
-/

namespace Poseidon

/-- `PoseidonParameters`, poseidon-parameters/src/v2.rs:11-38.  The const generics `NUM_ROUND_ROWS`,
`NUM_ROUND_COLS` are `nround` and `1`, the shape `round_constants::v2_generate` builds. -/
structure ParamsV2 (F : Type _) (t nmds nround : Nat) where
  /-- `M` -/
  security : Nat
  alpha : Alpha
  rounds : RoundNumbers
  /-- `m_e` -/
  external : Mat F t t nmds
  /-- `m_i` -/
  internal : Mat F t t nmds
  arc : Mat F nround 1 nround

/-- `internal::generate`, v2/internal.rs:8-43; `STATE_SIZE` is `t`. -/
def internalGenerate (debug : Bool) (F : Type _) [Field F] [DecidableEq F] (t n : Nat) : R (Mat F t t n) := do
  let m ← if t = 2 then Mat.new t t n [2, 1, 1, 3]
    else if t = 3 then Mat.new t t n [2, 1, 1, 1, 2, 1, 1, 1, 3]
    else .error .unimplemented
  match ← m.inverse debug with
  | .ok _ => return m
  | .error _ => .error .assertFailed

/-- The literal `M4`, v2/external.rs:22-39. -/
def m4Elements (F : Type _) [Field F] : List F := [5, 7, 1, 3, 4, 6, 1, 1, 1, 3, 5, 7, 1, 1, 4, 6]

/-- `external::generate`, v2/external.rs:8-71; `STATE_SIZE` is `t`.  The source writes the two loops over
`inner_row`, `inner_col` once for `i == j` and once for `i != j`. -/
def externalGenerate (F : Type _) [Field F] (t n : Nat) : R (Mat F t t n) := do
  if t < 4 then .error .explicit
  else if t % 4 ≠ 0 then .error .explicit
  else if t = 4 then Mat.new t t n (m4Elements F)
  else do
    let m4 ← Mat.new 4 4 16 (m4Elements F)
    let matrix ← Mat.identity F t n
    let d := t / 4
    forRange 0 d matrix fun i matrix =>
      forRange 0 d matrix fun j matrix =>
        if i = j then
          forRange 0 4 matrix fun row matrix =>
            forRange 0 4 matrix fun col matrix => do
              let x ← m4.get row col
              matrix.set (i * 4 + row) (j * 4 + col) (2 * x)
        else
          forRange 0 4 matrix fun row matrix =>
            forRange 0 4 matrix fun col matrix => do
              let x ← m4.get row col
              matrix.set (i * 4 + row) (j * 4 + col) x

/-- `generate`, v2.rs:20-66; the argument `t` and the const generic `STATE_SIZE` are the same. -/
noncomputable def v2Generate (L : Libm) (debug : Bool) (F : Type _) [Field F] [DecidableEq F] (nlimbs : Nat)
    (t nmds nround : Nat) (security p : Nat) (allowInverse : Bool) : R (ParamsV2 F t nmds nround) := do
  let input : GenInput := { allowInverse, security, t, p }
  let logP := log2Big L p
  let alpha ← alphaGenerate p allowInverse
  let rounds ← roundsV2Generate L input logP alpha
  let arc ← arcV2Generate F nlimbs nround input rounds alpha
  let mi ← internalGenerate debug F t nmds
  if t < 4 then
    return { security := input.security, alpha, rounds, arc, internal := mi, external := mi }
  else do
    let me ← externalGenerate F t nmds
    return { security := input.security, alpha, rounds, arc, external := me, internal := mi }

end Poseidon
