import Verif.Model.Arith

/-!
# Model of a hand-made `InstanceVar`

The fields of `InstanceVar` are public and so is its method `permute` (poseidon-permutation/src/r1cs.rs:10-37, 91-129).  A user can
therefore build one with any words, permute, change words, permute again: a sponge in the circuit, for instance.  This is the
model of such a use.  Simplifications: the parameters and the constraint system of the instance stay the same (a user could
also replace these fields), and of what a user can do to the words only the calls below are there.
-/

namespace Poseidon.R1cs

/-- What a user does with an `InstanceVar` (poseidon-permutation/src/r1cs.rs:10-37, fields `pub`), one step. -/
inductive WordCall (α : Type) where
  /-- `instance.permute()`, r1cs.rs:91-129 -/
  | permute
  /-- `instance.state_words = l`, as in r1cs.rs:80 -/
  | assign (l : List α)
  /-- `instance.state_words[i] = x`, as in r1cs.rs:148 -/
  | set (i : Nat) (x : α)
  /-- `instance.state_words[i] += x` (or `-=`, `*=`), as in r1cs.rs:101 -/
  | arith (op : ArithOp) (i : Nat) (x : α)
  /-- `let w = instance.state_words[j].clone(); instance.state_words[i] += w` (or `-=`, `*=`), as in r1cs.rs:101 -/
  | combine (op : ArithOp) (i j : Nat)

variable {t tm1 nmds nhat rows cols nround npart : Nat}

/-- One step on the words of an instance with parameters `p` and on its constraint system.
poseidon-permutation/src/r1cs.rs:91-129 for `permute`, the statements cited at `WordCall` for the others. -/
def WordCall.run (p : Params Fq t tm1 nmds nhat rows cols nround npart) (call : WordCall (FpVar Fq))
    (st : List (FpVar Fq) × CS Fq) : R (List (FpVar Fq) × CS Fq) :=
  let (s, cs) := st
  match call with
  | .permute => R1cs.permute p s cs
  | .assign l => .ok (l, cs)
  | .set i x => do
    let s ← lset s i x
    return (s, cs)
  | .arith op i x => do
    let a ← lget s i
    let (y, cs) ← op.run a x cs
    let s ← lset s i y
    return (s, cs)
  | .combine op i j => do
    let b ← lget s j
    let a ← lget s i
    let (y, cs) ← op.run a b cs
    let s ← lset s i y
    return (s, cs)

/-- The steps one after another; `poseidon-permutation/src/r1cs.rs:77-87` is the run `[permute]`. -/
def runCalls (p : Params Fq t tm1 nmds nhat rows cols nround npart) (calls : List (WordCall (FpVar Fq)))
    (st : List (FpVar Fq) × CS Fq) : R (List (FpVar Fq) × CS Fq) :=
  forList calls st fun call st => call.run p st

end Poseidon.R1cs
