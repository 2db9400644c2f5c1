import Verif.Model.CircuitFields
import Verif.Spec.CircuitState

/-!
# Specification: an `InstanceVar` all of whose fields change, read natively
-/

namespace Poseidon

variable {t tm1 nmds nhat rows cols nround npart : Nat}

/-- The state that a native instance with parameters `p` has after hashing `x` without the optimizations (`output_words`). -/
def plainPermute (p : Params Fq t tm1 nmds nhat rows cols nround npart) (x : Vector Fq t) : R (Vector Fq t) := do
  let (_, inst) ← (Instance.new p).unoptimizedNTo1FixedHash x
  return inst.outputWords

/-- The state that a native instance with parameters `p` has after hashing `x` (`output_words`). -/
def fastPermute (p : Params Fq t tm1 nmds nhat rows cols nround npart) (x : Vector Fq t) : R (Vector Fq t) := do
  let (_, inst) ← (Instance.new p).nTo1FixedHash x
  return inst.outputWords

/-- A step on field elements; `permute` is the permutation of the native code. -/
def R1cs.WordCall.nativeWith (permute : Vector Fq t → R (Vector Fq t)) (call : R1cs.WordCall Fq) (w : List Fq) : R (List Fq) :=
  match call with
  | .permute =>
    if h : t ≤ w.length then do
      let v ← permute (Vector.ofFn fun j : Fin t => w[j.val])
      return v.toList
    else .error .indexOOB
  | .assign l => .ok l
  | .set k x => lset w k x
  | .arith op k x => do
    let a ← lget w k
    lset w k (op.native a x)
  | .combine op k j => do
    let b ← lget w j
    let a ← lget w k
    lset w k (op.native a b)

namespace R1cs.InstanceCall

/-- The same step with other arguments. -/
def map {α β : Type} (f : α → β) : InstanceCall α t tm1 nmds nhat rows cols nround npart → InstanceCall β t tm1 nmds nhat rows cols nround npart
  | .words c => .words (c.map f)
  | .parameters q => .parameters q
  | .cs c => .cs c

/-- The arguments of a step that are words. -/
def args {α : Type} : InstanceCall α t tm1 nmds nhat rows cols nround npart → List α
  | .words c => c.args
  | .parameters _ => []
  | .cs _ => []

/-- The parameter set that a step brings. -/
def newParams {α : Type} : InstanceCall α t tm1 nmds nhat rows cols nround npart → List (Params Fq t tm1 nmds nhat rows cols nround npart)
  | .words _ => []
  | .parameters q => [q]
  | .cs _ => []

/-- The step on field elements and the current parameters; `permute` is the native permutation for given parameters. -/
def native (permute : Params Fq t tm1 nmds nhat rows cols nround npart → Vector Fq t → R (Vector Fq t))
    (call : InstanceCall Fq t tm1 nmds nhat rows cols nround npart)
    (st : Params Fq t tm1 nmds nhat rows cols nround npart × List Fq) : R (Params Fq t tm1 nmds nhat rows cols nround npart × List Fq) :=
  match call with
  | .words c => do
    let w ← c.nativeWith (permute st.1) st.2
    return (st.1, w)
  | .parameters q => .ok (q, st.2)
  | .cs _ => .ok st

end R1cs.InstanceCall

/-- The steps on field elements, one after another. -/
def nativeInstance (permute : Params Fq t tm1 nmds nhat rows cols nround npart → Vector Fq t → R (Vector Fq t))
    (calls : List (R1cs.InstanceCall Fq t tm1 nmds nhat rows cols nround npart))
    (st : Params Fq t tm1 nmds nhat rows cols nround npart × List Fq) : R (Params Fq t tm1 nmds nhat rows cols nround npart × List Fq) :=
  forList calls st fun call st => call.native permute st

/-- There is a full round on each side, and a power S-box does not have the exponent zero (exponents are `u32` in the code). -/
structure Sensible (p : Params Fq t tm1 nmds nhat rows cols nround npart) : Prop where
  full : 2 ≤ p.rounds.rF
  exponent : ∀ e, p.alpha = .exponent e → e ≠ 0 ∧ e < 2 ^ 32

/-- The exponent of a power S-box. -/
def Params.exponent? (p : Params Fq t tm1 nmds nhat rows cols nround npart) : Option Nat :=
  match p.alpha with
  | .exponent e => some e
  | .inverse => none

/-- Every step is allowed when its turn comes: the words for it exist, and at a permutation the S-box is a power, there are
as many rows of constants as rounds, and one of the words that the permutation takes is not a constant.  `l` says which words
are not constants, `p` are the parameters at that time. -/
def AllAllowedIn : List (R1cs.InstanceCall Bool t tm1 nmds nhat rows cols nround npart) →
    Params Fq t tm1 nmds nhat rows cols nround npart → List Bool → Prop
  | [], _, _ => True
  | .words c :: calls, p, l =>
    c.Allowed t l ∧ (c = .permute → p.exponent?.isSome ∧ 2 * (p.rounds.rF / 2) + p.rounds.rP ≤ rows) ∧ AllAllowedIn calls p (c.flags t l)
  | .parameters q :: calls, _, l => AllAllowedIn calls q l
  | .cs _ :: calls, p, l => AllAllowedIn calls p l

/-- Constraints and witnesses of a step: for a permutation the cost of the S-box, for each S-box that gets no constant. -/
def R1cs.WordCall.costIn (p : Params Fq t tm1 nmds nhat rows cols nround npart) (call : R1cs.WordCall Bool) (l : List Bool) : Nat :=
  match call with
  | .permute => R1cs.sboxCost (p.exponent?.getD 0) * ((l.take t).count true + (2 * (p.rounds.rF / 2) - 1) * t + p.rounds.rP)
  | call => call.cost t l

/-- Constraints and witnesses of all steps. -/
def totalCostIn : List (R1cs.InstanceCall Bool t tm1 nmds nhat rows cols nround npart) →
    Params Fq t tm1 nmds nhat rows cols nround npart → List Bool → Nat
  | [], _, _ => 0
  | .words c :: calls, p, l => c.costIn p l + totalCostIn calls p (c.flags t l)
  | .parameters q :: calls, _, l => totalCostIn calls q l
  | .cs _ :: calls, p, l => totalCostIn calls p l

end Poseidon
