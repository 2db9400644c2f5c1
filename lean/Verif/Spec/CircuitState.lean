import Verif.Model.CircuitState
import Verif.Spec.UserCircuit

/-!
# Specification: a hand-made `InstanceVar`, read natively

The same steps on field elements, which of them are allowed, and what they cost.
-/

namespace Poseidon

/-- The state that a native instance of a shipped rate has after hashing the words `x` (`output_words`). -/
def nativePermute (i : Fin 7) (x : Vector Fq (i.val + 2)) : R (Vector Fq (i.val + 2)) := do
  let (_, inst) ← (Instance.new (shippedParams i)).nTo1FixedHash x
  return inst.outputWords

namespace R1cs.WordCall

/-- The same step with other arguments. -/
def map {α β : Type} (f : α → β) : WordCall α → WordCall β
  | .permute => .permute
  | .assign l => .assign (l.map f)
  | .set i x => .set i (f x)
  | .arith op i x => .arith op i (f x)
  | .combine op i j => .combine op i j

/-- The arguments of a step. -/
def args {α : Type} : WordCall α → List α
  | .permute => []
  | .assign l => l
  | .set _ x => [x]
  | .arith _ _ x => [x]
  | .combine _ _ _ => []

/-- The step on field elements.  The permutation is that of the native hash; it takes the first words, as many as the rate has
state words, and forgets the others. -/
def native (i : Fin 7) (call : WordCall Fq) (w : List Fq) : R (List Fq) :=
  match call with
  | .permute =>
    if h : i.val + 2 ≤ w.length then do
      let v ← nativePermute i (Vector.ofFn fun j => w[j.val])
      return v.toList
    else .error .indexOOB
  | .assign l => .ok l
  | .set k x => lset w k x
  | .arith op k x => do
    let a ← lget w k
    lset w k (op.native a x)
  | .combine op k j => do
    let b ← lget w j
    let a ← lget w k
    lset w k (op.native a b)

/-- A step is allowed when the words for it exist and, for the permutation of `t` words, one of them is not a constant.
`l` says which words are not constants, and so do the arguments of the step. -/
def Allowed (t : Nat) (call : WordCall Bool) (l : List Bool) : Prop :=
  match call with
  | .permute => t ≤ l.length ∧ true ∈ l.take t
  | .assign _ => True
  | .set k _ => k < l.length
  | .arith _ k _ => k < l.length
  | .combine _ k j => k < l.length ∧ j < l.length

/-- Which words are not constants after an allowed step. -/
def flags (t : Nat) (call : WordCall Bool) (l : List Bool) : List Bool :=
  match call with
  | .permute => List.replicate t true
  | .assign l' => l'
  | .set k b => l.set k b
  | .arith _ k b => l.set k (l.getD k false || b)
  | .combine _ k j => l.set k (l.getD k false || l.getD j false)

/-- Constraints and witnesses of an allowed step: five for each S-box of the permutation that gets no constant, one for
a product of two words that are no constants. -/
def cost (t : Nat) (call : WordCall Bool) (l : List Bool) : Nat :=
  match call with
  | .permute => 5 * ((l.take t).count true + 7 * t + 31)
  | .assign _ => 0
  | .set _ _ => 0
  | .arith op k b => op.cost (l.getD k false) b
  | .combine op k j => op.cost (l.getD k false) (l.getD j false)

end R1cs.WordCall

/-- The steps on field elements, one after another. -/
def nativeCalls (i : Fin 7) (calls : List (R1cs.WordCall Fq)) (w : List Fq) : R (List Fq) :=
  forList calls w fun call w => call.native i w

/-- Every step is allowed when its turn comes. -/
def AllAllowed (t : Nat) : List (R1cs.WordCall Bool) → List Bool → Prop
  | [], _ => True
  | call :: calls, l => call.Allowed t l ∧ AllAllowed t calls (call.flags t l)

/-- Constraints and witnesses of all steps. -/
def totalCost (t : Nat) : List (R1cs.WordCall Bool) → List Bool → Nat
  | [], _ => 0
  | call :: calls, l => call.cost t l + totalCost t calls (call.flags t l)

/-- The prover knows the value of the variable, and it is the one that is stored. -/
def Valued (cs : R1cs.CS Fq) (x : R1cs.FpVar Fq) : Prop := ∃ a, R1cs.Carries cs x a

end Poseidon
