import Verif.Model.CircuitState

/-!
# Model of an `InstanceVar` all of whose fields change

`poseidon-permutation/src/r1cs.rs:10-37`: `parameters`, `cs` and `state_words` are all public.  `Model/CircuitState.lean` has the
changes of the words; here the parameters and the reference to a constraint system can be replaced as well, between any two
permutations, by other values of the same type (the const generics stay what they are).  The variables among the words know their
own constraint system (ark-r1cs-std: `AllocatedFp::cs`), and `permute` (r1cs.rs:91-129) never reads `self.cs`: the constraints go
where the variables live.  Simplification: all variables live in one constraint system, the `CS` of the runs.
-/

namespace Poseidon.R1cs

variable {t tm1 nmds nhat rows cols nround npart : Nat}

/-- `InstanceVar`, poseidon-permutation/src/r1cs.rs:10-37.  `cs` is a name of the constraint system that the field refers to. -/
structure InstanceVar (t tm1 nmds nhat rows cols nround npart : Nat) where
  parameters : Params Fq t tm1 nmds nhat rows cols nround npart
  cs : Nat
  stateWords : List (FpVar Fq)

/-- What a user does with an `InstanceVar`, one step; the fields are `pub`, poseidon-permutation/src/r1cs.rs:20-37. -/
inductive InstanceCall (α : Type) (t tm1 nmds nhat rows cols nround npart : Nat) where
  /-- the words change, or `instance.permute()` -/
  | words (call : WordCall α)
  /-- `instance.parameters = q` -/
  | parameters (q : Params Fq t tm1 nmds nhat rows cols nround npart)
  /-- `instance.cs = c` -/
  | cs (c : Nat)

/-- One step.  `poseidon-permutation/src/r1cs.rs:91-129` for `permute`, with the parameters that are in the field at that time;
the other steps are assignments to the fields of r1cs.rs:20-37. -/
def InstanceCall.run (call : InstanceCall (FpVar Fq) t tm1 nmds nhat rows cols nround npart)
    (st : InstanceVar t tm1 nmds nhat rows cols nround npart × CS Fq) :
    R (InstanceVar t tm1 nmds nhat rows cols nround npart × CS Fq) :=
  match call with
  | .words c => do
    let (s, system) ← c.run st.1.parameters (st.1.stateWords, st.2)
    return ({ st.1 with stateWords := s }, system)
  | .parameters q => .ok ({ st.1 with parameters := q }, st.2)
  | .cs c => .ok ({ st.1 with cs := c }, st.2)

/-- The steps one after another; `poseidon-permutation/src/r1cs.rs:77-87` is the run of a single `permute`. -/
def runInstance (calls : List (InstanceCall (FpVar Fq) t tm1 nmds nhat rows cols nround npart))
    (st : InstanceVar t tm1 nmds nhat rows cols nround npart × CS Fq) :
    R (InstanceVar t tm1 nmds nhat rows cols nround npart × CS Fq) :=
  forList calls st fun call st => call.run st

end Poseidon.R1cs
