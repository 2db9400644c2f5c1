import Verif.Model.R1cs
import Verif.Model.Tables

/-!
# Model of the circuit of `poseidon-tests/tests/poseidon377_r1cs.rs`

The circuit for which the repository ships a Groth16 proving and verifying key: seven witnesses, seven public inputs, the seven
circuit hashes and an equality for each.  Groth16 itself is not modelled.
-/

namespace Poseidon.R1cs

variable {F : Type} [Field F] [DecidableEq F]

/-- `ConstraintSystem::new` of `ark-relations`: one instance variable, the constant 1.  The system passed in poseidon377_r1cs.rs:62. -/
def CS.new (F : Type) [Field F] (setup : Bool) : CS F := ⟨setup, 1, 0, [1], [], []⟩

/-- `AllocatedFp::new_input`: as `newWitness`, for a public input.  Called in poseidon377_r1cs.rs:75. -/
def newInput (value : Option F) (cs : CS F) : R (AllocatedFp F × CS F) :=
  let lc : LC F := [(1, .input cs.numInstance)]
  if cs.setup then .ok (⟨none, lc⟩, { cs with numInstance := cs.numInstance + 1 })
  else match value with
    | none => .error .unwrapNone
    | some v => .ok (⟨some v, lc⟩,
        { cs with numInstance := cs.numInstance + 1, instanceAssignment := cs.instanceAssignment ++ [v] })

/-- `AllocatedFp::conditional_enforce_equal` with the condition `TRUE`: the constraint `(a - b) * 1 = 0`.
Called in poseidon377_r1cs.rs:83-155. -/
def AllocatedFp.enforceEqual (a b : AllocatedFp F) (cs : CS F) : CS F :=
  enforce (a.lc ++ b.lc.map fun (k, v) => (-k, v)) [(1, .one)] [] cs

/-- `EqGadget::enforce_equal` for `FpVar` (two constants are not compared: so it is in the library).
Called in poseidon377_r1cs.rs:83-155. -/
def FpVar.enforceEqual (a b : FpVar F) (cs : CS F) : CS F :=
  match a, b with
  | .constant _, .constant _ => cs
  | .constant c, .var v => AllocatedFp.enforceEqual ⟨some c, [(c, .one)]⟩ v cs
  | .var v, .constant c => AllocatedFp.enforceEqual ⟨some c, [(c, .one)]⟩ v cs
  | .var v, .var w => v.enforceEqual w cs

/-- `DOMAIN_SEP`, poseidon-tests/tests/poseidon377_r1cs.rs:17-22 -/
def testDomainSep : Fq :=
  Limbs.toFq ⟨15545862963729521748, 8301038308012579564, 6940338389606830037, 431207966161902270⟩

/-- `PreimageCircuit`, poseidon-tests/tests/poseidon377_r1cs.rs:39-57 -/
structure PreimageCircuit where
  preimages : Vector Fq 7
  hashOutputs : Vector Fq 7

/-- The loop over `self.preimages`, poseidon-tests/tests/poseidon377_r1cs.rs:65-69 -/
def allocPreimages (l : List Fq) (cs : CS Fq) : R (List (FpVar Fq) × CS Fq) :=
  forList l ([], cs) fun value (vars, cs) => do
    let (v, cs) ← newWitness (some value) cs
    return (vars ++ [.var v], cs)

/-- The loop over `self.hash_outputs`, poseidon-tests/tests/poseidon377_r1cs.rs:73-77 -/
def allocOutputs (l : List Fq) (cs : CS Fq) : R (List (FpVar Fq) × CS Fq) :=
  forList l ([], cs) fun value (vars, cs) => do
    let (v, cs) ← newInput (some value) cs
    return (vars ++ [.var v], cs)

/-- `PreimageCircuit::generate_constraints`, poseidon-tests/tests/poseidon377_r1cs.rs:60-155 -/
def generateConstraints (c : PreimageCircuit) (cs : CS Fq) : R (CS Fq) := do
  let (pv, cs) ← allocPreimages c.preimages.toList cs
  let ds : FpVar Fq := .constant testDomainSep
  let (hv, cs) ← allocOutputs c.hashOutputs.toList cs
  let (o, cs) ← hash1 ds (← lget pv 0) cs
  let cs := (← lget hv 0).enforceEqual o cs
  let (o, cs) ← hash2 ds (← lget pv 0, ← lget pv 1) cs
  let cs := (← lget hv 1).enforceEqual o cs
  let (o, cs) ← hash3 ds (← lget pv 0, ← lget pv 1, ← lget pv 2) cs
  let cs := (← lget hv 2).enforceEqual o cs
  let (o, cs) ← hash4 ds (← lget pv 0, ← lget pv 1, ← lget pv 2, ← lget pv 3) cs
  let cs := (← lget hv 3).enforceEqual o cs
  let (o, cs) ← hash5 ds (← lget pv 0, ← lget pv 1, ← lget pv 2, ← lget pv 3, ← lget pv 4) cs
  let cs := (← lget hv 4).enforceEqual o cs
  let (o, cs) ← hash6 ds (← lget pv 0, ← lget pv 1, ← lget pv 2, ← lget pv 3, ← lget pv 4, ← lget pv 5) cs
  let cs := (← lget hv 5).enforceEqual o cs
  let (o, cs) ← hash7 ds (← lget pv 0, ← lget pv 1, ← lget pv 2, ← lget pv 3, ← lget pv 4, ← lget pv 5, ← lget pv 6) cs
  return (← lget hv 6).enforceEqual o cs

end Poseidon.R1cs
