import Verif.Model.UserCircuit
import Verif.Model.Groth16

/-!
# Model of keys and proofs for circuits that use the seven circuit hashes

`Groth16::circuit_specific_setup` and `Groth16::prove`, as the test-suite calls them for its own circuit
(poseidon-tests/tests/poseidon377_r1cs.rs:161-210), for any circuit of Model/UserCircuit.lean.  The circuit runs on the symbolic
linear combinations of Model/Symbolic.lean.
-/

namespace Poseidon

namespace Sym

/-- The call of circuit `hash_(i+1)` with the domain separator `w[0]`, poseidon377/src/r1cs.rs:7-113 -/
def callHash (i : Fin 7) (w : Vector (FpVar Fq) (i.val + 2)) (cs : CS Fq) : R (FpVar Fq × CS Fq) :=
  match i, w with
  | 0, w => hash1 w[0] w[1] cs
  | 1, w => hash2 w[0] (w[1], w[2]) cs
  | 2, w => hash3 w[0] (w[1], w[2], w[3]) cs
  | 3, w => hash4 w[0] (w[1], w[2], w[3], w[4]) cs
  | 4, w => hash5 w[0] (w[1], w[2], w[3], w[4], w[5]) cs
  | 5, w => hash6 w[0] (w[1], w[2], w[3], w[4], w[5], w[6]) cs
  | 6, w => hash7 w[0] (w[1], w[2], w[3], w[4], w[5], w[6], w[7]) cs

end Sym

/-- `generate_constraints` of a user's circuit: the calls one after another.  As poseidon-tests/tests/poseidon377_r1cs.rs:60-155. -/
def R1cs.UserCircuit.synthesize : {n : Nat} → R1cs.UserCircuit n → Vector (Sym.FpVar Fq) n → Sym.CS Fq → R (Sym.CS Fq)
  | _, .done, _, cs => .ok cs
  | _, .constant c next, vars, cs => next.synthesize (vars.push (.constant c)) cs
  | _, .witness x next, vars, cs => do
    let (v, cs) ← Sym.newWitness (some x) cs
    next.synthesize (vars.push (.var v)) cs
  | _, .input x next, vars, cs => do
    let (v, cs) ← Sym.newInput (some x) cs
    next.synthesize (vars.push (.var v)) cs
  | _, .hash i words next, vars, cs => do
    let (d, cs) ← Sym.callHash i (words.map fun k => vars[k]) cs
    next.synthesize (vars.push d) cs
  | _, .arith op a b next, vars, cs => do
    let (d, cs) ← Sym.arith op vars[a] vars[b] cs
    next.synthesize (vars.push d) cs
  | _, .equal a b next, vars, cs => next.synthesize vars (vars[a].enforceEqual vars[b] cs)

namespace Groth16

variable {G1 G2 : Type} [AddCommGroup G1] [Module Fq G1] [AddCommGroup G2] [Module Fq G2]

/-- `Groth16::circuit_specific_setup`, as in poseidon-tests/tests/poseidon377_r1cs.rs:161-170 -/
def setupUser (d : Domain Fq) (g1 : G1) (g2 : G2) (w : Secrets Fq) (c : R1cs.UserCircuit 0) : R (ProvingKey G1 G2) := do
  let cs ← c.synthesize #v[] (Sym.CS.new Fq true)
  let M ← cs.toMatrices
  generateParameters d g1 g2 w M cs.numInstance cs.numWitness

/-- `Groth16::prove`, as in poseidon-tests/tests/poseidon377_r1cs.rs:199; the arguments are those of `prove`. -/
def proveUser (debug : Bool) (d : Domain Fq) (g : Fq) (pk : ProvingKey G1 G2) (r s : Fq) (c : R1cs.UserCircuit 0) :
    R (Proof G1 G2) := do
  let cs ← c.synthesize #v[] (Sym.CS.new Fq false)
  let M ← cs.toMatrices
  let z := cs.instanceAssignment ++ cs.witnessAssignment
  let ok ← isSatisfied M z
  if debug && !ok then .error .assertFailed
  let h ← witnessMap d g M cs.numInstance z
  createProof pk r s h (cs.instanceAssignment.drop 1) cs.witnessAssignment

end Groth16

end Poseidon
