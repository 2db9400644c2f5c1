import Verif.Model.Arith

/-!
# Model of circuits that use the seven circuit hashes

A circuit of a user of `poseidon377::r1cs` (the test-suite's is the one of poseidon-tests/tests/poseidon377_r1cs.rs:60-155):
constants, witnesses and public inputs are allocated, variables hashed, hashes hashed again, variables added, subtracted,
multiplied and made equal, in any number and any order.  A variable is named by its number in the order of creation, which is
how a Rust program can refer to it at all; the type `UserCircuit n` allows only the numbers of the `n` variables that exist.
Only the calls of the test-suite's circuit and the operators of Model/Arith.lean occur, other gadgets of `ark-r1cs-std` do not.
-/

namespace Poseidon.R1cs

/-- A circuit that continues with `n` variables.  poseidon-tests/tests/poseidon377_r1cs.rs:60-155. -/
inductive UserCircuit : Nat → Type where
  /-- `Ok(())`, poseidon377_r1cs.rs:156 -/
  | done {n : Nat} : UserCircuit n
  /-- `FqVar::new_constant(cs, c)`, poseidon377_r1cs.rs:71 -/
  | constant {n : Nat} (c : Fq) (next : UserCircuit (n + 1)) : UserCircuit n
  /-- `FqVar::new_witness(cs, || Ok(x))`, poseidon377_r1cs.rs:67 -/
  | witness {n : Nat} (x : Fq) (next : UserCircuit (n + 1)) : UserCircuit n
  /-- `FqVar::new_input(cs, || Ok(x))`, poseidon377_r1cs.rs:75 -/
  | input {n : Nat} (x : Fq) (next : UserCircuit (n + 1)) : UserCircuit n
  /-- `hash_(i+1)(cs, w[0], (w[1], ..))`, poseidon377_r1cs.rs:80-153 -/
  | hash {n : Nat} (i : Fin 7) (words : Vector (Fin n) (i.val + 2)) (next : UserCircuit (n + 1)) : UserCircuit n
  /-- `&a + &b`, `&a - &b` or `&a * &b`, beside poseidon-permutation/src/r1cs.rs:101 and 172-173 -/
  | arith {n : Nat} (op : ArithOp) (a b : Fin n) (next : UserCircuit (n + 1)) : UserCircuit n
  /-- `a.enforce_equal(&b)`, poseidon377_r1cs.rs:83-155 -/
  | equal {n : Nat} (a b : Fin n) (next : UserCircuit n) : UserCircuit n

/-- The call of circuit `hash_(i+1)` with the domain separator `w[0]`, poseidon377/src/r1cs.rs:7-113 -/
def callHash (i : Fin 7) (w : Vector (FpVar Fq) (i.val + 2)) (cs : CS Fq) : R (FpVar Fq × CS Fq) :=
  match i, w with
  | 0, w => hash1 w[0] w[1] cs
  | 1, w => hash2 w[0] (w[1], w[2]) cs
  | 2, w => hash3 w[0] (w[1], w[2], w[3]) cs
  | 3, w => hash4 w[0] (w[1], w[2], w[3], w[4]) cs
  | 4, w => hash5 w[0] (w[1], w[2], w[3], w[4], w[5]) cs
  | 5, w => hash6 w[0] (w[1], w[2], w[3], w[4], w[5], w[6]) cs
  | 6, w => hash7 w[0] (w[1], w[2], w[3], w[4], w[5], w[6], w[7]) cs

/-- `generate_constraints` of a user's circuit: the calls one after another.  As poseidon-tests/tests/poseidon377_r1cs.rs:60-155. -/
def UserCircuit.generate : {n : Nat} → UserCircuit n → Vector (FpVar Fq) n → CS Fq → R (CS Fq)
  | _, .done, _, cs => .ok cs
  | _, .constant c next, vars, cs => next.generate (vars.push (.constant c)) cs
  | _, .witness x next, vars, cs => do
    let (v, cs) ← newWitness (some x) cs
    next.generate (vars.push (.var v)) cs
  | _, .input x next, vars, cs => do
    let (v, cs) ← newInput (some x) cs
    next.generate (vars.push (.var v)) cs
  | _, .hash i words next, vars, cs => do
    let (d, cs) ← callHash i (words.map fun k => vars[k]) cs
    next.generate (vars.push d) cs
  | _, .arith op a b next, vars, cs => do
    let (d, cs) ← op.run vars[a] vars[b] cs
    next.generate (vars.push d) cs
  | _, .equal a b next, vars, cs => next.generate vars (vars[a].enforceEqual vars[b] cs)

end Poseidon.R1cs
