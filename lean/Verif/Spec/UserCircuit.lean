import Verif.Model.UserCircuit
import Verif.Spec.R1cs

/-!
# Specification: what a user's circuit says

`Accepts c r w y`: the native computation that the circuit describes, started with the values `r`, with the private values
`w` and the public values `y` in the order in which the circuit allocates them, meets all equalities.
-/

namespace Poseidon

/-- The native hash of `w[1], ..` with domain separator `w[0]`. -/
def nativeHash (i : Fin 7) (w : Vector Fq (i.val + 2)) : R Fq :=
  match i, w with
  | 0, w => hash1 w[0] w[1]
  | 1, w => hash2 w[0] (w[1], w[2])
  | 2, w => hash3 w[0] (w[1], w[2], w[3])
  | 3, w => hash4 w[0] (w[1], w[2], w[3], w[4])
  | 4, w => hash5 w[0] (w[1], w[2], w[3], w[4], w[5])
  | 5, w => hash6 w[0] (w[1], w[2], w[3], w[4], w[5], w[6])
  | 6, w => hash7 w[0] (w[1], w[2], w[3], w[4], w[5], w[6], w[7])

/-- The operator on field elements. -/
def R1cs.ArithOp.native : R1cs.ArithOp → Fq → Fq → Fq
  | .add, x, y => x + y
  | .sub, x, y => x - y
  | .mul, x, y => x * y

/-- Witnesses and constraints of an operation: one for a product of two arguments that are not constants. -/
def R1cs.ArithOp.cost : R1cs.ArithOp → (a b : Bool) → Nat
  | .mul, true, true => 1
  | _, _, _ => 0

namespace R1cs.UserCircuit

/-- The circuit as a native computation. -/
def Accepts : {n : Nat} → UserCircuit n → Vector Fq n → (w y : List Fq) → Prop
  | _, .done, _, w, y => w = [] ∧ y = []
  | _, .constant c next, r, w, y => next.Accepts (r.push c) w y
  | _, .witness _ next, r, w, y => ∃ x w', w = x :: w' ∧ next.Accepts (r.push x) w' y
  | _, .input _ next, r, w, y => ∃ x y', y = x :: y' ∧ next.Accepts (r.push x) w y'
  | _, .hash i words next, r, w, y => ∃ d, nativeHash i (words.map fun k => r[k]) = .ok d ∧ next.Accepts (r.push d) w y
  | _, .arith op a b next, r, w, y => next.Accepts (r.push (op.native r[a] r[b])) w y
  | _, .equal a b next, r, w, y => r[a] = r[b] ∧ next.Accepts r w y

/-- The private values that the program allocates. -/
def privateValues : {n : Nat} → UserCircuit n → List Fq
  | _, .done => []
  | _, .constant _ next => next.privateValues
  | _, .witness x next => x :: next.privateValues
  | _, .input _ next => next.privateValues
  | _, .hash _ _ next => next.privateValues
  | _, .arith _ _ _ next => next.privateValues
  | _, .equal _ _ next => next.privateValues

/-- The public values that the program allocates. -/
def publicValues : {n : Nat} → UserCircuit n → List Fq
  | _, .done => []
  | _, .constant _ next => next.publicValues
  | _, .witness _ next => next.publicValues
  | _, .input x next => x :: next.publicValues
  | _, .hash _ _ next => next.publicValues
  | _, .arith _ _ _ next => next.publicValues
  | _, .equal _ _ next => next.publicValues

/-- The same program with all private and public values set to zero. -/
def blank : {n : Nat} → UserCircuit n → UserCircuit n
  | _, .done => .done
  | _, .constant c next => .constant c next.blank
  | _, .witness _ next => .witness 0 next.blank
  | _, .input _ next => .input 0 next.blank
  | _, .hash i words next => .hash i words next.blank
  | _, .arith op a b next => .arith op a b next.blank
  | _, .equal a b next => .equal a b next.blank

/-- No hash gets constants only; `k` says which variables so far are not constants (the result of an operation on constants is one). -/
def NoConstantHash : {n : Nat} → UserCircuit n → Vector Bool n → Prop
  | _, .done, _ => True
  | _, .constant _ next, k => next.NoConstantHash (k.push false)
  | _, .witness _ next, k => next.NoConstantHash (k.push true)
  | _, .input _ next, k => next.NoConstantHash (k.push true)
  | _, .hash _ words next, k => (∃ j ∈ words, k[j] = true) ∧ next.NoConstantHash (k.push true)
  | _, .arith _ a b next, k => next.NoConstantHash (k.push (k[a] || k[b]))
  | _, .equal _ _ next, k => next.NoConstantHash k

/-- No equality is between two constants. -/
def NoConstantEqual : {n : Nat} → UserCircuit n → Vector Bool n → Prop
  | _, .done, _ => True
  | _, .constant _ next, k => next.NoConstantEqual (k.push false)
  | _, .witness _ next, k => next.NoConstantEqual (k.push true)
  | _, .input _ next, k => next.NoConstantEqual (k.push true)
  | _, .hash _ _ next, k => next.NoConstantEqual (k.push true)
  | _, .arith _ a b next, k => next.NoConstantEqual (k.push (k[a] || k[b]))
  | _, .equal a b next, k => (k[a] = true ∨ k[b] = true) ∧ next.NoConstantEqual k

/-- Witnesses of `hash_(i+1)`: five for each argument that is not a constant and each of the other S-boxes. -/
def hashCost {n : Nat} (i : Fin 7) (words : Vector (Fin n) (i.val + 2)) (k : Vector Bool n) : Nat :=
  5 * (words.toList.countP (fun j => k[j]) + 7 * (i.val + 2) + 31)

/-- The numbers of the witness variables that hold the private values, if the next one has number `start`. -/
def privateAt : {n : Nat} → UserCircuit n → Vector Bool n → (start : Nat) → List Nat
  | _, .done, _, _ => []
  | _, .constant _ next, k, s => next.privateAt (k.push false) s
  | _, .witness _ next, k, s => s :: next.privateAt (k.push true) (s + 1)
  | _, .input _ next, k, s => next.privateAt (k.push true) s
  | _, .hash i words next, k, s => next.privateAt (k.push true) (s + hashCost i words k)
  | _, .arith op a b next, k, s => next.privateAt (k.push (k[a] || k[b])) (s + op.cost k[a] k[b])
  | _, .equal _ _ next, k, s => next.privateAt k s

/-- Number of witness variables. -/
def witnesses : {n : Nat} → UserCircuit n → Vector Bool n → Nat
  | _, .done, _ => 0
  | _, .constant _ next, k => next.witnesses (k.push false)
  | _, .witness _ next, k => 1 + next.witnesses (k.push true)
  | _, .input _ next, k => next.witnesses (k.push true)
  | _, .hash i words next, k => hashCost i words k + next.witnesses (k.push true)
  | _, .arith op a b next, k => op.cost k[a] k[b] + next.witnesses (k.push (k[a] || k[b]))
  | _, .equal _ _ next, k => next.witnesses k

/-- Number of constraints: one per equality that is not between constants. -/
def constraints : {n : Nat} → UserCircuit n → Vector Bool n → Nat
  | _, .done, _ => 0
  | _, .constant _ next, k => next.constraints (k.push false)
  | _, .witness _ next, k => next.constraints (k.push true)
  | _, .input _ next, k => next.constraints (k.push true)
  | _, .hash i words next, k => hashCost i words k + next.constraints (k.push true)
  | _, .arith op a b next, k => op.cost k[a] k[b] + next.constraints (k.push (k[a] || k[b]))
  | _, .equal a b next, k => (if k[a] || k[b] then 1 else 0) + next.constraints k

/-- The values of `len` public variables, from number `start` on. -/
def publicsOf (σ : Variable → Fq) (start : Nat) (len : Nat) : List Fq := (List.range len).map fun j => σ (.input (start + j))

/-- The private values of an assignment, if the circuit is the whole constraint system. -/
def privateOf (c : UserCircuit 0) (σ : Variable → Fq) : List Fq := (c.privateAt #v[] 0).map fun j => σ (.witness j)

/-- The public values of an assignment, if the circuit is the whole constraint system (variable 0 is the constant 1). -/
def publicOf (c : UserCircuit 0) (σ : Variable → Fq) : List Fq := publicsOf σ 1 c.publicValues.length

end R1cs.UserCircuit

end Poseidon
