import Verif.Model.R1cs
import Mathlib.Data.Nat.Bits
import Mathlib.Data.Nat.Size

/-!
# Specification: assignments, satisfaction, honest values, shapes

The vocabulary of the circuit properties C09–C13.
-/

namespace Poseidon.R1cs

variable {F : Type} [Field F] [DecidableEq F]

/-- Value of a linear combination under an assignment of all variables. -/
def LC.eval (σ : Variable → F) (l : LC F) : F := (l.map fun x => x.1 * σ x.2).sum

/-- Value of a circuit variable under an assignment. -/
def FpVar.eval (σ : Variable → F) : FpVar F → F
  | .constant c => c
  | .var v => LC.eval σ v.lc

/-- The assignment satisfies every constraint `a * b = c` of the system. -/
def Satisfies (σ : Variable → F) (cs : CS F) : Prop :=
  σ .one = 1 ∧ ∀ con ∈ cs.constraints, LC.eval σ con.1 * LC.eval σ con.2.1 = LC.eval σ con.2.2

/-- `σ` is (an extension of) the assignment stored in a prover's constraint system. -/
def Stored (cs : CS F) (σ : Variable → F) : Prop :=
  σ .one = 1 ∧ (∀ i x, cs.instanceAssignment[i]? = some x → σ (.input i) = x) ∧
    ∀ i x, cs.witnessAssignment[i]? = some x → σ (.witness i) = x

/-- A constraint system in proving mode in which every witness variable has been assigned. -/
def Proving (cs : CS F) : Prop := cs.setup = false ∧ cs.witnessAssignment.length = cs.numWitness

/-- The circuit variable carries the value `a`, and that is also what the stored assignment gives it. -/
def Carries (cs : CS F) (x : FpVar F) (a : F) : Prop :=
  match x with
  | .constant c => c = a
  | .var v => v.value = some a ∧ ∀ σ, Stored cs σ → LC.eval σ v.lc = a

/-- Not a constant. -/
def FpVar.isVar : FpVar F → Bool
  | .constant _ => false
  | .var _ => true

/-- Forget the value of a circuit variable (what setup sees). -/
def FpVar.shape : FpVar F → FpVar F
  | .constant c => .constant c
  | .var v => .var ⟨none, v.lc⟩

/-- Forget all values of a constraint system and switch to setup mode. -/
def CS.shape (cs : CS F) : CS F :=
  { cs with setup := true, instanceAssignment := [], witnessAssignment := [] }

/-- Constraints of one S-box on a variable: (bit length - 1) squarings, (one bits - 1) products. -/
def sboxCost (e : Nat) : Nat := (Nat.size e - 1) + ((Nat.bits e).count true - 1)

/-- The variable has been allocated. -/
def Variable.Known (cs : CS F) : Variable → Prop
  | .one => True
  | .input i => i < cs.numInstance
  | .witness i => i < cs.numWitness

/-- A linear combination of allocated variables. -/
def LC.Known (cs : CS F) (l : LC F) : Prop := ∀ x ∈ l, x.2.Known cs

/-- A constant, or a linear combination of allocated variables. -/
def FpVar.Known (cs : CS F) : FpVar F → Prop
  | .constant _ => True
  | .var v => LC.Known cs v.lc

/-- Every constraint of the system is about allocated variables. -/
def WellFormed (cs : CS F) : Prop :=
  ∀ con ∈ cs.constraints, LC.Known cs con.1 ∧ LC.Known cs con.2.1 ∧ LC.Known cs con.2.2

end Poseidon.R1cs
