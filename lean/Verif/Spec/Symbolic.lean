import Verif.Model.Symbolic
import Verif.Spec.R1cs

/-!
# Specification: symbolic linear combinations and matrices

The vocabulary of C85: values of symbolic variables, systems built by the API, satisfied matrices, inlined systems.
-/

namespace Poseidon.Sym

variable {F : Type} [Field F] [DecidableEq F]

/-- Value of a variable, given the values `acc` of the symbolic linear combinations. -/
def Var.evalWith (σ : R1cs.Variable → F) (acc : List F) : Var → F
  | .one => σ .one
  | .input i => σ (.input i)
  | .witness i => σ (.witness i)
  | .lc i => acc.getD i 0

/-- Values of all symbolic linear combinations, in the order in which they were registered. -/
def evalAll (σ : R1cs.Variable → F) (m : List (LC F)) : List F :=
  m.foldl (fun acc l => acc ++ [(l.map fun x => x.1 * x.2.evalWith σ acc).sum]) []

/-- Value of a circuit variable of the system `cs` under an assignment. -/
def FpVar.eval (σ : R1cs.Variable → F) (cs : CS F) : FpVar F → F
  | .constant c => c
  | .var v => v.var.evalWith σ (evalAll σ cs.lcMap)

/-- The combination `i` is one of the three of a constraint. -/
def CS.IsConstraint (cs : CS F) (i : Nat) : Prop := ∃ k ∈ cs.constraints, i = k.1 ∨ i = k.2.1 ∨ i = k.2.2

/-- A variable that the API can have handed out: it has been allocated (`.input 0` is never handed out: it is the constant one),
and is not one of the combinations registered by `enforce_constraint`. -/
def Var.Known (cs : CS F) : Var → Prop
  | .one => True
  | .input i => 0 < i ∧ i < cs.numInstance
  | .witness i => i < cs.numWitness
  | .lc i => i < cs.lcMap.length ∧ ¬ cs.IsConstraint i

/-- A constant, or a variable that the API can have handed out. -/
def FpVar.Known (cs : CS F) : FpVar F → Prop
  | .constant _ => True
  | .var v => v.var.Known cs

/-- A constraint system that the API can have built: combinations are made of allocated variables and of earlier combinations
that do not belong to a constraint. -/
structure CS.Sound (cs : CS F) : Prop where
  instances : 0 < cs.numInstance
  terms : ∀ (i : Nat) (l : LC F), cs.lcMap[i]? = some l → ∀ x ∈ l, x.2.Known cs ∧ ∀ j, x.2 = .lc j → j < i
  constraints : ∀ i, cs.IsConstraint i → i < cs.lcMap.length

/-- The stored assignment, as the assignment of the columns of the matrices: instance variables, then witnesses
(`instance_assignment` followed by `witness_assignment`). -/
def CS.columns (cs : CS F) (j : Nat) : F := (cs.instanceAssignment ++ cs.witnessAssignment).getD j 0

/-- An assignment of the columns, as an assignment of the variables; column 0 is the constant. -/
def ofColumns (numInstance : Nat) (z : Nat → F) : R1cs.Variable → F
  | .one => z 0
  | .input i => z i
  | .witness i => z (numInstance + i)

/-- A row times the assignment. -/
def dot (row : List (F × Nat)) (z : Nat → F) : F := (row.map fun x => x.1 * z x.2).sum

/-- `A z ∘ B z = C z`: what the proof system proves. -/
def Matrices.Satisfied (M : Matrices F) (z : Nat → F) : Prop :=
  ∀ (k : Nat) (a b c : List (F × Nat)), M.a[k]? = some a → M.b[k]? = some b → M.c[k]? = some c → dot a z * dot b z = dot c z

/-- A row as the proof system expects it: increasing columns below `n`, no zero coefficient. -/
def CleanRow (n : Nat) (row : List (F × Nat)) : Prop :=
  (row.map Prod.snd).Pairwise (· < ·) ∧ ∀ x ∈ row, x.1 ≠ 0 ∧ x.2 < n

/-- A constraint system of a prover: every variable has been assigned, and the constant is one. -/
structure CS.Proving (cs : CS F) : Prop where
  setup : cs.setup = false
  instances : cs.instanceAssignment.length = cs.numInstance
  witnesses : cs.witnessAssignment.length = cs.numWitness
  one : cs.instanceAssignment[0]? = some 1

/-- The circuit variable carries the value `a`, and that is also what the stored assignment gives it. -/
def FpVar.Carries (cs : CS F) (x : FpVar F) (a : F) : Prop :=
  match x with
  | .constant c => c = a
  | .var v => v.value = some a ∧ (FpVar.var v).eval (ofColumns cs.numInstance cs.columns) cs = a

/-- Not a constant. -/
def FpVar.isVar : FpVar F → Bool
  | .constant _ => false
  | .var _ => true

/-! ### Inlining, without counting and deleting: the same system in the model of `Model/R1cs.lean` -/

/-- A variable as an inlined combination, given those of the symbolic ones. -/
def Var.lowWith (acc : List (R1cs.LC F)) : Var → R1cs.LC F
  | .one => [(1, .one)]
  | .input i => [(1, .input i)]
  | .witness i => [(1, .witness i)]
  | .lc i => acc.getD i []

/-- A combination as an inlined one. -/
def LC.lowWith (acc : List (R1cs.LC F)) (l : LC F) : R1cs.LC F :=
  l.flatMap fun x => (x.2.lowWith acc).map fun y => (y.1 * x.1, y.2)

/-- All combinations, inlined. -/
def lowAll (m : List (LC F)) : List (R1cs.LC F) := m.foldl (fun acc l => acc ++ [LC.lowWith acc l]) []

/-- A variable of a system, inlined. -/
def Var.low (cs : CS F) (v : Var) : R1cs.LC F := v.lowWith (lowAll cs.lcMap)

/-- An allocated variable of a system, inlined. -/
def AllocatedFp.low (cs : CS F) (v : AllocatedFp F) : R1cs.AllocatedFp F := ⟨v.value, v.var.low cs⟩

/-- A circuit variable of a system, inlined. -/
def FpVar.low (cs : CS F) : FpVar F → R1cs.FpVar F
  | .constant c => .constant c
  | .var v => .var (v.low cs)

/-- A system, inlined. -/
def CS.lower (cs : CS F) : R1cs.CS F :=
  ⟨cs.setup, cs.numInstance, cs.numWitness, cs.instanceAssignment, cs.witnessAssignment,
    cs.constraints.map fun k => ((Var.lc k.1).low cs, (Var.lc k.2.1).low cs, (Var.lc k.2.2).low cs)⟩

end Poseidon.Sym
