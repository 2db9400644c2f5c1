import Verif.Spec.R1cs

/-!
# Specification: assignments that satisfy all constraints but one

The vocabulary of C112.
-/

namespace Poseidon.R1cs

variable {F : Type} [Field F] [DecidableEq F]

/-- The assignment satisfies every constraint of the system, except perhaps number `k`. -/
def SatisfiesBut (k : Nat) (σ : Variable → F) (cs : CS F) : Prop :=
  σ .one = 1 ∧ ∀ i con, i ≠ k → cs.constraints[i]? = some con → LC.eval σ con.1 * LC.eval σ con.2.1 = LC.eval σ con.2.2

/-- The values of the words can be chosen at will by whoever chooses the assignment (those of constants cannot). -/
def FreeWords {t : Nat} (cs : CS F) (inputs : Vector (FpVar F) t) : Prop :=
  ∀ x : Fin t → F, (∀ (j : Fin t) (c : F), inputs[j] = .constant c → x j = c) →
    ∃ σ, Satisfies σ cs ∧ ∀ j : Fin t, inputs[j].eval σ = x j

end Poseidon.R1cs
