import Mathlib.Data.Fintype.Perm
import Mathlib.Data.Fintype.Pi

/-!
# Attacks that use a permutation as a black box

The hash functions put the domain separator and the inputs into a state, apply a permutation of the states and return word 1.  An attack on this mode of operation
asks for values of the permutation and of its inverse, each question depending on the answers so far, and gives an answer in the end.
-/

namespace Poseidon

/-- An algorithm that asks for the image (`ask`) or the preimage (`askBack`) of states and answers with something of type `A`. -/
inductive Attack (S A : Type) where
  | answer (a : A)
  | ask (x : S) (next : S → Attack S A)
  | askBack (y : S) (next : S → Attack S A)

/-- Its answer for the permutation `π` -/
def Attack.run {S A : Type} (π : Equiv.Perm S) : Attack S A → A
  | .answer a => a
  | .ask x next => (next (π x)).run π
  | .askBack y next => (next (π.symm y)).run π

/-- It never asks more than `Q` questions. -/
def Attack.Within {S A : Type} : Nat → Attack S A → Prop
  | _, .answer _ => True
  | 0, .ask _ _ => False
  | 0, .askBack _ _ => False
  | Q + 1, .ask _ next => ∀ y, (next y).Within Q
  | Q + 1, .askBack _ next => ∀ x, (next x).Within Q

/-- The mode of operation: the state `x` holds the domain separator (word 0) and the inputs, the digest is word 1 of its image. -/
def digestWith {F : Type} {n : Nat} (π : Equiv.Perm (Fin (n + 2) → F)) (x : Fin (n + 2) → F) : F := π x 1

variable {F : Type} [Fintype F] [DecidableEq F] {n : Nat}

/-- Among the permutations, at most the share `a / b` has the property `E`. -/
def ShareAtMost (a b : Nat) (E : Equiv.Perm (Fin (n + 2) → F) → Prop) [DecidablePred E] : Prop :=
  (Finset.univ.filter E).card * b ≤ a * Fintype.card (Equiv.Perm (Fin (n + 2) → F))

end Poseidon
