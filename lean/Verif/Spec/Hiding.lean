import Mathlib.Data.Fintype.Prod
import Verif.Spec.Mode

/-!
# Hiding

A commitment is the digest of a state that holds the message and, in one word, a random value.  Someone who sees the digest, and may ask for images and preimages
of the permutation, tries to tell what the message is.
-/

namespace Poseidon

variable {F : Type} [Fintype F] [DecidableEq F] {n : Nat}

/-- The state for the message `v` with the random value `r` in word `j` -/
def blinded (v : Fin (n + 2) → F) (j : Fin (n + 2)) (r : F) : Fin (n + 2) → F := Function.update v j r

/-- For how many permutations and random values the algorithm says yes when it is shown the digest of the state `m r` -/
def saysYes (m : F → Fin (n + 2) → F) (A : F → Attack (Fin (n + 2) → F) Bool) : Nat :=
  (Finset.univ.filter fun ω : Equiv.Perm (Fin (n + 2) → F) × F => (A (digestWith ω.1 (m ω.2))).run ω.1 = true).card

/-- The chance of a yes for `m₀` is larger than that for `m₁` by at most `a / b`. -/
def ChanceAtMostAbove (a b : Nat) (m₀ m₁ : F → Fin (n + 2) → F) (A : F → Attack (Fin (n + 2) → F) Bool) : Prop :=
  saysYes m₀ A * b ≤ saysYes m₁ A * b + a * (Fintype.card (Equiv.Perm (Fin (n + 2) → F)) * Fintype.card F)

end Poseidon
