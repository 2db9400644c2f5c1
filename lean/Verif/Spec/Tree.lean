import Verif.Spec.Mode

/-!
# Trees of hashes

Each node of a tree is the digest of a domain separator and its children.  An opening of a leaf consists, for each level, of the place of the node among the
children and the values of the other children.
-/

namespace Poseidon

/-- One level of an opening: the place of the node among the children, and a state with the domain separator and the other children -/
structure Level (n : Nat) (F : Type) where
  place : Fin (n + 1)
  others : Fin (n + 2) → F

variable {n : Nat} {F : Type}

/-- The state that is hashed: the node `x` is put at its place.  Word 0 is the domain separator. -/
def Level.state (L : Level n F) (x : F) : Fin (n + 2) → F := Function.update L.others L.place.succ x

/-- The root above the leaf `x` -/
def climb (π : Equiv.Perm (Fin (n + 2) → F)) : List (Level n F) → F → F
  | [], x => x
  | L :: l, x => climb π l (digestWith π (L.state x))

end Poseidon
