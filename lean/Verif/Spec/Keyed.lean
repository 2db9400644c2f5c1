import Mathlib.Data.Rat.Cast.Defs
import Verif.Spec.Hiding

/-!
# Digests with a secret word

One word of the state is a secret key, drawn at random; the others are chosen by an adversary, who gets the digest (the tag).  The adversary may also ask for
images and preimages of the permutation.
-/

namespace Poseidon

/-- An algorithm that asks for the image or the preimage of states, or for the tag of a message (a state; what it has in the word of the key does not matter), and
answers with something of type `A`. -/
inductive KeyedAttack (S F A : Type) where
  | answer (a : A)
  | ask (x : S) (next : S → KeyedAttack S F A)
  | askBack (y : S) (next : S → KeyedAttack S F A)
  | askTag (v : S) (next : F → KeyedAttack S F A)

variable {F : Type} {n : Nat} {A : Type}

/-- The tag of the message `v` under the key `k` in word `j` -/
def tag (π : Equiv.Perm (Fin (n + 2) → F)) (j : Fin (n + 2)) (k : F) (v : Fin (n + 2) → F) : F := digestWith π (blinded v j k)

/-- The messages whose tags it asked for, and its answer, for the permutation `π` and the key `k` in word `j` -/
def KeyedAttack.run (π : Equiv.Perm (Fin (n + 2) → F)) (j : Fin (n + 2)) (k : F) :
    KeyedAttack (Fin (n + 2) → F) F A → List (Fin (n + 2) → F) × A
  | .answer a => ([], a)
  | .ask x next => (next (π x)).run π j k
  | .askBack y next => (next (π.symm y)).run π j k
  | .askTag v next => let r := (next (tag π j k v)).run π j k; (v :: r.1, r.2)

/-- It never asks more than `Q` questions. -/
def KeyedAttack.Within {S F A : Type} : Nat → KeyedAttack S F A → Prop
  | _, .answer _ => True
  | 0, .ask _ _ => False
  | 0, .askBack _ _ => False
  | 0, .askTag _ _ => False
  | Q + 1, .ask _ next => ∀ y, (next y).Within Q
  | Q + 1, .askBack _ next => ∀ x, (next x).Within Q
  | Q + 1, .askTag _ next => ∀ d, (next d).Within Q

/-- The two messages differ in a word other than that of the key. -/
def Differ (j : Fin (n + 2)) (v w : Fin (n + 2) → F) : Prop := ∃ i, i ≠ j ∧ v i ≠ w i

/-- The answer is a message and its tag, and the tag of no such message was asked for. -/
def Forges (π : Equiv.Perm (Fin (n + 2) → F)) (j : Fin (n + 2)) (k : F) (T : KeyedAttack (Fin (n + 2) → F) F ((Fin (n + 2) → F) × F)) : Prop :=
  tag π j k (T.run π j k).2.1 = (T.run π j k).2.2 ∧ ∀ w ∈ (T.run π j k).1, Differ j w (T.run π j k).2.1

end Poseidon
