import Mathlib.Algebra.BigOperators.Group.Finset.Basic
import Mathlib.Data.Rat.Cast.Defs
import Verif.Spec.Mode

/-!
# In the place of a random function

Somebody asks for digests of states (with a domain separator that is in use) and for images and preimages of the permutation, and has to find out whether the
digests come from the permutation, or from a random function that has nothing to do with any permutation.  In the second case a simulator answers the questions
about the permutation.
-/

namespace Poseidon

/-- An algorithm that asks for the digest of a state with the property `H`, or the image or the preimage of a state, and answers with yes or no. -/
inductive Distinguisher (S F : Type) (H : S → Prop) where
  | answer (yes : Bool)
  | hash (x : S) (h : H x) (next : F → Distinguisher S F H)
  | ask (x : S) (next : S → Distinguisher S F H)
  | askBack (y : S) (next : S → Distinguisher S F H)

/-- It never asks more than `Q` questions. -/
def Distinguisher.Within {S F : Type} {H : S → Prop} : Nat → Distinguisher S F H → Prop
  | _, .answer _ => True
  | 0, .hash _ _ _ => False
  | 0, .ask _ _ => False
  | 0, .askBack _ _ => False
  | Q + 1, .hash _ _ next => ∀ d, (next d).Within Q
  | Q + 1, .ask _ next => ∀ y, (next y).Within Q
  | Q + 1, .askBack _ next => ∀ x, (next x).Within Q

/-- Its answer for the permutation `π` and the digests made with it -/
def Distinguisher.real {F : Type} {n : Nat} {H : (Fin (n + 2) → F) → Prop} (π : Equiv.Perm (Fin (n + 2) → F)) :
    Distinguisher (Fin (n + 2) → F) F H → Bool
  | .answer yes => yes
  | .hash x _ next => (next (digestWith π x)).real π
  | .ask x next => (next (π x)).real π
  | .askBack y next => (next (π.symm y)).real π

/-- A choice with equal chances among finitely many -/
abbrev Draw (A : Type) := {s : Finset A // s.Nonempty}

/-- The expected value of `f` -/
def Draw.mean {A : Type} (c : Draw A) (f : A → ℚ) : ℚ := (∑ a ∈ c.1, f a) / c.1.card

/-- A simulator keeps notes, which are empty in the beginning.  Asked for the image of a state, it learns the digest of this state, and chooses an answer and
its new notes.  Asked for a preimage, it chooses without learning anything. -/
structure Simulator (S F : Type) where
  Notes : Type
  start : Notes
  image : Notes → S → F → Draw (Notes × S)
  preimage : Notes → S → Draw (Notes × S)

/-- The chance of the answer yes, with digests from the function `ρ` and the simulator `Z` instead of a permutation -/
def Distinguisher.ideal {S F : Type} {H : S → Prop} (Z : Simulator S F) (ρ : S → F) : Distinguisher S F H → Z.Notes → ℚ
  | .answer yes, _ => if yes then 1 else 0
  | .hash x _ next, σ => (next (ρ x)).ideal Z ρ σ
  | .ask x next, σ => (Z.image σ x (ρ x)).mean fun r => (next r.2).ideal Z ρ r.1
  | .askBack y next, σ => (Z.preimage σ y).mean fun r => (next r.2).ideal Z ρ r.1

variable {F : Type} [Fintype F] [DecidableEq F] {n : Nat} {H : (Fin (n + 2) → F) → Prop}

/-- The chance of the answer yes for a random permutation -/
def realChance (A : Distinguisher (Fin (n + 2) → F) F H) : ℚ :=
  (Finset.univ.filter fun π => A.real π = true).card / Fintype.card (Equiv.Perm (Fin (n + 2) → F))

/-- The chance of the answer yes for a random function and the simulator `Z` -/
def idealChance (Z : Simulator (Fin (n + 2) → F) F) (A : Distinguisher (Fin (n + 2) → F) F H) : ℚ :=
  (∑ ρ : (Fin (n + 2) → F) → F, A.ideal Z ρ Z.start) / Fintype.card ((Fin (n + 2) → F) → F)

end Poseidon
