import Verif.Spec.Poseidon

/-!
# Specification: the textbook permutation interrupted in front of an inversion of zero
-/

namespace Poseidon

variable {F : Type _} [Field F] [DecidableEq F] {t : Nat}

/-- The state in front of round `r` of the textbook permutation. -/
def textbookBefore (a : Alpha) (M : Matrix (Fin t) (Fin t) F) (rf rp : Nat) (C : Fin (rf + rp + rf) → Fin t → F) (x : Fin t → F) :
    Nat → Option (Fin t → F)
  | 0 => some x
  | r + 1 => if h : r < rf + rp + rf then
      (textbookBefore a M rf rp C x r).bind (textbookRound a M (decide (r < rf ∨ rf + rp ≤ r)) (C ⟨r, h⟩))
    else none

/-- `w` is the state of the textbook permutation of `x` with the inverse S-box, when it meets zero: in some round `r`, after the
constants are added, word `i` is the first active word that is zero, and the words before it are already inverted. -/
def Interrupted (M : Matrix (Fin t) (Fin t) F) (rf rp : Nat) (C : Fin (rf + rp + rf) → Fin t → F) (x w : Fin t → F) : Prop :=
  ∃ (r : Fin (rf + rp + rf)) (y : Fin t → F) (i : Fin t), textbookBefore .inverse M rf rp C x r = some y ∧
    Active (decide (r.val < rf ∨ rf + rp ≤ r.val)) i ∧ y i + C r i = 0 ∧ (∀ j < i, y j + C r j ≠ 0 ∨ ¬ Active (decide (r.val < rf ∨ rf + rp ≤ r.val)) j) ∧
    w = fun j => if j < i then (y j + C r j)⁻¹ else y j + C r j

end Poseidon
