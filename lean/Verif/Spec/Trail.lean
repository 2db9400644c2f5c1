import Verif.Spec.Poseidon

/-!
# Specification: active S-boxes

The measure of the wide-trail strategy for differential attacks: run the permutation on two inputs and count the S-boxes that see
different values.
-/

namespace Poseidon

variable {F : Type _} [Field F] [DecidableEq F] {t : Nat}

/-- The state after the first `m` rounds of the textbook permutation. -/
def textbookPrefix (a : Alpha) (M : Matrix (Fin t) (Fin t) F) (rf rp : Nat)
    (C : Fin (rf + rp + rf) → Fin t → F) (m : Nat) (x : Fin t → F) : Option (Fin t → F) :=
  ((List.finRange (rf + rp + rf)).take m).foldlM
    (fun x r => textbookRound a M (decide (r.val < rf ∨ rf + rp ≤ r.val)) (C r) x) x

/-- What enters the S-box layer of round `r` at word `i`. -/
def sboxInput (a : Alpha) (M : Matrix (Fin t) (Fin t) F) (rf rp : Nat) (C : Fin (rf + rp + rf) → Fin t → F)
    (r : Fin (rf + rp + rf)) (i : Fin t) (x : Fin t → F) : Option F :=
  (textbookPrefix a M rf rp C r x).map fun s => s i + C r i

/-- The number of S-boxes (all words in a full round, word 0 in a partial round) whose inputs differ. -/
def activeSboxes (a : Alpha) (M : Matrix (Fin t) (Fin t) F) (rf rp : Nat) (C : Fin (rf + rp + rf) → Fin t → F)
    (x y : Fin t → F) : Nat :=
  (Finset.univ.filter fun ri : Fin (rf + rp + rf) × Fin t =>
    Active (decide (ri.1.val < rf ∨ rf + rp ≤ ri.1.val)) ri.2 ∧
      sboxInput a M rf rp C ri.1 ri.2 x ≠ sboxInput a M rf rp C ri.1 ri.2 y).card

end Poseidon
