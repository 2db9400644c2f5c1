import Verif.Model.Params
import Mathlib.Data.Matrix.Mul
import Mathlib.Data.List.FinRange

/-!
# Specification: the textbook Poseidon permutation

Grassi et al., "Poseidon: A New Hash Function for Zero-Knowledge Proof Systems", section 2.
Every round adds a vector of constants, applies the S-box (to all words in a full round, to word 0
in a partial round) and multiplies by the MDS matrix.  `R_f` full rounds, `R_P` partial rounds and
`R_f` full rounds again.  With the inverse S-box the permutation is undefined (`none`) as soon as
the S-box meets a zero word; with an exponent it is always defined.
-/

namespace Poseidon

variable {F : Type _} [Field F] [DecidableEq F] {t : Nat}

/-- The S-box as a function. -/
def Alpha.val (a : Alpha) (x : F) : F :=
  match a with
  | .exponent e => x ^ e
  | .inverse => x⁻¹

/-- Where the S-box is defined. -/
def Alpha.Defined (a : Alpha) (x : F) : Prop :=
  match a with
  | .exponent _ => True
  | .inverse => x ≠ 0

instance (a : Alpha) (x : F) : Decidable (a.Defined x) := by
  unfold Alpha.Defined; cases a <;> infer_instance

/-- The words an S-box layer acts on. -/
def Active (full : Bool) (i : Fin t) : Prop := full = true ∨ i.val = 0

instance (full : Bool) (i : Fin t) : Decidable (Active full i) := by
  unfold Active; infer_instance

/-- One textbook round: add constants, substitute words, mix. -/
def textbookRound (a : Alpha) (M : Matrix (Fin t) (Fin t) F) (full : Bool) (c x : Fin t → F) :
    Option (Fin t → F) :=
  if ∀ i, Active full i → a.Defined (x i + c i) then
    some (M.mulVec fun i => if Active full i then a.val (x i + c i) else x i + c i)
  else none

/-- The textbook permutation with constants `C r` in round `r`. -/
def textbook (a : Alpha) (M : Matrix (Fin t) (Fin t) F) (rf rp : Nat)
    (C : Fin (rf + rp + rf) → Fin t → F) (x : Fin t → F) : Option (Fin t → F) :=
  (List.finRange (rf + rp + rf)).foldlM
    (fun x r => textbookRound a M (decide (r.val < rf ∨ rf + rp ≤ r.val)) (C r) x) x

/-- The Cauchy matrix `1 / (i + j + t)`. -/
def cauchyMds (F : Type _) [Field F] (t : Nat) : Matrix (Fin t) (Fin t) F :=
  Matrix.of fun i j => ((i.val + j.val + t : Nat) : F)⁻¹

/-- How the crate reports the outcome: a state array, or the panic of a division by zero. -/
def reported : Option (Fin t → F) → R (Vector F t)
  | some x => .ok (Vector.ofFn x)
  | none => .error .divZero

end Poseidon
