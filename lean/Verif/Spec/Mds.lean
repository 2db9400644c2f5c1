import Mathlib.LinearAlgebra.Matrix.Determinant.Basic
import Mathlib.LinearAlgebra.Matrix.NonsingularInverse

/-! # Specification: MDS matrices and difference weights -/

namespace Poseidon

variable {F : Type _} [Field F] {t : Nat}

/-- Every square submatrix (any choice of `k` distinct rows and `k` distinct columns) is invertible. -/
def IsMDS (M : Matrix (Fin t) (Fin t) F) : Prop :=
  ∀ (k : Nat) (r c : Fin k → Fin t), Function.Injective r → Function.Injective c → (M.submatrix r c).det ≠ 0

/-- The number of words in which two states differ. -/
def diffWords [DecidableEq F] (x y : Fin t → F) : Nat := (Finset.univ.filter fun i => x i ≠ y i).card

end Poseidon
