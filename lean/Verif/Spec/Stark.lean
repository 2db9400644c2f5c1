import Mathlib.LinearAlgebra.Matrix.Defs
import Mathlib.LinearAlgebra.Matrix.DotProduct
import Mathlib.Algebra.Field.Basic

/-!
# Specification: matrices from a hash function

Attempt `a` hashes the names `…x` and `…y`, followed by the decimal numerals of `a m, …, a m + m - 1`, to field elements for the rows and
the columns of an `m × m` Cauchy matrix `1 / (x_i - y_j)`.
-/

namespace Poseidon

variable (F : Type) [Field F] (h : List Nat → Nat) (name : List Char) (m : Nat)

/-- The hash of a name followed by a numeral -/
def starkElement (suffix : Char) (n : Nat) : F := (h ((name ++ [suffix] ++ Nat.toDigits 10 n).map Char.toNat) : F)

def starkRows (a : Nat) (i : Fin m) : F := starkElement F h name 'x' (a * m + i)

def starkColumns (a : Nat) (j : Fin m) : F := starkElement F h name 'y' (a * m + j)

/-- The `2 m` elements of attempt `a` are different. -/
structure StarkDistinct (a : Nat) : Prop where
  rows : ∀ i j, starkRows F h name m a i = starkRows F h name m a j → i = j
  columns : ∀ i j, starkColumns F h name m a i = starkColumns F h name m a j → i = j
  both : ∀ i j, starkRows F h name m a i ≠ starkColumns F h name m a j

/-- The Cauchy matrix of attempt `a` -/
def starkMatrix (a : Nat) : Matrix (Fin m) (Fin m) F :=
  Matrix.of fun i j => 1 / (starkRows F h name m a i - starkColumns F h name m a j)

variable {F m}

/-- Some non-zero vector is mapped to a multiple of itself. -/
def HasEigenvector (M : Matrix (Fin m) (Fin m) F) : Prop := ∃ (c : F) (v : Fin m → F), v ≠ 0 ∧ M.mulVec v = c • v

end Poseidon
