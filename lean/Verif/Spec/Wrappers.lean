import Verif.Model.Wrappers
import Mathlib.Logic.Function.Basic
import Mathlib.Data.List.OfFn

/-!
# What the matrix types should do: a two-dimensional array

The reference is a function of a row and a column.  It knows nothing of flat buffers except in `flat`, the order in which a caller
lists the elements.
-/

namespace Poseidon.Spec

variable {F : Type} [Field F] {r c : Nat}

/-- A two-dimensional array with `r` rows and `c` columns. -/
abbrev Table (F : Type) (r c : Nat) := Fin r → Fin c → F

/-- The rows, each from left to right. -/
def Table.rows (A : Table F r c) : List (List F) := List.ofFn fun i => List.ofFn (A i)

/-- The elements row by row. -/
def Table.flat (A : Table F r c) : List F := A.rows.flatten

/-- The calls a caller can make who respects the dimensions. -/
inductive TableCall (F : Type) (r c : Nat) where
  | elements
  | get (i : Fin r) (j : Fin c)
  | set (i : Fin r) (j : Fin c) (x : F)
  | iterRows
  | nRows
  | nCols
  | hadamard (B : Table F r c)

/-- The same call through the trait. -/
def TableCall.toCall : TableCall F r c → MatrixCall F
  | .elements => .elements
  | .get i j => .get i j
  | .set i j x => .set i j x
  | .iterRows => .iterRows
  | .nRows => .nRows
  | .nCols => .nCols
  | .hadamard B => .hadamard B.flat

/-- The answer of the array. -/
def Table.answer (A : Table F r c) : TableCall F r c → MatrixAnswer F
  | .elements => .list A.flat
  | .get i j => .value (A i j)
  | .set _ _ _ => .unit
  | .iterRows => .rows A.rows
  | .nRows => .size r
  | .nCols => .size c
  | .hadamard _ => .unit

/-- The array after the call. -/
def Table.after (A : Table F r c) : TableCall F r c → Table F r c
  | .set i j x => Function.update A i (Function.update (A i) j x)
  | .hadamard B => fun i j => A i j * B i j
  | _ => A

/-- The answers of the array to a sequence of calls. -/
def Table.answers (A : Table F r c) : List (TableCall F r c) → List (MatrixAnswer F)
  | [] => []
  | call :: calls => A.answer call :: (A.after call).answers calls

/-- The last value written to the number of full rounds, if there was a write. -/
def lastFull : List RoundsWrite → Option Nat
  | [] => none
  | .full x :: ws => (lastFull ws).or (some x)
  | .partialRounds _ :: ws => lastFull ws

/-- The last value written to the number of partial rounds, if there was a write. -/
def lastPartial : List RoundsWrite → Option Nat
  | [] => none
  | .partialRounds x :: ws => (lastPartial ws).or (some x)
  | .full _ :: ws => lastPartial ws

end Poseidon.Spec
