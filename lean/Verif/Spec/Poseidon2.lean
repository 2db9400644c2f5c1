import Mathlib.Data.Matrix.Basic
import Mathlib.LinearAlgebra.Matrix.Notation

/-! # Specification: the matrices of the Poseidon2 paper (Section 5) -/

namespace Poseidon.Spec

/-- The matrix `M_4` of Section 5.1. -/
def M4 (F : Type _) [Field F] : Matrix (Fin 4) (Fin 4) F := !![5, 7, 1, 3; 4, 6, 1, 1; 1, 3, 5, 7; 1, 1, 4, 6]

/-- `circ(2 M_4, M_4, ..., M_4)` of width `t`. -/
def External (F : Type _) [Field F] (t : Nat) : Matrix (Fin t) (Fin t) F :=
  Matrix.of fun i j => (if i.val / 4 = j.val / 4 then 2 else 1) *
    M4 F ⟨i.val % 4, Nat.mod_lt _ (by decide)⟩ ⟨j.val % 4, Nat.mod_lt _ (by decide)⟩

/-- The matrix for width 2 (Section 5.4). -/
def Internal2 (F : Type _) [Field F] : Matrix (Fin 2) (Fin 2) F := !![2, 1; 1, 3]

/-- The matrix for width 3. -/
def Internal3 (F : Type _) [Field F] : Matrix (Fin 3) (Fin 3) F := !![2, 1, 1; 1, 2, 1; 1, 1, 3]

end Poseidon.Spec
