import Verif.Model.Matrix
import Mathlib.Data.Matrix.Basic

/-!
# Reading a flat row-major buffer as a mathematical matrix

`toM` and `ofM` connect the crate's `Matrix<R, C, N>` (an array of `N` elements) with Mathlib's
`Matrix (Fin r) (Fin c) F`.  Both need `n = r * c`, the check of `Matrix::new`.
-/

namespace Poseidon

variable {F : Type _} {r c n : Nat}

theorem flat_lt {r c i j : Nat} (hi : i < r) (hj : j < c) : i * c + j < r * c :=
  calc i * c + j < i * c + c := by omega
    _ = (i + 1) * c := by rw [Nat.succ_mul]
    _ ≤ r * c := Nat.mul_le_mul_right _ hi

theorem div_lt_of_flat {r c p : Nat} (h : p < r * c) : p / c < r := by
  rw [Nat.div_lt_iff_lt_mul]
  · exact h
  · rcases Nat.eq_zero_or_pos c with h0 | h0
    · subst h0; simp at h
    · exact h0

theorem mod_lt_of_flat {r c p : Nat} (h : p < r * c) : p % c < c := by
  apply Nat.mod_lt
  rcases Nat.eq_zero_or_pos c with h0 | h0
  · subst h0; simp at h
  · exact h0

/-- Entry `(i, j)` of the matrix is element `i * c + j` of the array. -/
def Mat.toM (h : n = r * c) (m : Mat F r c n) : Matrix (Fin r) (Fin c) F := Matrix.of fun i j =>
  m.elements[i.val * c + j.val]'(lt_of_lt_of_eq (flat_lt i.isLt j.isLt) h.symm)

/-- The row-major array of a mathematical matrix. -/
def Mat.ofM (h : n = r * c) (A : Matrix (Fin r) (Fin c) F) : Mat F r c n :=
  ⟨Vector.ofFn fun p => A ⟨p.val / c, div_lt_of_flat (lt_of_lt_of_eq p.isLt h)⟩ ⟨p.val % c, mod_lt_of_flat (lt_of_lt_of_eq p.isLt h)⟩⟩

theorem Mat.toM_ofM (h : n = r * c) (A : Matrix (Fin r) (Fin c) F) : (Mat.ofM h A).toM h = A := by
  funext i j
  have hj := j.isLt
  simp only [Mat.toM, Mat.ofM, Matrix.of_apply, Vector.getElem_ofFn]
  congr 1
  · ext; simp [Nat.div_eq_of_lt hj, Nat.mul_add_div (show 0 < c by omega), Nat.mul_comm i.val c]
  · ext; simp [Nat.mod_eq_of_lt hj, Nat.mul_comm i.val c]

theorem Mat.ofM_toM (h : n = r * c) (m : Mat F r c n) : Mat.ofM h (m.toM h) = m := by
  cases m with
  | mk els =>
    simp only [Mat.ofM, Mat.toM, Matrix.of_apply]
    congr 1
    ext p hp
    simp only [Vector.getElem_ofFn]
    congr 1
    rw [Nat.mul_comm, Nat.div_add_mod]

theorem Mat.toM_injective (h : n = r * c) {a b : Mat F r c n} (hab : a.toM h = b.toM h) : a = b := by
  rw [← Mat.ofM_toM h a, hab, Mat.ofM_toM]

end Poseidon
