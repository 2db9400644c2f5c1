import Verif.Proofs.Matrix
import Verif.Model.Params

/-! # The accessors of `MdsMatrix` compute the blocks of the matrix -/

set_option linter.unusedSectionVars false

namespace Poseidon

variable {F : Type _} [Field F] [DecidableEq F] {k n nhat : Nat}

theorem mdsV_eq (h : n = (k + 1) * (k + 1)) (m : Mat F (k + 1) (k + 1) n) :
    mdsV k m = .ok (Mat.ofM (Nat.one_mul k).symm (Matrix.of fun _ j => m.toM h 0 j.succ)) := by
  have hle : k + 1 ≤ n := by rw [h]; exact Nat.le_mul_of_pos_right _ (by omega)
  rw [mdsV, if_pos ⟨by omega, hle⟩]
  apply Mat.new_list (Nat.one_mul k).symm
  apply List.ext_getElem
  · simp only [List.length_drop, List.length_take, Vector.length_toList]; omega
  · intro p h1 h2
    have hp : p < k := by simpa using h2
    simp only [List.getElem_drop, List.getElem_take, Vector.getElem_toList, Mat.ofM, Vector.getElem_ofFn,
      Matrix.of_apply, Mat.toM]
    congr 1
    simp [Nat.mod_eq_of_lt hp, Nat.add_comm]

theorem mdsW_eq (h : n = (k + 1) * (k + 1)) (m : Mat F (k + 1) (k + 1) n) :
    mdsW k m = .ok (Mat.ofM (Nat.mul_one k).symm (Matrix.of fun i _ => m.toM h i.succ 0)) := by
  rw [mdsW]
  set B : Mat F k 1 k := Mat.ofM (Nat.mul_one k).symm (Matrix.of fun i _ => m.toM h i.succ 0) with hB
  obtain ⟨s, h1, h2⟩ := forRange_spec
    (fun q (els : Vector F k) => ∀ p (hp : p < k), p + 1 < q → els[p] = B.elements[p])
    (body := fun i els => do let x ← m.get i 0; aset els (i - 1) x) (lo := 1) (hi := k + 1) (by omega)
    (s := Vector.replicate k (0 : F)) (by intro p _ hp; omega) (by
      intro q els hq1 hq2 hinv
      have hlt : q - 1 < k := by omega
      rw [Mat.get_eq h m hq2 (Nat.succ_pos k), ok_bind, aset_lt _ _ hlt]
      refine ⟨_, rfl, ?_⟩
      intro p hp hpq
      rw [Vector.getElem_set]
      split
      · next heq =>
        subst heq
        simp only [hB, Mat.ofM, Vector.getElem_ofFn, Matrix.of_apply]
        have : (⟨q, hq2⟩ : Fin (k + 1)) = Fin.succ ⟨(q - 1) / 1, by omega⟩ := by
          ext; simp; omega
        rw [this]; rfl
      · next hne => exact hinv p hp (by omega))
  rw [h1, ok_bind]
  apply Mat.new_list (Nat.mul_one k).symm
  congr 1
  ext p hp
  exact h2 p hp (by omega)

theorem mdsHat_eq (h : n = (k + 1) * (k + 1)) (hh : nhat = k * k) (m : Mat F (k + 1) (k + 1) n) :
    mdsHat k nhat m = .ok (Mat.ofM hh (Matrix.of fun i j => m.toM h i.succ j.succ)) := by
  rw [mdsHat]
  set B : Mat F k k nhat := Mat.ofM hh (Matrix.of fun i j => m.toM h i.succ j.succ) with hB
  obtain ⟨s, h1, h2⟩ := forRange_fill2 (g := B.flat) (ilo := 1) (ihi := k + 1) (jlo := 1) (jhi := k + 1)
    (s := (Vector.replicate nhat (0 : F), 0)) (idx := 0) (by omega) (by omega) (Filled.zero _ _)
    (by simp [hh]) (fun i j => m.get i j) (by
      intro i j hi1 hi2 hj1 hj2
      rw [Mat.get_eq h m hi2 hj2]
      obtain ⟨i, rfl⟩ : ∃ a, i = a + 1 := ⟨i - 1, by omega⟩
      obtain ⟨j, rfl⟩ : ∃ a, j = a + 1 := ⟨j - 1, by omega⟩
      have hi : i < k := by omega
      have hj : j < k := by omega
      simp only [Nat.add_sub_cancel, Nat.zero_add]
      rw [Mat.flat_toM hh B hi hj, hB, Mat.toM_ofM]; rfl)
    (body := fun i j (s : Vector F nhat × Nat) => do
      let x ← m.get i j
      let els ← aset s.1 s.2 x
      return (els, s.2 + 1)) (by intros; rfl)
  refine Eq.trans (congrArg (· >>= _) h1) ?_
  rw [ok_bind]
  apply Mat.new_list hh
  congr 1
  exact h2.elements (by simp [hh])

end Poseidon
