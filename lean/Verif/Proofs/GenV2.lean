import Verif.Model.GenV2
import Verif.Spec.Poseidon2
import Verif.Proofs.Inverse
import Mathlib.LinearAlgebra.Matrix.SchurComplement
import Mathlib.LinearAlgebra.Matrix.Kronecker
import Mathlib.LinearAlgebra.Matrix.Reindex
import Mathlib.Algebra.CharP.Basic

/-! # The Poseidon2 matrices -/

namespace Poseidon

set_option linter.unusedSectionVars false

open scoped Matrix Kronecker

variable {F : Type _} [Field F] [DecidableEq F]

theorem m4_new : ∃ m : Mat F 4 4 16, Mat.new 4 4 16 (m4Elements F) = .ok m ∧ m.toM (by norm_num) = Spec.M4 F := by
  refine ⟨⟨⟨(m4Elements F).toArray, by simp [m4Elements]⟩⟩, ?_, ?_⟩
  · rw [Mat.new, if_neg (by norm_num), dif_pos (by simp [m4Elements])]
  · ext i j
    fin_cases i <;> fin_cases j <;> rfl

theorem internal2_new (n : Nat) (h : n = 2 * 2) :
    ∃ m : Mat F 2 2 n, Mat.new 2 2 n [2, 1, 1, 3] = .ok m ∧ m.toM h = Spec.Internal2 F := by
  subst h
  refine ⟨⟨⟨[2, 1, 1, 3].toArray, by simp⟩⟩, ?_, ?_⟩
  · rw [Mat.new, if_neg (by norm_num), dif_pos (by simp)]
  · ext i j
    fin_cases i <;> fin_cases j <;> rfl

theorem internal3_new (n : Nat) (h : n = 3 * 3) :
    ∃ m : Mat F 3 3 n, Mat.new 3 3 n [2, 1, 1, 1, 2, 1, 1, 1, 3] = .ok m ∧ m.toM h = Spec.Internal3 F := by
  subst h
  refine ⟨⟨⟨[2, 1, 1, 1, 2, 1, 1, 1, 3].toArray, by simp⟩⟩, ?_, ?_⟩
  · rw [Mat.new, if_neg (by norm_num), dif_pos (by simp)]
  · ext i j
    fin_cases i <;> fin_cases j <;> rfl

theorem internal2_det : (Spec.Internal2 F).det = 5 := by
  rw [Spec.Internal2, Matrix.det_fin_two_of]; norm_num

theorem internal3_det : (Spec.Internal3 F).det = 7 := by
  rw [Spec.Internal3, Matrix.det_fin_three]; simp; norm_num

theorem m4_det : (Spec.M4 F).det = -64 := by
  rw [Spec.M4, Matrix.det_succ_row_zero]
  simp [Fin.sum_univ_succ, Matrix.det_fin_three, Fin.succAbove]
  norm_num

/-- The four nested loops of `external::generate`. -/
theorem external_loops {t n d : Nat} (h : n = t * t) (hd : t = 4 * d) (m4 : Mat F 4 4 16)
    (hm4 : m4.toM (by norm_num) = Spec.M4 F) (s : Mat F t t n) :
    ∃ m, (forRange 0 d s fun i matrix =>
      forRange 0 d matrix fun j matrix =>
        if i = j then
          forRange 0 4 matrix fun row matrix =>
            forRange 0 4 matrix fun col matrix => do
              let x ← m4.get row col
              matrix.set (i * 4 + row) (j * 4 + col) (2 * x)
        else
          forRange 0 4 matrix fun row matrix =>
            forRange 0 4 matrix fun col matrix => do
              let x ← m4.get row col
              matrix.set (i * 4 + row) (j * 4 + col) x) = .ok m ∧ m.toM h = Spec.External F t := by
  -- one block, for any factor
  have block : ∀ (c : F) (i j : Nat), i < d → j < d → ((if i = j then 2 else 1) = c) → ∀ m : Mat F t t n,
      (∀ a b : Fin t, (a.val / 4 < i ∨ a.val / 4 = i ∧ b.val / 4 < j) → m.toM h a b = Spec.External F t a b) →
      ∃ m', (forRange 0 4 m fun row matrix =>
        forRange 0 4 matrix fun col matrix => do
          let x ← m4.get row col
          matrix.set (i * 4 + row) (j * 4 + col) (c * x)) = .ok m' ∧
        ∀ a b : Fin t, (a.val / 4 < i ∨ a.val / 4 = i ∧ b.val / 4 < j + 1) → m'.toM h a b = Spec.External F t a b := by
    intro c i j hi hj hc m hm
    obtain ⟨m', h1, h2⟩ := forRange_spec (lo := 0) (hi := 4)
      (fun row (m : Mat F t t n) => ∀ a b : Fin t,
        (a.val / 4 < i ∨ a.val / 4 = i ∧ (b.val / 4 < j ∨ b.val / 4 = j ∧ a.val % 4 < row)) →
        m.toM h a b = Spec.External F t a b)
      (body := fun row matrix => forRange 0 4 matrix fun col matrix => do
          let x ← m4.get row col
          matrix.set (i * 4 + row) (j * 4 + col) (c * x)) (by norm_num) (s := m)
      (fun a b hab => hm a b (by omega)) (by
        intro row m _ hrow hm
        obtain ⟨m', h1, h2⟩ := forRange_spec (lo := 0) (hi := 4)
          (fun col (m : Mat F t t n) => ∀ a b : Fin t,
            (a.val / 4 < i ∨ a.val / 4 = i ∧ (b.val / 4 < j ∨ b.val / 4 = j ∧ (a.val % 4 < row ∨ a.val % 4 = row ∧
              b.val % 4 < col))) →
            m.toM h a b = Spec.External F t a b)
          (body := fun col matrix => do
              let x ← m4.get row col
              matrix.set (i * 4 + row) (j * 4 + col) (c * x)) (by norm_num) (s := m)
          (fun a b hab => hm a b (by omega)) (by
            intro col m _ hcol hm
            have hset := Mat.set_eq h m (i := i * 4 + row) (j := j * 4 + col) (by omega) (by omega)
              (c * m4.toM (by norm_num) ⟨row, hrow⟩ ⟨col, hcol⟩)
            refine ⟨_, Eq.trans (congrArg (· >>= _) (Mat.get_eq (by norm_num) m4 hrow hcol)) hset, ?_⟩
            · intro a b hab
              rw [Mat.toM_ofM, Matrix.of_apply]
              split_ifs with hif
              · obtain ⟨rfl, rfl⟩ := hif
                rw [hm4, Spec.External, Matrix.of_apply, ← hc]
                simp only [show (i * 4 + row) / 4 = i by omega, show (j * 4 + col) / 4 = j by omega,
                  show (i * 4 + row) % 4 = row by omega, show (j * 4 + col) % 4 = col by omega]
              · apply hm
                rw [Fin.ext_iff, Fin.ext_iff] at hif
                dsimp only at hif
                omega)
        exact ⟨m', h1, fun a b hab => h2 a b (by omega)⟩)
    exact ⟨m', h1, fun a b hab => h2 a b (by omega)⟩
  obtain ⟨m, h1, h2⟩ := forRange_spec (lo := 0) (hi := d)
    (fun i (m : Mat F t t n) => ∀ a b : Fin t, a.val / 4 < i → m.toM h a b = Spec.External F t a b)
    (body := fun i matrix => forRange 0 d matrix fun j matrix =>
        if i = j then
          forRange 0 4 matrix fun row matrix =>
            forRange 0 4 matrix fun col matrix => do
              let x ← m4.get row col
              matrix.set (i * 4 + row) (j * 4 + col) (2 * x)
        else
          forRange 0 4 matrix fun row matrix =>
            forRange 0 4 matrix fun col matrix => do
              let x ← m4.get row col
              matrix.set (i * 4 + row) (j * 4 + col) x) (Nat.zero_le _) (s := s)
    (fun a b hab => absurd hab (by omega)) (by
      intro i m _ hi hm
      obtain ⟨m', h1, h2⟩ := forRange_spec (lo := 0) (hi := d)
        (fun j (m : Mat F t t n) => ∀ a b : Fin t, (a.val / 4 < i ∨ a.val / 4 = i ∧ b.val / 4 < j) →
          m.toM h a b = Spec.External F t a b)
        (body := fun j matrix =>
          if i = j then
            forRange 0 4 matrix fun row matrix =>
              forRange 0 4 matrix fun col matrix => do
                let x ← m4.get row col
                matrix.set (i * 4 + row) (j * 4 + col) (2 * x)
          else
            forRange 0 4 matrix fun row matrix =>
              forRange 0 4 matrix fun col matrix => do
                let x ← m4.get row col
                matrix.set (i * 4 + row) (j * 4 + col) x) (Nat.zero_le _) (s := m)
        (fun a b hab => hm a b (by omega)) (by
          intro j m _ hj hm
          by_cases hij : i = j
          · simp only [if_pos hij]
            exact block 2 i j hi hj (by rw [if_pos hij]) m hm
          · simp only [if_neg hij]
            have := block 1 i j hi hj (by rw [if_neg hij]) m hm
            simpa only [one_mul] using this)
      refine ⟨m', h1, fun a b hab => h2 a b ?_⟩
      have := b.isLt
      omega)
  refine ⟨m, h1, ?_⟩
  ext a b
  have := a.isLt
  exact h2 a b (by omega)

/-- Determinant of the external matrix. -/
theorem external_det (d : Nat) : (Spec.External F (d * 4)).det = ((d : F) + 1) ^ 4 * (-64) ^ d := by
  have e : Spec.External F (d * 4) = Matrix.reindex finProdFinEquiv finProdFinEquiv
      ((1 + Matrix.replicateCol Unit (fun _ : Fin d => (1 : F)) * Matrix.replicateRow Unit (fun _ : Fin d => (1 : F)))
        ⊗ₖ Spec.M4 F) := by
    ext a b
    obtain ⟨⟨i, x⟩, rfl⟩ := finProdFinEquiv.surjective a
    obtain ⟨⟨j, y⟩, rfl⟩ := finProdFinEquiv.surjective b
    have hx := x.isLt
    have hy := y.isLt
    simp only [Matrix.reindex_apply, Matrix.submatrix_apply, Equiv.symm_apply_apply, Matrix.kroneckerMap_apply,
      Spec.External, Matrix.of_apply, finProdFinEquiv_apply_val]
    simp only [show (x.val + 4 * i.val) / 4 = i.val by omega, show (y.val + 4 * j.val) / 4 = j.val by omega,
      show (x.val + 4 * i.val) % 4 = x.val by omega, show (y.val + 4 * j.val) % 4 = y.val by omega, Fin.eta,
      Matrix.add_apply, Matrix.mul_apply, Matrix.one_apply, Matrix.replicateCol_apply, Matrix.replicateRow_apply,
      Fin.ext_iff]
    congr 1
    split_ifs <;> simp
    norm_num
  rw [e, Matrix.det_reindex_self, Matrix.det_kronecker, Matrix.det_one_add_replicateCol_mul_replicateRow, m4_det]
  simp only [_root_.dotProduct, mul_one, Finset.sum_const, Finset.card_univ, Fintype.card_fin, nsmul_eq_mul]
  ring

end Poseidon
