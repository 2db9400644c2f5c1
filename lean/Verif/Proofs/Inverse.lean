import Verif.Proofs.Matrix
import Mathlib.LinearAlgebra.Matrix.Adjugate
import Mathlib.LinearAlgebra.Matrix.NonsingularInverse

/-! # Closed forms of `minors` and `inverse` -/

set_option linter.unusedSectionVars false

namespace Poseidon

open Matrix

variable {F : Type _} [Field F] [DecidableEq F] {n k : Nat}

/-- The matrix of (unsigned) minors. -/
def minorsM (A : Matrix (Fin (k + 1)) (Fin (k + 1)) F) : Matrix (Fin (k + 1)) (Fin (k + 1)) F :=
  Matrix.of fun i j => (A.submatrix i.succAbove j.succAbove).det

theorem minorMatrix_eq (h : n = (k + 1) * (k + 1)) (hk : 1 ≤ k) (h8 : k ≤ 8)
    (m : Mat F (k + 1) (k + 1) n) : minorMatrix k m = .ok (Mat.ofM h (minorsM (m.toM h))) := by
  rw [minorMatrix]
  -- one minor
  have one : ∀ i j (hi : i < k + 1) (hj : j < k + 1), (do
      let copyRow := fun (k' : Nat) (s : Vector F (k * k) × Nat) => do
        let s ← forRange 0 j s fun l (x : Vector F (k * k) × Nat) => do
          let y ← m.get k' l
          let els ← aset x.1 x.2 y
          return (els, x.2 + 1)
        forRange (j + 1) (k + 1) s fun l (x : Vector F (k * k) × Nat) => do
          let y ← m.get k' l
          let els ← aset x.1 x.2 y
          return (els, x.2 + 1)
      let s ← forRange 0 i (Vector.replicate (k * k) (0 : F), 0) copyRow
      let s ← forRange (i + 1) (k + 1) s copyRow
      let minor ← Mat.new k k (k * k) s.1.toList
      determinant k minor : R F) = .ok (minorsM (m.toM h) ⟨i, hi⟩ ⟨j, hj⟩) := by
    intro i j hi hj
    set B : Mat F k k (k * k) := Mat.ofM rfl ((m.toM h).submatrix (Fin.succAbove ⟨i, hi⟩) (Fin.succAbove ⟨j, hj⟩)) with hB
    have key : ∀ a b (ha : a < k) (hb : b < k),
        m.get (skip i a) (skip j b) = .ok (B.flat (a * k + b)) := by
      intro a b ha hb
      rw [Mat.get_eq h m (skip_lt ha) (skip_lt hb), Mat.flat_toM rfl B ha hb, hB,
        Mat.toM_ofM, Matrix.submatrix_apply]
      congr 2
      · ext; rw [succAbove_val]
      · ext; rw [succAbove_val]
    have row : ∀ a k' (s : Vector F (k * k) × Nat), a < k → k' = skip i a → Filled B.flat (a * k) s →
        ∃ s', (do
          let s ← forRange 0 j s fun l (x : Vector F (k * k) × Nat) => do
            let y ← m.get k' l
            let els ← aset x.1 x.2 y
            return (els, x.2 + 1)
          forRange (j + 1) (k + 1) s fun l (x : Vector F (k * k) × Nat) => do
            let y ← m.get k' l
            let els ← aset x.1 x.2 y
            return (els, x.2 + 1)) = .ok s' ∧ Filled B.flat ((a + 1) * k) s' := by
      intro a k' s ha hk' hs
      have hbound : a * k + k ≤ k * k := by
        rw [← Nat.succ_mul]; exact Nat.mul_le_mul_right _ ha
      obtain ⟨s1, h1, h2⟩ := forRange_fill (lo := 0) (hi := j) (Nat.zero_le _) hs (by omega)
        (fun l => m.get k' l) (fun l _ hl => by
          have := key a l ha (by omega)
          rw [← hk', show skip j l = l by simp [skip, hl]] at this
          simpa using this)
        (body := fun l x => do
            let y ← m.get k' l
            let els ← aset x.1 x.2 y
            return (els, x.2 + 1)) (fun _ _ _ _ => rfl)
      obtain ⟨s2, h3, h4⟩ := forRange_fill (lo := j + 1) (hi := k + 1) (by omega) h2 (by omega)
        (fun l => m.get k' l) (fun l hl1 hl => by
          have := key a (l - 1) ha (by omega)
          rw [← hk', show skip j (l - 1) = l by unfold skip; split <;> omega] at this
          rw [this]; congr 2; omega)
        (body := fun l x => do
            let y ← m.get k' l
            let els ← aset x.1 x.2 y
            return (els, x.2 + 1)) (fun _ _ _ _ => rfl)
      refine ⟨s2, ?_, ?_⟩
      · rw [h1]; exact h3
      · rw [Nat.succ_mul]
        rwa [show a * k + (j - 0) + (k + 1 - (j + 1)) = a * k + k by omega] at h4
    obtain ⟨s1, h1, h2⟩ := forRange_spec (fun a s => Filled B.flat (a * k) s) (Nat.zero_le i)
      (s := (Vector.replicate (k * k) (0 : F), 0)) (by simpa using Filled.zero _ _)
      (fun a s _ ha hs => row a a s (by omega) (by simp [skip, ha]) hs)
    obtain ⟨s2, h3, h4⟩ := forRange_spec (fun a s => Filled B.flat ((a - 1) * k) s)
      (show i + 1 ≤ k + 1 by omega) (s := s1) (by simpa using h2)
      (fun a s ha1 ha hs => by
        have := row (a - 1) a s (by omega) (by unfold skip; split <;> omega) hs
        rwa [show a - 1 + 1 = a + 1 - 1 by omega] at this)
    show (forRange 0 i _ _ >>= _) = _
    refine Eq.trans (congrArg (· >>= _) h1) ?_
    rw [ok_bind]
    refine Eq.trans (congrArg (· >>= _) h3) ?_
    rw [ok_bind, h4.elements (by simp), Mat.new_elements rfl, ok_bind,
      determinant_eq k rfl B hk h8, hB, Mat.toM_ofM]
    rfl
  have := fill2_new h (Mat.ofM h (minorsM (m.toM h))) (Vector.replicate n (0 : F))
    (fun i j => (do
      let copyRow := fun (k' : Nat) (s : Vector F (k * k) × Nat) => do
        let s ← forRange 0 j s fun l (x : Vector F (k * k) × Nat) => do
          let y ← m.get k' l
          let els ← aset x.1 x.2 y
          return (els, x.2 + 1)
        forRange (j + 1) (k + 1) s fun l (x : Vector F (k * k) × Nat) => do
          let y ← m.get k' l
          let els ← aset x.1 x.2 y
          return (els, x.2 + 1)
      let s ← forRange 0 i (Vector.replicate (k * k) (0 : F), 0) copyRow
      let s ← forRange (i + 1) (k + 1) s copyRow
      let minor ← Mat.new k k (k * k) s.1.toList
      determinant k minor : R F))
    (fun i j hi hj => by rw [Mat.toM_ofM]; exact one i j hi hj)
    (body := fun i j s => (do
      let copyRow := fun (k' : Nat) (s : Vector F (k * k) × Nat) => do
        let s ← forRange 0 j s fun l (x : Vector F (k * k) × Nat) => do
          let y ← m.get k' l
          let els ← aset x.1 x.2 y
          return (els, x.2 + 1)
        forRange (j + 1) (k + 1) s fun l (x : Vector F (k * k) × Nat) => do
          let y ← m.get k' l
          let els ← aset x.1 x.2 y
          return (els, x.2 + 1)
      let s1 ← forRange 0 i (Vector.replicate (k * k) (0 : F), 0) copyRow
      let s2 ← forRange (i + 1) (k + 1) s1 copyRow
      let minor ← Mat.new k k (k * k) s2.1.toList
      let x ← determinant k minor
      let els ← aset s.1 s.2 x
      return (els, s.2 + 1)))
    (fun i j s => by
      simp only [bind_assoc])
  exact this

theorem minors_eq (h : n = (k + 1) * (k + 1)) (hk : 1 ≤ k) (h8 : k + 1 ≤ 8)
    (m : Mat F (k + 1) (k + 1) n) : m.minors = .ok (Mat.ofM h (minorsM (m.toM h))) := by
  match k, hk with
  | 1, _ =>
    have hn : n = 4 := by simpa using h
    subst hn
    simp only [Mat.minors]
    rw [Mat.get_eq h m (i := 0) (j := 0) (by omega) (by omega),
      Mat.get_eq h m (i := 0) (j := 1) (by omega) (by omega),
      Mat.get_eq h m (i := 1) (j := 0) (by omega) (by omega),
      Mat.get_eq h m (i := 1) (j := 1) (by omega) (by omega)]
    simp only [ok_bind]
    apply Mat.new_list h
    simp [Mat.ofM, List.ofFn_succ, minorsM, Vector.toList_ofFn]
  | d + 2, _ =>
    simp only [Mat.minors]
    rw [if_neg (by omega), minorMatrix_eq h (by omega) (by omega)]

theorem minors_one (m : Mat F 1 1 1) : m.minors = .ok m := by
  simp only [Mat.minors]
  rw [Mat.get_eq rfl m (by omega) (by omega), ok_bind]
  apply Mat.new_list rfl
  apply List.ext_getElem
  · simp
  · intro i h1 h2
    have : i = 0 := by simpa using h1
    subst this
    simp [Mat.toM]

/-- `minors ⊙ cofactors`, transposed, is the adjugate. -/
theorem adjugate_eq (A : Matrix (Fin (k + 1)) (Fin (k + 1)) F) :
    (Matrix.of fun i j => minorsM A i j * (-1) ^ (i.val + j.val))ᵀ = A.adjugate := by
  ext i j
  rw [Matrix.transpose_apply, Matrix.of_apply, Matrix.adjugate_fin_succ_eq_det_submatrix, mul_comm]
  rfl

theorem inverse_one (debug : Bool) (m : Mat F 1 1 1) :
    m.inverse debug = if m.elements[0] = 0 then .error .divZero
      else .ok (.ok ⟨Vector.singleton (m.elements[0])⁻¹⟩) := by
  rw [Mat.inverse, identity_eq rfl, ok_bind, if_pos rfl, Mat.get_eq rfl m (by omega) (by omega), ok_bind]
  have : m.toM rfl ⟨0, by omega⟩ ⟨0, by omega⟩ = m.elements[0] := rfl
  rw [this]
  split
  · rfl
  · rfl

theorem inverse_singular (debug : Bool) (h : n = k * k) (hk : 2 ≤ k) (h8 : k ≤ 8) (m : Mat F k k n)
    (hdet : (m.toM h).det = 0) : m.inverse debug = .ok (.error .noMatrixInverse) := by
  rw [Mat.inverse, identity_eq h, ok_bind, if_neg (by omega), determinant_eq k h m (by omega) h8, ok_bind,
    if_pos hdet]
  rfl

theorem inverse_regular (debug : Bool) (h : n = k * k) (hk : 2 ≤ k) (h8 : k ≤ 8) (m : Mat F k k n)
    (hdet : (m.toM h).det ≠ 0) : m.inverse debug = .ok (.ok (Mat.ofM h (m.toM h)⁻¹)) := by
  obtain ⟨d, rfl⟩ : ∃ d, k = d + 1 := ⟨k - 1, by omega⟩
  rw [Mat.inverse, identity_eq h, ok_bind, if_neg (by omega), determinant_eq _ h m (by omega) h8, ok_bind,
    if_neg hdet, minors_eq h (by omega) h8, ok_bind, cofactors_eq h, ok_bind, hadamard_eq h, ok_bind,
    transpose_eq h, ok_bind, fdiv, if_neg hdet, ok_bind, scale_eq h, ok_bind]
  simp only [Mat.toM_ofM, Matrix.of_apply]
  have : (Matrix.of fun i j => (Matrix.of fun i j => minorsM (m.toM h) i j * (-1) ^ (i.val + j.val))ᵀ i j
      * (1 * (m.toM h).det⁻¹)) = (m.toM h)⁻¹ := by
    rw [adjugate_eq, Matrix.inv_def, Ring.inverse_eq_inv']
    ext i j
    simp [mul_comm]
  rw [this]
  cases debug with
  | false => rfl
  | true =>
    rw [if_pos rfl, matMul_eq h h h (by omega), Mat.toM_ofM, Matrix.mul_nonsing_inv _ (isUnit_iff_ne_zero.2 hdet)]
    simp

end Poseidon
