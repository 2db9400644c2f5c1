import Verif.Proofs.Optimized

/-! # Parameter sets with correct derived tables are consistent -/

set_option linter.unusedSectionVars false

namespace Poseidon

open Matrix

variable {F : Type _} [Field F] [DecidableEq F]
variable {k nmds nhat rows nround npart : Nat}

theorem diag1_mul_mds (A H : Matrix (Fin k) (Fin k) F) (M : Matrix (Fin (k + 1)) (Fin (k + 1)) F)
    (hH : ∀ i j, H i j = M i.succ j.succ) (v wh : Fin k → F)
    (hv : v = A.mulVec fun i => M i.succ 0)
    (hw : Matrix.vecMul wh (A * H) = fun j => M 0 j.succ) :
    diag1 A * M = sparseM (M 0 0) v wh * diag1 (A * H) := by
  ext i j
  rw [Matrix.mul_apply, Matrix.mul_apply, Fin.sum_univ_succ, Fin.sum_univ_succ]
  cases i using Fin.cases with
  | zero =>
    cases j using Fin.cases with
    | zero => simp [diag1, sparseM]
    | succ j =>
      have := congrFun hw j
      simp only [Matrix.vecMul, _root_.dotProduct] at this
      simp [diag1, sparseM, this]
  | succ i =>
    cases j using Fin.cases with
    | zero =>
      simp [diag1, sparseM, hv, Matrix.mulVec, _root_.dotProduct]
    | succ j =>
      simp [diag1, sparseM, Matrix.mul_apply, hH]

theorem Consistent.of_derived {p : Params F (k + 1) k nmds nhat rows (k + 1) nround npart}
    {hm : nmds = (k + 1) * (k + 1)} {hh : nhat = k * k} {ha : nround = rows * (k + 1)}
    (h1 : DerivedMds p hm hh) (h2 : DerivedArc p hm ha)
    (rows_le : p.rounds.rF / 2 + p.rounds.rP + p.rounds.rF / 2 ≤ rows)
    (rp_pos : 1 ≤ p.rounds.rP) (rp_le : p.rounds.rP ≤ npart) : Consistent p hm ha where
  rows_le := rows_le
  rp_pos := rp_pos
  rp_le := rp_le
  full_pre := h2.full_pre
  full_post := h2.full_post
  rel :=
    { mats := by
        refine ⟨fun j => p.optimizedMds.mHat.toM hh ^ j, pow_zero _, h1.mI, ?_⟩
        intro j hj
        have hj' : j < npart := by omega
        beta_reduce
        rw [storedSparse, dif_pos hj', pow_succ, h1.m00]
        apply diag1_mul_mds _ _ _ h1.mHat
        · rw [h1.vCollection j hj']
          congr 1
          funext i; exact h1.w i
        · rw [← pow_succ, h1.wHatCollection j hj']
          funext i; exact h1.v i
      consts := h2.moved }

end Poseidon
