import Verif.Proofs.Shipped
import Verif.Params.Krylov

/-! # Word 0 observes every difference within `t` mix layers -/

namespace Poseidon

open Matrix

/-- Row 0 of `K` is `e0`, row `j + 1` is row `j` times the MDS matrix, `K * N = 1`. -/
def checkKrylov (t : Nat) (r : RawTables) (K N : List Nat) : Bool :=
  forceL (canons r.mds) fun mds =>
    allN t (fun i => Nat.beq (ent t K 0 i) (idN 0 i)) &&
    allN (t - 1) (fun j => allN t fun i =>
      dotIs t (fun l => ent t K j l) (fun l => ent t mds l i) (ent t K (j + 1) i)) &&
    checkProd t N K idN

theorem krylov_of_check {k : Nat} {r : RawTables} (hw : r.wf (k + 1) = true) (K N : List Nat)
    (hc : checkKrylov (k + 1) r K N = true) (x : Fin (k + 1) → Fq) (hx : x ≠ 0) :
    ∃ n, n < k + 1 ∧ ((Mat.toM rfl (r.toParams hw).mds) ^ n).mulVec x 0 ≠ 0 := by
  simp only [checkKrylov, forceL_eq, Bool.and_eq_true, Nat.add_sub_cancel] at hc
  obtain ⟨⟨h0, hs⟩, hp⟩ := hc
  have eMds : Mat.toM rfl (r.toParams hw).mds = natM (k + 1) (k + 1) (canons r.mds) := vecM _ _ _
  rw [eMds]
  set M := natM (k + 1) (k + 1) (canons r.mds)
  -- row j of K observes M^j
  have row : ∀ j (hj : j < k + 1) (y : Fin (k + 1) → Fq),
      (natM (k + 1) (k + 1) K).mulVec y ⟨j, hj⟩ = (M ^ j).mulVec y 0 := by
    intro j
    induction j with
    | zero =>
      intro hj y
      rw [pow_zero, Matrix.one_mulVec]
      have hrow : ∀ i : Fin (k + 1), natM (k + 1) (k + 1) K ⟨0, hj⟩ i = (1 : Matrix (Fin (k + 1)) (Fin (k + 1)) Fq) 0 i := by
        intro i
        rw [← idN_cast]
        exact congrArg (Nat.cast (R := Fq)) (beq_cast (allN_iff.1 h0 i i.isLt))
      rw [Matrix.mulVec, _root_.dotProduct]
      simp only [hrow]
      exact congrFun (Matrix.one_mulVec y) 0
    | succ j ih =>
      intro hj y
      rw [pow_succ, ← Matrix.mulVec_mulVec, ← ih (by omega) (M.mulVec y)]
      rw [Matrix.mulVec_mulVec]
      rw [Matrix.mulVec, Matrix.mulVec]
      congr 1
      funext i
      rw [Matrix.mul_apply]
      exact (dotIs_cast (allN_iff.1 (allN_iff.1 hs j (by omega)) i i.isLt)).symm
  by_contra hall
  push Not at hall
  apply hx
  have hK : (natM (k + 1) (k + 1) K).mulVec x = 0 := by
    funext j
    rw [row j.val j.isLt x]
    exact hall j.val j.isLt
  have h1 : natM (k + 1) (k + 1) N * natM (k + 1) (k + 1) K = 1 := by rw [checkProd_cast hp, idN_cast]
  calc x = (1 : Matrix (Fin (k + 1)) (Fin (k + 1)) Fq).mulVec x := (Matrix.one_mulVec x).symm
    _ = 0 := by rw [← h1, ← Matrix.mulVec_mulVec, hK, Matrix.mulVec_zero]

theorem shipped_krylov (i : Fin 7) (x : Fin (i.val + 2) → Fq) (hx : x ≠ 0) :
    ∃ n, n < i.val + 2 ∧ (((shippedParams i).mds.toM rfl) ^ n).mulVec x 0 ≠ 0 := by
  fin_cases i
  · exact krylov_of_check rate1Raw_wf krylovK2 krylovN2 (by decide +kernel) x hx
  · exact krylov_of_check rate2Raw_wf krylovK3 krylovN3 (by decide +kernel) x hx
  · exact krylov_of_check rate3Raw_wf krylovK4 krylovN4 (by decide +kernel) x hx
  · exact krylov_of_check rate4Raw_wf krylovK5 krylovN5 (by decide +kernel) x hx
  · exact krylov_of_check rate5Raw_wf krylovK6 krylovN6 (by decide +kernel) x hx
  · exact krylov_of_check rate6Raw_wf krylovK7 krylovN7 (by decide +kernel) x hx
  · exact krylov_of_check rate7Raw_wf krylovK8 krylovN8 (by decide +kernel) x hx

end Poseidon
