import Verif.Model.StarkMds
import Verif.Spec.Stark
import Verif.Proofs.CauchyDet
import Verif.Proofs.Cauchy
import Mathlib.LinearAlgebra.Matrix.ToLinearEquiv
import Mathlib.LinearAlgebra.Matrix.Charpoly.Coeff

/-! # The loop of `generate_mds_matrix` -/

namespace Poseidon

open Matrix

variable {F : Type} [Field F] {h : List Nat → Nat} {name : List Char} {m : Nat}

/-- The characteristic polynomial has a root iff there is an eigenvector. -/
theorem charpoly_roots_iff (M : Matrix (Fin m) (Fin m) F) : M.charpoly.roots = 0 ↔ ¬ HasEigenvector M := by
  have h0 : M.charpoly ≠ 0 := (Matrix.charpoly_monic M).ne_zero
  rw [Multiset.eq_zero_iff_forall_notMem]
  simp only [Polynomial.mem_roots h0, Polynomial.IsRoot.def, Matrix.eval_charpoly]
  rw [HasEigenvector, not_exists]
  refine forall_congr' fun c => not_congr ?_
  rw [← Matrix.exists_mulVec_eq_zero_iff]
  refine exists_congr fun v => and_congr_right fun _ => ?_
  rw [Matrix.sub_mulVec, sub_eq_zero, eq_comm]
  rw [show (Matrix.scalar (Fin m)) c *ᵥ v = c • v by
    ext i
    simp [Matrix.scalar_apply, Matrix.mulVec_diagonal]]

theorem injective_elim_iff {a : Nat} :
    Function.Injective (Sum.elim (fun i : Fin m => Stark.roundConstant F h (name ++ ['x']) (a * m + i))
      fun i : Fin m => Stark.roundConstant F h (name ++ ['y']) (a * m + i)) ↔ StarkDistinct F h name m a := by
  constructor
  · intro hi
    refine ⟨fun i j e => ?_, fun i j e => ?_, fun i j e => ?_⟩
    · exact Sum.inl.inj (hi (a₁ := .inl i) (a₂ := .inl j) e)
    · exact Sum.inr.inj (hi (a₁ := .inr i) (a₂ := .inr j) e)
    · exact absurd (hi (a₁ := .inl i) (a₂ := .inr j) e) (by simp)
  · rintro ⟨h1, h2, h3⟩ (i | i) (j | j) e
    · exact congrArg _ (h1 i j e)
    · exact absurd e (h3 i j)
    · exact absurd e.symm (h3 j i)
    · exact congrArg _ (h2 i j e)

theorem StarkDistinct.isMDS {a : Nat} (d : StarkDistinct F h name m a) : IsMDS (starkMatrix F h name m a) := by
  have := cauchy_isMDS (starkRows F h name m a) (fun j => - starkColumns F h name m a j) (fun i j e => d.rows i j e)
    (fun i j e => d.columns i j (neg_injective e)) (fun i j e => d.both i j (by linear_combination e))
  convert this using 1
  ext i j
  simp [starkMatrix, sub_eq_add_neg]

theorem StarkDistinct.det_ne_zero {a : Nat} (d : StarkDistinct F h name m a) : (starkMatrix F h name m a).det ≠ 0 := by
  have := d.isMDS m id id Function.injective_id Function.injective_id
  simpa using this

theorem StarkDistinct.det_eq {a : Nat} (d : StarkDistinct F h name m a) :
    (starkMatrix F h name m a).det = Stark.expectedDet (starkRows F h name m a) (starkColumns F h name m a) :=
  cauchy_det_eq _ _ d.both

/-- One round of the loop, without the assertions that cannot fail -/
theorem attempts_succ (n a : Nat) :
    Stark.attempts (F := F) h name m false (n + 1) a =
      open Classical in
      if StarkDistinct F h name m a then
        if HasEigenvector (starkMatrix F h name m a) then Stark.attempts h name m false n (a + 1) else .ok (starkMatrix F h name m a)
      else .error .notDistinct := by
  classical
  rw [Stark.attempts]
  simp only [injective_elim_iff]
  by_cases d : StarkDistinct F h name m a
  · have e1 : Stark.proto (fun i : Fin m => Stark.roundConstant F h (name ++ ['x']) (a * m + i))
        (fun i : Fin m => Stark.roundConstant F h (name ++ ['y']) (a * m + i)) = starkMatrix F h name m a := rfl
    have e2 : Stark.expectedDet (fun i : Fin m => Stark.roundConstant F h (name ++ ['x']) (a * m + i))
        (fun i : Fin m => Stark.roundConstant F h (name ++ ['y']) (a * m + i)) =
        Stark.expectedDet (starkRows F h name m a) (starkColumns F h name m a) := rfl
    rw [if_neg (not_not.2 d), if_neg (by simp), if_pos d, e1, e2, if_neg d.det_ne_zero, if_neg (not_not.2 d.det_eq)]
    by_cases he : HasEigenvector (starkMatrix F h name m a)
    · rw [if_pos he, if_neg (by rw [charpoly_roots_iff]; exact not_not.2 he)]
    · rw [if_neg he, if_pos ((charpoly_roots_iff _).2 he)]
  · rw [if_pos d, if_neg d]

/-- The result of the loop with `n` attempts from attempt `a` on -/
theorem attempts_ok_iff (n a : Nat) (M : Matrix (Fin m) (Fin m) F) :
    Stark.attempts h name m false n a = .ok M ↔
      ∃ k < n, (∀ b ≤ k, StarkDistinct F h name m (a + b)) ∧ (∀ b < k, HasEigenvector (starkMatrix F h name m (a + b))) ∧
        ¬ HasEigenvector (starkMatrix F h name m (a + k)) ∧ M = starkMatrix F h name m (a + k) := by
  classical
  induction n generalizing a with
  | zero => simp [Stark.attempts]
  | succ n ih =>
    rw [attempts_succ]
    by_cases d : StarkDistinct F h name m a
    · rw [if_pos d]
      by_cases he : HasEigenvector (starkMatrix F h name m a)
      · rw [if_pos he, ih]
        constructor
        · rintro ⟨k, hk, h1, h2, h3, h4⟩
          refine ⟨k + 1, by omega, fun b hb => ?_, fun b hb => ?_, ?_, ?_⟩
          · cases b with
            | zero => exact d
            | succ b => have := h1 b (by omega); rwa [show a + (b + 1) = a + 1 + b by omega]
          · cases b with
            | zero => exact he
            | succ b => have := h2 b (by omega); rwa [show a + (b + 1) = a + 1 + b by omega]
          · rwa [show a + (k + 1) = a + 1 + k by omega]
          · rwa [show a + (k + 1) = a + 1 + k by omega]
        · rintro ⟨k, hk, h1, h2, h3, h4⟩
          cases k with
          | zero => exact absurd he h3
          | succ k =>
            refine ⟨k, by omega, fun b hb => ?_, fun b hb => ?_, ?_, ?_⟩
            · have := h1 (b + 1) (by omega); rwa [show a + (b + 1) = a + 1 + b by omega] at this
            · have := h2 (b + 1) (by omega); rwa [show a + (b + 1) = a + 1 + b by omega] at this
            · rwa [show a + (k + 1) = a + 1 + k by omega] at h3
            · rwa [show a + (k + 1) = a + 1 + k by omega] at h4
      · rw [if_neg he]
        constructor
        · intro e
          injection e with e
          exact ⟨0, by omega, fun b hb => by obtain rfl : b = 0 := by omega
                                             exact d, fun b hb => by omega, he, e.symm⟩
        · rintro ⟨k, hk, h1, h2, h3, h4⟩
          cases k with
          | zero => rw [h4]; rfl
          | succ k => exact absurd (h2 0 (by omega)) he
    · rw [if_neg d]
      constructor
      · intro e; simp at e
      · rintro ⟨k, hk, h1, -⟩
        exact absurd (h1 0 (by omega)) d

/-- What the loop raises -/
theorem attempts_error_iff (n a : Nat) (e : Stark.Err) :
    Stark.attempts (F := F) h name m false n a = .error e ↔
      (e = .notDistinct ∧ ∃ k < n, ¬ StarkDistinct F h name m (a + k) ∧
        ∀ b < k, StarkDistinct F h name m (a + b) ∧ HasEigenvector (starkMatrix F h name m (a + b))) ∨
      (e = .noGoodMds ∧ ∀ b < n, StarkDistinct F h name m (a + b) ∧ HasEigenvector (starkMatrix F h name m (a + b))) := by
  classical
  induction n generalizing a with
  | zero => simp [Stark.attempts, eq_comm]
  | succ n ih =>
    rw [attempts_succ]
    by_cases d : StarkDistinct F h name m a
    · rw [if_pos d]
      by_cases he : HasEigenvector (starkMatrix F h name m a)
      · rw [if_pos he, ih]
        have key : ∀ k, (∀ b < k + 1, StarkDistinct F h name m (a + b) ∧ HasEigenvector (starkMatrix F h name m (a + b))) ↔
            ∀ b < k, StarkDistinct F h name m (a + 1 + b) ∧ HasEigenvector (starkMatrix F h name m (a + 1 + b)) := by
          intro k
          constructor
          · intro hb b hk
            have := hb (b + 1) (by omega)
            rwa [show a + (b + 1) = a + 1 + b by omega] at this
          · intro hb b hk
            cases b with
            | zero => exact ⟨d, he⟩
            | succ b =>
              have := hb b (by omega)
              rwa [show a + (b + 1) = a + 1 + b by omega]
        rw [key n]
        refine or_congr (and_congr_right fun _ => ?_) Iff.rfl
        constructor
        · rintro ⟨k, hk, h1, h2⟩
          exact ⟨k + 1, by omega, by rwa [show a + (k + 1) = a + 1 + k by omega], (key k).2 h2⟩
        · rintro ⟨k, hk, h1, h2⟩
          cases k with
          | zero => exact absurd d h1
          | succ k => exact ⟨k, by omega, by rwa [show a + (k + 1) = a + 1 + k by omega] at h1, (key k).1 h2⟩
      · rw [if_neg he]
        constructor
        · intro e; simp at e
        · rintro (⟨-, k, hk, h1, h2⟩ | ⟨-, h2⟩)
          · cases k with
            | zero => exact absurd d h1
            | succ k => exact absurd (h2 0 (by omega)).2 he
          · exact absurd (h2 0 (by omega)).2 he
    · rw [if_neg d]
      constructor
      · intro e
        injection e with e
        exact Or.inl ⟨e.symm, 0, by omega, d, fun b hb => by omega⟩
      · rintro (⟨rfl, -⟩ | ⟨-, h2⟩)
        · rfl
        · exact absurd (h2 0 (by omega)).1 d

end Poseidon
