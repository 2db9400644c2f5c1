import Mathlib.LinearAlgebra.Matrix.Determinant.Basic
import Mathlib.Order.Interval.Finset.Fin
import Mathlib.Tactic.FieldSimp
import Mathlib.Tactic.Ring
import Mathlib.Tactic.IntervalCases

/-! # The determinant of a Cauchy matrix `1 / (x_i - y_j)` -/

namespace Poseidon

open Matrix

variable {F : Type _} [Field F]

/-- One step: the first row and column are cleared. -/
theorem cauchy_det_succ {m : Nat} (x y : Fin (m + 1) → F) (hxy : ∀ i j, x i ≠ y j) :
    (Matrix.of fun i j => 1 / (x i - y j)).det =
      (∏ i : Fin m, (x 0 - x i.succ)) * (∏ j : Fin m, (y j.succ - y 0)) /
        ((∏ j, (x 0 - y j)) * ∏ i : Fin m, (x i.succ - y 0)) *
      (Matrix.of fun i j : Fin m => 1 / (x i.succ - y j.succ)).det := by
  have hs : ∀ i j, x i - y j ≠ 0 := fun i j => sub_ne_zero.2 (hxy i j)
  -- clear the first column of the rows
  set B : Matrix (Fin (m + 1)) (Fin (m + 1)) F :=
    Matrix.of fun i j => Fin.cases (1 / (x 0 - y j)) (fun i' => (x 0 - x i'.succ) / ((x i'.succ - y j) * (x 0 - y j))) i with hB
  have h1 : (Matrix.of fun i j => 1 / (x i - y j)).det = B.det := by
    refine Matrix.det_eq_of_forall_row_eq_smul_add_const (fun i => if i = 0 then 0 else 1) 0 (by simp) ?_
    intro i j
    refine Fin.cases ?_ (fun i' => ?_) i
    · simp [hB]
    · have := hs i'.succ j; have := hs 0 j
      simp only [hB, Matrix.of_apply, Fin.cases_succ, Fin.cases_zero, Fin.succ_ne_zero, if_false, one_mul]
      field_simp
      ring
  -- take the factors out
  set C : Matrix (Fin (m + 1)) (Fin (m + 1)) F :=
    Matrix.of fun i j => Fin.cases 1 (fun i' => 1 / (x i'.succ - y j)) i with hC
  have h2 : B.det = (∏ j, 1 / (x 0 - y j)) * ((∏ i : Fin m, (x 0 - x i.succ)) * C.det) := by
    have e : B = Matrix.of fun i j => (1 / (x 0 - y j)) *
        (Matrix.of fun i j => (Fin.cases 1 (fun i' => x 0 - x i'.succ) i : F) * C i j) i j := by
      ext i j
      refine Fin.cases ?_ (fun i' => ?_) i
      · simp [hB, hC]
      · have := hs i'.succ j; have := hs 0 j
        simp only [hB, hC, Matrix.of_apply, Fin.cases_succ]
        field_simp
    rw [e, Matrix.det_mul_row, Matrix.det_mul_column, Fin.prod_univ_succ (fun i => (Fin.cases 1 (fun i' => x 0 - x i'.succ) i : F))]
    simp
  -- clear the first row
  set D : Matrix (Fin (m + 1)) (Fin (m + 1)) F := Matrix.of fun i j =>
    Fin.cases (Fin.cases 1 (fun _ => 0) j)
      (fun i' => Fin.cases (1 / (x i'.succ - y 0)) (fun j' => (y j'.succ - y 0) / ((x i'.succ - y j'.succ) * (x i'.succ - y 0))) j) i with hD
  have h3 : C.det = D.det := by
    rw [← Matrix.det_transpose C, ← Matrix.det_transpose D]
    refine Matrix.det_eq_of_forall_row_eq_smul_add_const (fun j => if j = 0 then 0 else 1) 0 (by simp) ?_
    intro j i
    refine Fin.cases ?_ (fun j' => ?_) j
    · refine Fin.cases ?_ (fun i' => ?_) i <;> simp [hC, hD]
    · refine Fin.cases ?_ (fun i' => ?_) i
      · simp [hC, hD]
      · have := hs i'.succ j'.succ; have := hs i'.succ 0
        simp only [hC, hD, Matrix.transpose_apply, Matrix.of_apply, Fin.cases_succ, Fin.cases_zero, Fin.succ_ne_zero, if_false, one_mul]
        field_simp
        ring
  have h4 : D.det = (Matrix.of fun i j : Fin m => (y j.succ - y 0) / ((x i.succ - y j.succ) * (x i.succ - y 0))).det := by
    rw [Matrix.det_succ_row_zero, Fin.sum_univ_succ, Finset.sum_eq_zero (fun j _ => by simp [hD])]
    simp only [hD, Matrix.of_apply, Fin.cases_zero, Fin.val_zero, pow_zero, one_mul, add_zero]
    congr 1
  have h5 : (Matrix.of fun i j : Fin m => (y j.succ - y 0) / ((x i.succ - y j.succ) * (x i.succ - y 0))).det =
      (∏ j : Fin m, (y j.succ - y 0)) * ((∏ i : Fin m, 1 / (x i.succ - y 0)) * (Matrix.of fun i j : Fin m => 1 / (x i.succ - y j.succ)).det) := by
    rw [← Matrix.det_mul_column, ← Matrix.det_mul_row]
    congr 1
    ext i j
    have := hs i.succ j.succ; have := hs i.succ 0
    simp only [Matrix.of_apply]
    field_simp
  rw [h1, h2, h3, h4, h5]
  have a1 : (∏ j, (x 0 - y j)) ≠ 0 := Finset.prod_ne_zero_iff.2 fun j _ => hs 0 j
  have a2 : (∏ i : Fin m, (x i.succ - y 0)) ≠ 0 := Finset.prod_ne_zero_iff.2 fun i _ => hs i.succ 0
  simp only [one_div, Finset.prod_inv_distrib]
  field_simp

/-- Products over pairs of indices, split at the first one -/
theorem prod_pairs_succ {m : Nat} (x : Fin (m + 1) → F) :
    ∏ i, ∏ j ∈ Finset.Iio i, (x i - x j) = (∏ i : Fin m, (x i.succ - x 0)) * ∏ i : Fin m, ∏ j ∈ Finset.Iio i, (x i.succ - x j.succ) := by
  rw [Fin.prod_univ_succ]
  have h0 : Finset.Iio (0 : Fin (m + 1)) = ∅ := by ext j; simp
  rw [h0, Finset.prod_empty, one_mul, ← Finset.prod_mul_distrib]
  refine Finset.prod_congr rfl fun i _ => ?_
  have : Finset.Iio i.succ = insert 0 ((Finset.Iio i).map (Fin.succEmb m)) := by
    ext j
    refine Fin.cases ?_ (fun j' => ?_) j
    · simp
    · simp
  rw [this, Finset.prod_insert (by simp), Finset.prod_map]
  rfl

/-- The determinant of a Cauchy matrix -/
theorem cauchy_det_eq {m : Nat} (x y : Fin m → F) (hxy : ∀ i j, x i ≠ y j) :
    (Matrix.of fun i j => 1 / (x i - y j)).det =
      (if m % 4 < 2 then 1 else -1) * (∏ i, ∏ j ∈ Finset.Iio i, (x i - x j)) * (∏ i, ∏ j ∈ Finset.Iio i, (y i - y j)) /
        ∏ i, ∏ j, (x i - y j) := by
  induction m with
  | zero => simp
  | succ m ih =>
    rw [cauchy_det_succ x y hxy, ih (fun i => x i.succ) (fun j => y j.succ) (fun i j => hxy _ _), prod_pairs_succ x, prod_pairs_succ y]
    have hneg : ∏ i : Fin m, (x 0 - x i.succ) = (-1) ^ m * ∏ i : Fin m, (x i.succ - x 0) := by
      rw [← Fin.prod_const, ← Finset.prod_mul_distrib]
      exact Finset.prod_congr rfl fun i _ => by ring
    have hsign : (if (m + 1) % 4 < 2 then (1 : F) else -1) = (-1) ^ m * (if m % 4 < 2 then 1 else -1) := by
      have : m % 4 < 4 := Nat.mod_lt _ (by norm_num)
      obtain ⟨r, k, hr, hk⟩ : ∃ r k, r < 4 ∧ m = 4 * k + r := ⟨m % 4, m / 4, this, by omega⟩
      subst hk
      have hp : (-1 : F) ^ (4 * k + r) = (-1) ^ r := by rw [pow_add, pow_mul]; norm_num
      rw [hp]
      have e1 : (4 * k + r) % 4 = r := by omega
      have e2 : (4 * k + r + 1) % 4 = (r + 1) % 4 := by omega
      rw [e1, e2]
      interval_cases r <;> norm_num
    rw [hneg, hsign, Fin.prod_univ_succ (fun i => ∏ j, (x i - y j))]
    have hsplit : ∏ i : Fin m, ∏ j, (x i.succ - y j) = (∏ i : Fin m, (x i.succ - y 0)) * ∏ i : Fin m, ∏ j : Fin m, (x i.succ - y j.succ) := by
      rw [← Finset.prod_mul_distrib]
      exact Finset.prod_congr rfl fun i _ => Fin.prod_univ_succ _
    rw [hsplit]
    have hs : ∀ i j, x i - y j ≠ 0 := fun i j => sub_ne_zero.2 (hxy i j)
    have a1 : (∏ j, (x 0 - y j)) ≠ 0 := Finset.prod_ne_zero_iff.2 fun j _ => hs 0 j
    have a2 : (∏ i : Fin m, (x i.succ - y 0)) ≠ 0 := Finset.prod_ne_zero_iff.2 fun i _ => hs i.succ 0
    have a3 : (∏ i : Fin m, ∏ j : Fin m, (x i.succ - y j.succ)) ≠ 0 :=
      Finset.prod_ne_zero_iff.2 fun i _ => Finset.prod_ne_zero_iff.2 fun j _ => hs _ _
    field_simp

end Poseidon
