import Verif.Proofs.GenCauchy
import Mathlib.Algebra.Group.ForwardDiff
import Mathlib.Algebra.Polynomial.BigOperators
import Mathlib.Algebra.BigOperators.Field

/-!
# The generator accepts its own Cauchy matrices

`M_hat⁻¹ w` of the matrix `1/(i + j + t)` in closed form, by finite differences.
-/

set_option linter.unusedSectionVars false

namespace Poseidon

open Finset Polynomial

variable {F : Type} [Field F] [DecidableEq F] {k : Nat}

/-- Alternating binomial sums of low-degree polynomials vanish. -/
theorem alternating_sum_zero (P : F[X]) {n : Nat} (hP : P.natDegree < n) :
    ∑ j ∈ range (n + 1), (-1 : F) ^ j * (n.choose j : F) * P.eval (j : F) = 0 := by
  have h := congrFun (Polynomial.fwdDiff_iter_eq_zero_of_degree_lt hP) 0
  rw [fwdDiff_iter_eq_sum_shift] at h
  have h2 : ∑ j ∈ range (n + 1), (-1 : F) ^ j * (n.choose j : F) * P.eval (j : F) =
      (-1) ^ n * ∑ j ∈ range (n + 1), ((-1 : ℤ) ^ (n - j) * n.choose j) • P.eval (0 + j • (1 : F)) := by
    rw [Finset.mul_sum]
    apply Finset.sum_congr rfl
    intro j hj
    have hj' : j ≤ n := by have := Finset.mem_range.1 hj; omega
    rw [zsmul_eq_mul]
    push_cast
    have : (-1 : F) ^ n * ((-1) ^ (n - j)) = (-1) ^ j := by
      rw [← pow_add, show n + (n - j) = 2 * (n - j) + j by omega, pow_add, pow_mul]; simp
    rw [zero_add, nsmul_eq_mul, mul_one, ← mul_assoc, ← mul_assoc, this]
  rw [h2, h]
  simp

/-- `∏ (t + i + j)` over `i = 1, .., k`, with `t = k + 1`. -/
def rising (k j : Nat) : Nat := ∏ i ∈ range k, (k + 1 + (i + 1) + j)

/-- `M_hat⁻¹ w` of the Cauchy matrix. -/
def cauchyWHat (F : Type) [Field F] (k : Nat) (j : Fin k) : F :=
  (-1) ^ j.val * (k.choose (j.val + 1) : F) * (rising k (j.val + 1) : F) / (rising k 0 : F)

theorem rising_ne_zero {p : Nat} [CharP F p] (hp : 3 * k + 1 < p) {j : Nat} (hj : j ≤ k) : (rising k j : F) ≠ 0 := by
  rw [rising, Nat.cast_prod, Finset.prod_ne_zero_iff]
  intro i hi
  have := Finset.mem_range.1 hi
  exact natCast_ne_zero (p := p) (by omega) (by omega)

theorem cauchyWHat_spec {p : Nat} [CharP F p] (hp : 3 * k + 1 < p) :
    (hatM (cauchyMds F (k + 1))).mulVec (cauchyWHat F k) = colM (cauchyMds F (k + 1)) := by
  funext i0
  have hi0 := i0.isLt
  -- P(j) = ∏_{i ≠ i0} (t + i + j)
  set P : F[X] := ∏ i ∈ (range k).erase i0.val, (X + C ((k + 1 + (i + 1) : Nat) : F)) with hP
  have hdeg : P.natDegree < k := by
    rw [hP]
    refine lt_of_le_of_lt (Polynomial.natDegree_prod_le _ _) ?_
    have : ∀ i ∈ (range k).erase i0.val, (X + C ((k + 1 + (i + 1) : Nat) : F)).natDegree = 1 :=
      fun i _ => Polynomial.natDegree_X_add_C _
    rw [Finset.sum_congr rfl this, Finset.sum_const, Finset.card_erase_of_mem (Finset.mem_range.2 hi0),
      Finset.card_range]
    simp; omega
  have hne : ∀ j, j ≤ k → ((k + 1 + (i0.val + 1) + j : Nat) : F) ≠ 0 :=
    fun j hj => natCast_ne_zero (p := p) (by omega) (by omega)
  have heval : ∀ j, j ≤ k → P.eval (j : F) = (rising k j : F) / ((k + 1 + (i0.val + 1) + j : Nat) : F) := by
    intro j hj
    rw [eq_div_iff (hne j hj), hP, Polynomial.eval_prod, rising, Nat.cast_prod,
      ← Finset.prod_erase_mul (range k) _ (Finset.mem_range.2 hi0)]
    congr 1
    apply Finset.prod_congr rfl
    intro i _
    simp only [Polynomial.eval_add, Polynomial.eval_X, Polynomial.eval_C]
    rw [← Nat.cast_add, Nat.add_comm]
  have h := alternating_sum_zero P hdeg
  rw [Finset.sum_range_succ'] at h
  simp only [pow_zero, Nat.choose_zero_right, Nat.cast_one, one_mul] at h
  rw [heval 0 (by omega)] at h
  rw [Finset.sum_congr rfl fun j hj => by
    rw [heval (j + 1) (by have := Finset.mem_range.1 hj; omega)]] at h
  rw [← Fin.sum_univ_eq_sum_range (fun j => (-1 : F) ^ (j + 1) * (k.choose (j + 1) : F) *
    ((rising k (j + 1) : F) / ((k + 1 + (i0.val + 1) + (j + 1) : Nat) : F)))] at h
  have hN : (rising k 0 : F) ≠ 0 := rising_ne_zero (p := p) hp (by omega)
  have hlhs : (hatM (cauchyMds F (k + 1))).mulVec (cauchyWHat F k) i0 =
      -(∑ j : Fin k, (-1 : F) ^ (j.val + 1) * (k.choose (j.val + 1) : F) *
        ((rising k (j.val + 1) : F) / ((k + 1 + (i0.val + 1) + (j.val + 1) : Nat) : F))) / (rising k 0 : F) := by
    rw [neg_div, Finset.sum_div, ← Finset.sum_neg_distrib]
    simp only [Matrix.mulVec, _root_.dotProduct]
    apply Finset.sum_congr rfl
    intro j _
    have e : hatM (cauchyMds F (k + 1)) i0 j = ((k + 1 + (i0.val + 1) + (j.val + 1) : Nat) : F)⁻¹ := by
      simp only [hatM, Matrix.submatrix_apply, cauchyMds, Matrix.of_apply, Fin.val_succ]
      congr 2; omega
    rw [e, cauchyWHat, pow_succ]
    ring
  rw [hlhs, eq_neg_of_add_eq_zero_left h, neg_neg]
  have e : colM (cauchyMds F (k + 1)) i0 = ((k + 1 + (i0.val + 1) + 0 : Nat) : F)⁻¹ := by
    simp only [colM, cauchyMds, Matrix.of_apply, Fin.val_succ, Fin.val_zero]
    congr 2; omega
  rw [e]
  field_simp

theorem rising_le (k j b : Nat) (h : 2 * k + 1 + j ≤ b) : rising k j ≤ b ^ k := by
  rw [rising]
  calc ∏ i ∈ range k, (k + 1 + (i + 1) + j) ≤ ∏ _i ∈ range k, b := by
        apply Finset.prod_le_prod (fun _ _ => Nat.zero_le _)
        intro i hi
        have := Finset.mem_range.1 hi
        omega
    _ = b ^ k := by simp

theorem rising_pos (k j : Nat) : 0 < rising k j := Finset.prod_pos fun _ _ => by omega

theorem rising_lt (k j : Nat) (hk : 1 ≤ k) (hj : 1 ≤ j) : rising k 0 < rising k j := by
  rw [rising, rising]
  apply Finset.prod_lt_prod_of_nonempty (fun _ _ => by omega) (fun _ _ => by omega)
  exact Finset.nonempty_range_iff.2 (by omega)

/-- For widths 2 to 8 over large fields the entries of `M_hat⁻¹ w` are neither 0 nor 1. -/
theorem cauchyWHat_ne {p : Nat} [CharP F p] (hp : 2 ^ 127 ≤ p) (h8 : k ≤ 7) (j : Fin k) :
    cauchyWHat F k j ≠ 0 ∧ cauchyWHat F k j ≠ 1 := by
  have hj := j.isLt
  set a := k.choose (j.val + 1) * rising k (j.val + 1) with ha
  set b := rising k 0 with hb
  have hchoose : k.choose (j.val + 1) ≤ 2 ^ 7 :=
    (Nat.choose_le_two_pow k _).trans (Nat.pow_le_pow_right (by omega) h8)
  have hcpos : 0 < k.choose (j.val + 1) := Nat.choose_pos (by omega)
  have hr : rising k (j.val + 1) ≤ 22 ^ 7 :=
    (rising_le k (j.val + 1) 22 (by omega)).trans (Nat.pow_le_pow_right (by omega) h8)
  have hb' : b ≤ 22 ^ 7 := (rising_le k 0 22 (by omega)).trans (Nat.pow_le_pow_right (by omega) h8)
  have hale : a ≤ 2 ^ 7 * 22 ^ 7 := Nat.mul_le_mul hchoose hr
  have hapos : 0 < a := Nat.mul_pos hcpos (rising_pos _ _)
  have hbpos : 0 < b := rising_pos _ _
  have hab : b < a := lt_of_lt_of_le (rising_lt k (j.val + 1) (by omega) (by omega)) (Nat.le_mul_of_pos_left _ hcpos)
  have hw : cauchyWHat F k j = (-1) ^ j.val * (a : F) / (b : F) := by
    rw [cauchyWHat, ha, hb, Nat.cast_mul, mul_assoc]
  have hbF : (b : F) ≠ 0 := natCast_ne_zero (p := p) hbpos (by omega)
  have haF : (a : F) ≠ 0 := natCast_ne_zero (p := p) hapos (by omega)
  rw [hw]
  constructor
  · rw [div_ne_zero_iff]
    exact ⟨mul_ne_zero (pow_ne_zero _ (neg_ne_zero.2 one_ne_zero)) haF, hbF⟩
  · intro h
    rw [div_eq_one_iff_eq hbF] at h
    rcases neg_one_pow_eq_or F j.val with h1 | h1
    · rw [h1, one_mul] at h
      have := (CharP.natCast_eq_natCast F p).1 h
      rw [Nat.ModEq, Nat.mod_eq_of_lt (by omega), Nat.mod_eq_of_lt (by omega)] at this
      omega
    · rw [h1] at h
      have h2 : ((a + b : Nat) : F) = 0 := by
        rw [Nat.cast_add, ← h]; ring
      exact natCast_ne_zero (p := p) (by omega) (by omega) h2

theorem cauchy_hat_det {p : Nat} [CharP F p] (hp : 3 * (k + 1) ≤ p + 1) : (hatM (cauchyMds F (k + 1))).det ≠ 0 :=
  cauchyMds_isMDS (F := F) (k + 1) p hp k Fin.succ Fin.succ (Fin.succ_injective _) (Fin.succ_injective _)

theorem cauchy_det {p : Nat} [CharP F p] (hp : 3 * (k + 1) ≤ p + 1) : (cauchyMds F (k + 1)).det ≠ 0 := by
  have := cauchyMds_isMDS (F := F) (k + 1) p hp _ id id Function.injective_id Function.injective_id
  rwa [Matrix.submatrix_id_id] at this

theorem cauchy_countsOk {p : Nat} [CharP F p] (hp : 2 ^ 127 ≤ p) (hk : 1 ≤ k) (h8 : k ≤ 7) :
    CountsOk (cauchyMds F (k + 1)) := by
  have hent : ∀ a : Nat, 2 ≤ a → a < 100 → ((a : F)⁻¹ ≠ 0 ∧ (a : F)⁻¹ ≠ 1) := by
    intro a h2 h100
    refine ⟨inv_ne_zero (natCast_ne_zero (p := p) (by omega) (by omega)), ?_⟩
    intro h
    have h1 : (a : F) = ((1 : Nat) : F) := by rw [Nat.cast_one]; exact inv_eq_one.1 h
    have := (CharP.natCast_eq_natCast F p).1 h1
    rw [Nat.ModEq, Nat.mod_eq_of_lt (by omega), Nat.mod_eq_of_lt (by omega)] at this
    omega
  have hwhat : wHatM (cauchyMds F (k + 1)) = cauchyWHat F k := by
    rw [wHatM, ← cauchyWHat_spec (F := F) (p := p) (by omega), Matrix.mulVec_mulVec, Matrix.nonsing_inv_mul,
      Matrix.one_mulVec]
    exact isUnit_iff_ne_zero.2 (cauchy_hat_det (p := p) (by omega))
  intro x hx
  have pick : ∀ y : F, y ≠ 0 ∧ y ≠ 1 → y ≠ x := by
    rintro y ⟨h0, h1⟩
    rcases hx with rfl | rfl
    · exact h0
    · exact h1
  refine ⟨pick _ (hent _ (by simp; omega) (by simp; omega)), fun j => pick _ (hent _ ?_ ?_), fun i => ?_⟩
  · simp; omega
  · have := j.isLt; simp; omega
  · rw [hwhat]; exact pick _ (cauchyWHat_ne (p := p) hp h8 i)

end Poseidon
