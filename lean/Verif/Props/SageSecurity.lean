import Verif.Model.SageSecurity
import Verif.Props.Rounds

/-!
# The security estimates of the reference script (C79)

`poseidonperm_x17.sage` asks whether the shipped instances resist the two generic attacks of iacr/2024/310.
-/

namespace Poseidon

open Sage

/-- `.n()` has relative error at most 2^-30 (it computes with 53 bits). -/
def Sage.Accurate (N : ℝ → ℝ) : Prop := ∀ x, |N x - x| ≤ 2⁻¹ ^ 30 * |x|

theorem Sage.Accurate.ge {N : ℝ → ℝ} (hN : Accurate N) {x : ℝ} (hx : 0 ≤ x) : (1 - 2⁻¹ ^ 30) * x ≤ N x := by
  have h := (abs_le.1 (hN x)).1
  rw [abs_of_nonneg hx] at h
  linarith

theorem Sage.logb_17 : (4 : ℝ) ≤ Real.logb 2 17 := by
  rw [Real.le_logb_iff_rpow_le (by norm_num) (by norm_num)]
  norm_num

/-- **C79, eigenpolynomial attack.** The script's estimate is at least 311 bits for every input and output rate, not only for
the pairs the script prints (it prints neither input rate 1 nor 5). -/
theorem C79_eigenpolynomial (N : ℝ → ℝ) (hN : Accurate N) (M : Nat) (hM : M ≤ 311) (rIn rOut : Nat) (h1 : 1 ≤ rIn)
    (h2 : 1 ≤ rOut) : resistEigenpolynomial N { setting with M := M } rIn rOut := by
  have hD : Real.logb 2 ((17 ^ (2 * rIn * 4 + 31) : ℕ) : ℝ) = ((2 * rIn * 4 + 31 : ℕ) : ℝ) * Real.logb 2 17 := by
    rw [Nat.cast_pow, Real.logb_pow, Nat.cast_ofNat]
  have h3 : 0 ≤ Real.logb 2 ((min rIn rOut : ℕ) : ℝ) :=
    Real.logb_nonneg (by norm_num) (by exact_mod_cast le_min h1 h2)
  have h4 : 0 ≤ N (Real.logb 2 ((min rIn rOut : ℕ) : ℝ)) :=
    (mul_nonneg (by norm_num) h3).trans (hN.ge h3)
  have h5 : (39 : ℝ) ≤ ((2 * rIn * 4 + 31 : ℕ) : ℝ) := by exact_mod_cast (by omega : 39 ≤ 2 * rIn * 4 + 31)
  have h6 : (312 : ℝ) ≤ N (Real.logb 2 ((min rIn rOut : ℕ) : ℝ)) + 2 * Real.logb 2 ((17 ^ (2 * rIn * 4 + 31) : ℕ) : ℝ) := by
    rw [hD]
    nlinarith [logb_17]
  have h7 := hN.ge (le_trans (by norm_num) h6)
  have h8 : (M : ℝ) ≤ 311 := by exact_mod_cast hM
  have h9 : (M : ℝ) ≤ N (N (Real.logb 2 ((min rIn rOut : ℕ) : ℝ)) + 2 * Real.logb 2 ((17 ^ (2 * rIn * 4 + 31) : ℕ) : ℝ)) := by
    refine h8.trans (le_trans ?_ h7)
    have e : (311 : ℝ) ≤ (1 - 2⁻¹ ^ 30) * 312 := by norm_num
    exact e.trans (mul_le_mul_of_nonneg_left h6 (by norm_num))
  unfold resistEigenpolynomial Setting.D
  exact h9

theorem Sage.logb_q_ge : (252 : ℝ) ≤ Real.logb 2 q := by
  rw [Real.le_logb_iff_rpow_le (by norm_num) (by exact_mod_cast q_prime.pos)]
  have : 2 ^ 252 ≤ q := by decide +kernel
  exact_mod_cast this

theorem Sage.logb_q_lt : Real.logb 2 q < 253 := by
  rw [Real.logb_lt_iff_lt_rpow (by norm_num) (by exact_mod_cast q_prime.pos)]
  have : q < 2 ^ 253 := by decide +kernel
  exact_mod_cast this

theorem Sage.log_ge_485 {x : ℝ} (hx : 128 ≤ x) : 4.85 ≤ Real.log x := by
  have h : Real.log ((2 : ℝ) ^ 7) ≤ Real.log x := Real.log_le_log (by positivity) (by norm_num; linarith)
  rw [Real.log_pow] at h
  have := Real.log_two_gt_d9
  norm_num at h
  linarith

theorem Sage.log_ge_138 {x : ℝ} (hx : 4 ≤ x) : 1.38 ≤ Real.log x := by
  have h : Real.log ((2 : ℝ) ^ 2) ≤ Real.log x := Real.log_le_log (by positivity) (by norm_num; linarith)
  rw [Real.log_pow] at h
  have := Real.log_two_gt_d9
  norm_num at h
  linarith

/-- **C79, finding: the root extraction estimate is void.** The script takes the logarithm of the prime for the prime and compares a
number of operations with a number of bits.  Its test is passed at any security level up to 16000 by any exponent and
any round numbers of which `D` exceeds 252. -/
theorem C79_root_void (N : ℝ → ℝ) (hN : Accurate N) (s : Setting) (hp : s.prime = q) (hM : s.M ≤ 16000) (rIn : Nat)
    (hD : 253 ≤ s.D rIn) : resistRootExtraction N s rIn := by
  have h0 := logb_q_ge
  have h0' := logb_q_lt
  have hD' : (253 : ℝ) ≤ ((s.D rIn : ℕ) : ℝ) := by exact_mod_cast hD
  unfold resistRootExtraction
  rw [hp]
  dsimp only
  rw [if_neg (by linarith)]
  set X := Real.logb 2 q
  set D : ℝ := ((s.D rIn : ℕ) : ℝ)
  have h1 : 4.85 ≤ Real.log X := log_ge_485 (by linarith)
  have h2 : 1.38 ≤ Real.log (Real.log X) := log_ge_138 (by linarith)
  have h3 : 4.85 ≤ Real.log D := log_ge_485 (by linarith)
  have h4 : (16360 : ℝ) ≤ X * Real.log X * Real.log (Real.log X) * (Real.log X + Real.log D) := by
    have a : (252 * 4.85 : ℝ) ≤ X * Real.log X := mul_le_mul h0 h1 (by norm_num) (by linarith)
    have b : (252 * 4.85 * 1.38 : ℝ) ≤ X * Real.log X * Real.log (Real.log X) :=
      mul_le_mul a h2 (by norm_num) (le_trans (by norm_num) a)
    have c : (252 * 4.85 * 1.38 * 9.7 : ℝ) ≤ X * Real.log X * Real.log (Real.log X) * (Real.log X + Real.log D) :=
      mul_le_mul b (by linarith) (by norm_num) (le_trans (by norm_num) b)
    exact le_trans (by norm_num) c
  have h5 := hN.ge (le_trans (by norm_num) h4)
  have h6 : (s.M : ℝ) ≤ 16000 := by exact_mod_cast hM
  refine h6.trans (le_trans ?_ h5)
  norm_num at h4 ⊢
  linarith

/-- **C79, root extraction as printed.** The script's test is passed for every input rate. -/
theorem C79_root_extraction (N : ℝ → ℝ) (hN : Accurate N) (rIn : Nat) : resistRootExtraction N setting rIn := by
  refine C79_root_void N hN setting rfl (by decide) rIn ?_
  show 253 ≤ 17 ^ (2 * rIn * 4 + 31)
  exact le_trans (by norm_num) (Nat.pow_le_pow_right (by norm_num) (by omega : 2 ≤ 2 * rIn * 4 + 31))

/-- For instance two partial rounds and no full round pass it at 16000 bits. -/
example (N : ℝ → ℝ) (hN : Accurate N) : resistRootExtraction N { setting with M := 16000, rP := 2, rf := 0 } 1 :=
  C79_root_void N hN _ rfl (by decide) 1 (by decide)

/-- Specification: the cost in bits of the root extraction of iacr/2024/310 for a system of degree `D` over the field with `p`
elements. -/
noncomputable def Sage.rootExtractionBits (D p : ℝ) : ℝ :=
  Real.logb 2 (min D p * Real.log (min D p) * Real.log (Real.log (min D p)) * (Real.log (min D p) + Real.log (max D p)))

/-- **C79, root extraction as intended.** With the prime in place of its logarithm and the cost in bits, the shipped round numbers give at
least 156 bits for every input rate: the instances pass the corrected test. -/
theorem C79_root_intended (rIn : Nat) (h1 : 1 ≤ rIn) : 156 ≤ rootExtractionBits (setting.D rIn : ℕ) q := by
  have hq : (2 : ℝ) ^ 156 ≤ (q : ℝ) := by
    have : 2 ^ 156 ≤ q := by decide +kernel
    exact_mod_cast this
  have hD : (2 : ℝ) ^ 156 ≤ ((setting.D rIn : ℕ) : ℝ) := by
    have : 2 ^ 156 ≤ 17 ^ (2 * rIn * 4 + 31) :=
      calc 2 ^ 156 = 16 ^ 39 := by norm_num
        _ ≤ 17 ^ 39 := Nat.pow_le_pow_left (by norm_num) _
        _ ≤ _ := Nat.pow_le_pow_right (by norm_num) (by omega)
    exact_mod_cast this
  unfold rootExtractionBits
  set X := min ((setting.D rIn : ℕ) : ℝ) q
  set Y := max ((setting.D rIn : ℕ) : ℝ) q
  have hX : (2 : ℝ) ^ 156 ≤ X := le_min hD hq
  have hY : (2 : ℝ) ^ 156 ≤ Y := hD.trans (le_max_left _ _)
  have h128 : (128 : ℝ) ≤ 2 ^ 156 := by norm_num
  have a : 4.85 ≤ Real.log X := log_ge_485 (h128.trans hX)
  have b : 1.38 ≤ Real.log (Real.log X) := log_ge_138 (by linarith)
  have c : 4.85 ≤ Real.log Y := log_ge_485 (h128.trans hY)
  have h2 : (2 : ℝ) ^ 156 ≤ X * Real.log X * Real.log (Real.log X) * (Real.log X + Real.log Y) := by
    have hX0 : 0 < X := lt_of_lt_of_le (by positivity) hX
    have e1 : X ≤ X * Real.log X := le_mul_of_one_le_right hX0.le (by linarith)
    have e2 : X * Real.log X ≤ X * Real.log X * Real.log (Real.log X) :=
      le_mul_of_one_le_right (hX0.le.trans e1) (by linarith)
    exact hX.trans (e1.trans (e2.trans (le_mul_of_one_le_right (hX0.le.trans (e1.trans e2)) (by linarith))))
  rw [Real.le_logb_iff_rpow_le (by norm_num) (lt_of_lt_of_le (by positivity) h2)]
  exact le_trans (by norm_num) h2

/-- The identity and correct rounding to 53 bits are accurate. -/
example : Accurate id ∧ Accurate rne := by
  refine ⟨fun x => by simp, fun x => (rne_err x).trans ?_⟩
  exact mul_le_mul_of_nonneg_right (by norm_num) (abs_nonneg x)

end Poseidon
