import Verif.Proofs.CalcRoundsFull

/-!
# The script and the generator for the inverse S-box (C84)
-/

set_option linter.unusedSectionVars false

namespace Poseidon

/-- `log2 t` rounded up and `6 log2 t` rounded down, from approximations of `log2 t` (exact ones for powers of two). -/
theorem width_values {l : ℝ} {t : Nat} (ht : 2 ≤ t) (ht' : t ≤ 8)
    (hratio : ∀ a b c d : Nat, 1 ≤ b → 1 ≤ d → 2 ^ a ≤ t ^ b → t ^ d ≤ 2 ^ c → (a : ℝ) / b * (1 - 2⁻¹ ^ 38) ≤ l ∧ l ≤ (c : ℝ) / d * (1 + 2⁻¹ ^ 38))
    (hpow : ∀ k : Nat, k ≤ 3 → t = 2 ^ k → l = k) :
    ⌈l⌉ = (Nat.clog 2 t : ℤ) ∧ ⌊rne (6 * l)⌋ = (Nat.log 2 (t ^ 6) : ℤ) ∧ (2 < t → 0 ≤ l ∧ ∃ b, l ≤ b ∧ b ≤ 5 ∧ 43 * b + 41.6 ≤ 40 * (t : ℝ)) := by
  have key : ∀ (lo hi : ℝ) (j F : Nat), lo ≤ l → l ≤ hi → (j : ℝ) - 1 < lo → hi ≤ j → (F : ℝ) ≤ 6 * lo * 0.9999 → 6 * hi * 1.0001 < F + 1 → 0 ≤ lo →
      ⌈l⌉ = (j : ℤ) ∧ ⌊rne (6 * l)⌋ = (F : ℤ) := by
    intro lo hi j F h1 h2 h3 h4 h5 h6 h7
    constructor
    · rw [Int.ceil_eq_iff]; push_cast; constructor <;> linarith
    · rw [Int.floor_eq_iff]
      push_cast
      constructor
      · exact le_rne_of (a := 6 * lo) (by linarith) (by linarith) h5
      · exact lt_of_le_of_lt (rne_le_of (b := 6 * hi) (by linarith) (by linarith) le_rfl) h6
  have six : ∀ k : Nat, k ≤ 3 → l = k → ⌈l⌉ = (k : ℤ) ∧ ⌊rne (6 * l)⌋ = ((6 * k : ℕ) : ℤ) := by
    intro k hk h
    rw [h]
    refine ⟨Int.ceil_natCast _, ?_⟩
    have := rne_natCast (n := 6 * k) (by omega)
    rw [← Nat.cast_ofNat (R := ℝ), ← Nat.cast_mul, this, Int.floor_natCast]
  have c : ∀ n k : Nat, Nat.clog 2 n = k → (Nat.clog 2 n : ℤ) = k := fun n k h => by rw [h]
  interval_cases t
  · have e := hpow 1 (by norm_num) (by norm_num)
    have h := six 1 (by norm_num) e
    refine ⟨?_, ?_, fun h => absurd h (by norm_num)⟩
    · rw [h.1, show Nat.clog 2 2 = 1 by decide +kernel]
    · rw [h.2, show Nat.log 2 (2 ^ 6) = 6 by decide +kernel]
  · obtain ⟨x, y⟩ := hratio 19 12 8 5 (by norm_num) (by norm_num) (by norm_num) (by norm_num)
    norm_num at x y
    have h := key 1.58 1.601 2 9 (by norm_num; linarith) (by norm_num; linarith) (by norm_num) (by norm_num) (by norm_num) (by norm_num) (by norm_num)
    refine ⟨?_, ?_, fun _ => ⟨by linarith, 1.601, by norm_num; linarith, by norm_num, by norm_num⟩⟩
    · rw [h.1, show Nat.clog 2 3 = 2 by decide +kernel]
    · rw [h.2, show Nat.log 2 (3 ^ 6) = 9 by decide +kernel]
  · have e := hpow 2 (by norm_num) (by norm_num)
    have h := six 2 (by norm_num) e
    refine ⟨?_, ?_, fun _ => ⟨by rw [e]; norm_num, 2, by rw [e]; norm_num, by norm_num, by norm_num⟩⟩
    · rw [h.1, show Nat.clog 2 4 = 2 by decide +kernel]
    · rw [h.2, show Nat.log 2 (4 ^ 6) = 12 by decide +kernel]
  · obtain ⟨x, y⟩ := hratio 9 4 72 31 (by norm_num) (by norm_num) (by norm_num) (by norm_num)
    norm_num at x y
    have h := key 2.24 2.323 3 13 (by norm_num; linarith) (by norm_num; linarith) (by norm_num) (by norm_num) (by norm_num) (by norm_num) (by norm_num)
    refine ⟨?_, ?_, fun _ => ⟨by linarith, 2.323, by norm_num; linarith, by norm_num, by norm_num⟩⟩
    · rw [h.1, show Nat.clog 2 5 = 3 by decide +kernel]
    · rw [h.2, show Nat.log 2 (5 ^ 6) = 13 by decide +kernel]
  · obtain ⟨x, y⟩ := hratio 31 12 13 5 (by norm_num) (by norm_num) (by norm_num) (by norm_num)
    norm_num at x y
    have h := key 2.58 2.601 3 15 (by norm_num; linarith) (by norm_num; linarith) (by norm_num) (by norm_num) (by norm_num) (by norm_num) (by norm_num)
    refine ⟨?_, ?_, fun _ => ⟨by linarith, 2.601, by norm_num; linarith, by norm_num, by norm_num⟩⟩
    · rw [h.1, show Nat.clog 2 6 = 3 by decide +kernel]
    · rw [h.2, show Nat.log 2 (6 ^ 6) = 15 by decide +kernel]
  · obtain ⟨x, y⟩ := hratio 14 5 45 16 (by norm_num) (by norm_num) (by norm_num) (by norm_num)
    norm_num at x y
    have h := key 2.799 2.813 3 16 (by norm_num; linarith) (by norm_num; linarith) (by norm_num) (by norm_num) (by norm_num) (by norm_num) (by norm_num)
    refine ⟨?_, ?_, fun _ => ⟨by linarith, 2.813, by norm_num; linarith, by norm_num, by norm_num⟩⟩
    · rw [h.1, show Nat.clog 2 7 = 3 by decide +kernel]
    · rw [h.2, show Nat.log 2 (7 ^ 6) = 16 by decide +kernel]
  · have e := hpow 3 (by norm_num) (by norm_num)
    have h := six 3 (by norm_num) e
    refine ⟨?_, ?_, fun _ => ⟨by rw [e]; norm_num, 3, by rw [e]; norm_num, by norm_num, by norm_num⟩⟩
    · rw [h.1, show Nat.clog 2 8 = 3 by decide +kernel]
    · rw [h.2, show Nat.log 2 (8 ^ 6) = 18 by decide +kernel]

/-- Bounds of `f64::log2`, as `log_ratio` for quotients of logarithms. -/
theorem Libm.Accurate.log2_ratio {L : Libm} (hL : L.Accurate) {t a b c d : Nat} (ht : 1 ≤ t) (hb : 1 ≤ b) (hd : 1 ≤ d)
    (h1 : 2 ^ a ≤ t ^ b) (h2 : t ^ d ≤ 2 ^ c) :
    (a : ℝ) / b * (1 - 2⁻¹ ^ 38) ≤ L.log2 t ∧ L.log2 t ≤ (c : ℝ) / d * (1 + 2⁻¹ ^ 38) := by
  have htR : (1 : ℝ) ≤ t := by exact_mod_cast ht
  have hbR : (0 : ℝ) < b := by exact_mod_cast hb
  have hdR : (0 : ℝ) < d := by exact_mod_cast hd
  have hl2 := Real.log_pos (show (1 : ℝ) < 2 by norm_num)
  have g1 : (a : ℝ) / b ≤ Real.logb 2 t := by
    rw [Real.logb, div_le_div_iff₀ hbR hl2, ← Real.log_pow, mul_comm, ← Real.log_pow]
    exact Real.log_le_log (by positivity) (by exact_mod_cast h1)
  have g2 : Real.logb 2 t ≤ (c : ℝ) / d := by
    rw [Real.logb, div_le_div_iff₀ hl2 hdR, ← Real.log_pow, mul_comm, ← Real.log_pow]
    exact Real.log_le_log (by positivity) (by exact_mod_cast h2)
  have h0 : (0 : ℝ) ≤ (a : ℝ) / b := by positivity
  have h3 : (0 : ℝ) ≤ (c : ℝ) / d := by positivity
  constructor
  · refine le_trans ?_ (hL.le_log2 htR g1)
    apply mul_le_mul_of_nonneg_left _ h0
    norm_num
  · refine (hL.log2_le htR g2).trans ?_
    apply mul_le_mul_of_nonneg_left _ h3
    norm_num

end Poseidon
