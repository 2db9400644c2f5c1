import Verif.Model.StarkMds
import Verif.Model.Field
import Verif.Spec.Security
import Verif.Proofs.GenFloat
import Mathlib.Data.Nat.Size

/-! # The round numbers of `generate_mds.sage` -/

namespace Poseidon

theorem logb_lt_of_pow {b x : ℝ} {p n : Nat} (hb : 1 < b) (hx : 0 < x) (hn : 0 < n) (h : x ^ n < b ^ p) : Real.logb b x < p / n := by
  rw [lt_div_iff₀ (by exact_mod_cast hn), mul_comm, ← Real.logb_pow, Real.logb_lt_iff_lt_rpow hb (by positivity)]
  exact_mod_cast h

theorem logb_le_of_pow {b x : ℝ} {p n : Nat} (hb : 1 < b) (hx : 0 < x) (hn : 0 < n) (h : x ^ n ≤ b ^ p) : Real.logb b x ≤ p / n := by
  rw [le_div_iff₀ (by exact_mod_cast hn), mul_comm, ← Real.logb_pow, Real.logb_le_iff_le_rpow hb (by positivity)]
  exact_mod_cast h

theorem lt_logb_of_pow {b x : ℝ} {p n : Nat} (hb : 1 < b) (hx : 0 < x) (hn : 0 < n) (h : b ^ p < x ^ n) : (p : ℝ) / n < Real.logb b x := by
  rw [div_lt_iff₀ (by exact_mod_cast hn), mul_comm, ← Real.logb_pow, Real.lt_logb_iff_rpow_lt hb (by positivity)]
  exact_mod_cast h

theorem log17_2 : (2446 : ℝ) / 10000 < Real.logb 17 2 ∧ Real.logb 17 2 < 2447 / 10000 := by
  constructor
  · exact_mod_cast lt_logb_of_pow (b := 17) (x := 2) (p := 2446) (n := 10000) (by norm_num) (by norm_num) (by norm_num)
      (by exact_mod_cast (by decide +kernel : 17 ^ 2446 < 2 ^ 10000))
  · exact_mod_cast logb_lt_of_pow (b := 17) (x := 2) (p := 2447) (n := 10000) (by norm_num) (by norm_num) (by norm_num)
      (by exact_mod_cast (by decide +kernel : 2 ^ 10000 < 17 ^ 2447))

/-- Bounds of a logarithm of the field size with denominator 100 -/
theorem logq_bounds {t lo hi : Nat} (ht : 1 < t) (h1 : t ^ lo < q ^ 100) (h2 : q ^ 100 < t ^ hi) :
    (lo : ℝ) / 100 < Real.logb t q ∧ Real.logb t q < hi / 100 := by
  have hb : (1 : ℝ) < t := by exact_mod_cast ht
  have hq : (0 : ℝ) < q := by exact_mod_cast (by decide +kernel : 0 < q)
  exact ⟨by exact_mod_cast lt_logb_of_pow (n := 100) hb hq (by norm_num) (by exact_mod_cast h1),
    by exact_mod_cast logb_lt_of_pow (n := 100) hb hq (by norm_num) (by exact_mod_cast h2)⟩

theorem log2q : (25222 : ℝ) / 100 < Real.logb (2 : Nat) q ∧ Real.logb (2 : Nat) q < 25223 / 100 := by
  exact_mod_cast logq_bounds (t := 2) (lo := 25222) (hi := 25223) (by norm_num) (by decide +kernel) (by decide +kernel)
theorem log3q : (15900 : ℝ) / 100 < Real.logb (3 : Nat) q ∧ Real.logb (3 : Nat) q < 16000 / 100 := by
  exact_mod_cast logq_bounds (t := 3) (lo := 15900) (hi := 16000) (by norm_num) (by decide +kernel) (by decide +kernel)
theorem log4q : (12611 : ℝ) / 100 < Real.logb (4 : Nat) q ∧ Real.logb (4 : Nat) q < 12612 / 100 := by
  exact_mod_cast logq_bounds (t := 4) (lo := 12611) (hi := 12612) (by norm_num) (by decide +kernel) (by decide +kernel)
theorem log5q : (10850 : ℝ) / 100 < Real.logb (5 : Nat) q ∧ Real.logb (5 : Nat) q < 10870 / 100 := by
  exact_mod_cast logq_bounds (t := 5) (lo := 10850) (hi := 10870) (by norm_num) (by decide +kernel) (by decide +kernel)
theorem log6q : (9750 : ℝ) / 100 < Real.logb (6 : Nat) q ∧ Real.logb (6 : Nat) q < 9760 / 100 := by
  exact_mod_cast logq_bounds (t := 6) (lo := 9750) (hi := 9760) (by norm_num) (by decide +kernel) (by decide +kernel)

theorem ceil_logb2 {t k : Nat} (h1 : 2 ^ k < t) (h2 : t ≤ 2 ^ (k + 1)) : ⌈Real.logb 2 (t : ℝ)⌉ = (k : ℤ) + 1 := by
  have h0 : (0 : ℝ) < t := by exact_mod_cast lt_of_le_of_lt (Nat.zero_le _) h1
  have a := lt_logb_of_pow (b := 2) (x := t) (p := k) (n := 1) (by norm_num) h0 (by norm_num) (by simpa using (by exact_mod_cast h1))
  have b := logb_le_of_pow (b := 2) (x := t) (p := k + 1) (n := 1) (by norm_num) h0 (by norm_num) (by simpa using (by exact_mod_cast h2))
  rw [Int.ceil_eq_iff]
  push_cast at *
  constructor <;> linarith

theorem minRounds_of {t k : Nat} {r : ℤ} {lo hi : ℝ} (h1 : 2 ^ k < t) (h2 : t ≤ 2 ^ (k + 1))
    (hl : lo ≤ min (128 : ℝ) (Real.logb t q)) (hh : min (128 : ℝ) (Real.logb t q) ≤ hi) (h0 : 0 ≤ lo)
    (ha : (r : ℝ) - 1 < 2446 / 10000 * lo) (hb : 2447 / 10000 * hi ≤ r) : Stark.minNumRounds 128 17 t q = r + (k + 1) := by
  rw [Stark.minNumRounds, ceil_logb2 h1 h2]
  congr 1
  obtain ⟨a, b⟩ := log17_2
  push_cast
  rw [Int.ceil_eq_iff]
  constructor <;> nlinarith

theorem minRounds2 : Stark.minNumRounds 128 17 2 q = 33 := by
  have h := log2q
  have hm : min (128 : ℝ) (Real.logb (2 : Nat) q) = 128 := min_eq_left (le_trans (by norm_num) h.1.le)
  exact minRounds_of (k := 0) (r := 32) (by norm_num) (by norm_num) hm.ge hm.le (by norm_num) (by norm_num) (by norm_num)

theorem minRounds3 : Stark.minNumRounds 128 17 3 q = 34 := by
  have h := log3q
  have hm : min (128 : ℝ) (Real.logb (3 : Nat) q) = 128 := min_eq_left (le_trans (by norm_num) h.1.le)
  exact minRounds_of (k := 1) (r := 32) (by norm_num) (by norm_num) hm.ge hm.le (by norm_num) (by norm_num) (by norm_num)

theorem minRounds4 : Stark.minNumRounds 128 17 4 q = 33 := by
  have h := log4q
  have hm : min (128 : ℝ) (Real.logb (4 : Nat) q) = Real.logb (4 : Nat) q := min_eq_right (h.2.le.trans (by norm_num))
  exact minRounds_of (k := 1) (r := 31) (by norm_num) (by norm_num) (h.1.le.trans hm.ge) (hm.le.trans h.2.le) (by norm_num) (by norm_num)
    (by norm_num)

theorem minRounds5 : Stark.minNumRounds 128 17 5 q = 30 := by
  have h := log5q
  have hm : min (128 : ℝ) (Real.logb (5 : Nat) q) = Real.logb (5 : Nat) q := min_eq_right (h.2.le.trans (by norm_num))
  exact minRounds_of (k := 2) (r := 27) (by norm_num) (by norm_num) (h.1.le.trans hm.ge) (hm.le.trans h.2.le) (by norm_num) (by norm_num)
    (by norm_num)

theorem minRounds6 : Stark.minNumRounds 128 17 6 q = 27 := by
  have h := log6q
  have hm : min (128 : ℝ) (Real.logb (6 : Nat) q) = Real.logb (6 : Nat) q := min_eq_right (h.2.le.trans (by norm_num))
  exact minRounds_of (k := 2) (r := 24) (by norm_num) (by norm_num) (h.1.le.trans hm.ge) (hm.le.trans h.2.le) (by norm_num) (by norm_num)
    (by norm_num)

theorem margin_eq {n r : ℤ} (h0 : 0 ≤ n) (ha : (r : ℝ) - 1 < n * 1.0749) (hb : (n : ℝ) * 1.0751 ≤ r) : ⌈rne ((n : ℝ) * rne 1.075)⌉ = r := by
  have hn : (0 : ℝ) ≤ n := by exact_mod_cast h0
  have h1 : (1.07499 : ℝ) ≤ rne 1.075 ∧ rne 1.075 ≤ 1.07501 := by rw [rne_1075]; constructor <;> norm_num
  have h2 := rne_err ((n : ℝ) * rne 1.075)
  rw [abs_le, abs_of_nonneg (by nlinarith)] at h2
  have h3 : (2⁻¹ : ℝ) ^ 53 ≤ 0.000001 := by norm_num
  have h4 : (2⁻¹ : ℝ) ^ 53 * (n * rne 1.075) ≤ 0.000001 * (n * rne 1.075) := mul_le_mul_of_nonneg_right h3 (by nlinarith)
  rw [Int.ceil_eq_iff]
  constructor <;> nlinarith

theorem numRounds_of {t : Nat} {m r : ℤ} (hm : Stark.minNumRounds 128 17 t q = m) (h0 : 6 ≤ m) (ha : (r : ℝ) - 1 < (m - 6) * 1.0749)
    (hb : ((m : ℝ) - 6) * 1.0751 ≤ r) : Stark.numRounds q 128 17 1 t q = .ok (8, r) := by
  have hs : ¬ 1 * Nat.size q ≤ 128 := by
    rw [one_mul, not_le, Nat.lt_size]; decide +kernel
  rw [Stark.numRounds, if_neg hs, hm]
  simp only []
  rw [margin_eq (n := m - 6) (r := r) (by omega) (by push_cast; exact ha) (by push_cast; exact hb)]
  norm_num

theorem ceil_interp {t : Nat} (h1 : 1 < t) (h2 : t ≤ 17) {lp : ℝ} (hlp : 128 ≤ lp) :
    ⌈⌈Real.logb (17 : Nat) 2 * min ((128 : Nat) : ℝ) lp + 0⌉ + Real.logb (17 : Nat) t + 0⌉ = 33 := by
  obtain ⟨a, b⟩ := log17_2
  have e : ⌈Real.logb (17 : Nat) 2 * min ((128 : Nat) : ℝ) lp + 0⌉ = 32 := by
    push_cast
    rw [min_eq_left hlp, Int.ceil_eq_iff]
    constructor <;> norm_num <;> linarith
  have h0 : (0 : ℝ) < t := by exact_mod_cast (by omega : 0 < t)
  have l1 := lt_logb_of_pow (b := 17) (x := t) (p := 0) (n := 1) (by norm_num) h0 (by norm_num) (by simpa using (by exact_mod_cast h1))
  have l2 := logb_le_of_pow (b := 17) (x := t) (p := 1) (n := 1) (by norm_num) h0 (by norm_num) (by simpa using (by exact_mod_cast h2))
  rw [e, Int.ceil_eq_iff]
  push_cast at *
  constructor <;> linarith

/-- The paper's inequalities over the scalar field, for narrow states and the S-box `x ^ 17`: more than 33 rounds, 6 of them full -/
theorem securePower_iff {t rP rF : Nat} (h1 : 1 < t) (h2 : t ≤ 17) :
    Spec.SecurePower 0 128 (Real.logb 2 q) t 17 rP rF ↔ 6 ≤ rF ∧ 33 < rP + rF := by
  have hq : (25222 : ℝ) / 100 < Real.logb 2 q ∧ Real.logb 2 q < 25223 / 100 := by exact_mod_cast log2q
  have hf : Spec.fullRoundsNeeded 0 128 (Real.logb 2 q) t 17 = 6 := by
    rw [Spec.fullRoundsNeeded, if_pos]
    have e : ⌊Real.logb 2 (q : ℝ)⌋ = 252 := by
      rw [Int.floor_eq_iff]; push_cast; constructor <;> linarith
    have e2 : Real.logb 2 (((17 : Nat) : ℝ) - 1) = 4 := by
      rw [show ((17 : Nat) : ℝ) - 1 = 2 ^ (4 : ℕ) by norm_num, Real.logb_pow, Real.logb_self_eq_one (by norm_num)]; norm_num
    have ht : (1 : ℝ) ≤ t := by exact_mod_cast h1.le
    rw [e, e2]
    push_cast
    linarith
  have hi := ceil_interp h1 h2 (lp := Real.logb 2 q) (by linarith)
  obtain ⟨a, b⟩ := log17_2
  have ht : (2 : ℝ) ≤ t := by exact_mod_cast h1
  have ht' : (t : ℝ) ≤ 17 := by exact_mod_cast h2
  constructor
  · rintro ⟨s, i, -, -⟩
    rw [hf] at s
    rw [hi] at i
    exact ⟨s, by exact_mod_cast i⟩
  · rintro ⟨s, i⟩
    have i' : (34 : ℝ) ≤ ((rP + rF : ℕ) : ℝ) := by exact_mod_cast i
    have a' : (2446 : ℝ) / 10000 < Real.logb (17 : Nat) 2 := a
    have b' : Real.logb (17 : Nat) 2 < (2447 : ℝ) / 10000 := b
    refine ⟨hf.trans_le s, by rw [hi]; exact_mod_cast i, ?_, ?_⟩
    · have hm : min (((128 : Nat) : ℝ) / 3) (Real.logb 2 q / 2) ≤ 43 := (min_le_left _ _).trans (by norm_num)
      nlinarith
    · have hm : min (((128 : Nat) : ℝ) / (t + 1)) (Real.logb 2 q / 2) ≤ 43 :=
        (min_le_left _ _).trans (by rw [div_le_iff₀ (by linarith)]; push_cast; linarith)
      have : Real.logb (17 : Nat) 2 * min (((128 : Nat) : ℝ) / (t + 1)) (Real.logb 2 q / 2) ≤ 11 := by nlinarith
      linarith

end Poseidon
