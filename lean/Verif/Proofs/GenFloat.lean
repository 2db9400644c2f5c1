import Verif.Model.GenFloat
import Mathlib.Analysis.SpecialFunctions.Log.Deriv
import Mathlib.Analysis.Complex.ExponentialBounds

/-!
# Facts about IEEE-754 rounding
-/

namespace Poseidon

theorem roundEven_err (y : ℝ) : |(roundEven y : ℝ) - y| ≤ 1 / 2 := by
  have h0 := Int.floor_le y
  have h1 := Int.lt_floor_add_one y
  rw [abs_le, roundEven]
  split_ifs with ha hb hc <;> push_cast <;> constructor <;> linarith

theorem roundEven_int (n : ℤ) : roundEven (n : ℝ) = n := by
  rw [roundEven, Int.floor_intCast, if_pos (by norm_num)]

/-- Relative rounding error `2⁻⁵³`. -/
theorem rne_err (x : ℝ) : |rne x - x| ≤ 2⁻¹ ^ 53 * |x| := by
  by_cases hx : x = 0
  · subst hx
    have : roundEven (0 : ℝ) = 0 := by simpa using roundEven_int 0
    simp [rne, this]
  · have hpos : (0 : ℝ) < 2 ^ ulpExp x := zpow_pos (by norm_num) _
    have hlog : (2 : ℝ) ^ Int.log 2 |x| ≤ |x| := Int.zpow_log_le_self (by norm_num) (abs_pos.2 hx)
    have hulp : (2 : ℝ) ^ ulpExp x = 2 ^ Int.log 2 |x| * 2⁻¹ ^ 52 := by
      rw [ulpExp, zpow_sub₀ (by norm_num)]
      norm_num [div_eq_mul_inv]
    have h := roundEven_err (x / 2 ^ ulpExp x)
    have e : rne x - x = ((roundEven (x / 2 ^ ulpExp x) : ℝ) - x / 2 ^ ulpExp x) * 2 ^ ulpExp x := by
      rw [rne, sub_mul, div_mul_cancel₀ _ hpos.ne']
    rw [e, abs_mul, abs_of_pos hpos]
    calc _ ≤ 1 / 2 * (2 : ℝ) ^ ulpExp x := by gcongr
      _ = 2⁻¹ ^ 53 * 2 ^ Int.log 2 |x| := by rw [hulp]; ring
      _ ≤ _ := by gcongr

theorem rne_le {x b : ℝ} (h : x ≤ b) (hb : 0 ≤ b) : rne x ≤ b * (1 + 2⁻¹ ^ 53) := by
  have := (abs_le.1 (rne_err x)).2
  rcases le_total 0 x with h0 | h0
  · rw [abs_of_nonneg h0] at this; nlinarith
  · rw [abs_of_nonpos h0] at this
    have h2 : rne x ≤ 0 := by nlinarith
    have h3 : 0 ≤ b * (1 + 2⁻¹ ^ 53) := by positivity
    linarith

theorem le_rne {x a : ℝ} (h : a ≤ x) (ha : 0 ≤ a) : a * (1 - 2⁻¹ ^ 53) ≤ rne x := by
  have := (abs_le.1 (rne_err x)).1
  rw [abs_of_nonneg (ha.trans h)] at this
  have h3 : a * (1 - 2⁻¹ ^ 53) ≤ x * (1 - 2⁻¹ ^ 53) := by
    apply mul_le_mul_of_nonneg_right h; norm_num
  linarith

theorem rne_nonneg {x : ℝ} (h : 0 ≤ x) : 0 ≤ rne x := by simpa using le_rne h le_rfl

theorem rne_nonpos {x : ℝ} (h : x ≤ 0) : rne x ≤ 0 := by simpa using rne_le h le_rfl

/-- A number with at most 53 significant bits is not rounded. -/
theorem rne_exact {x : ℝ} (n : ℤ) (h : x = n * 2 ^ ulpExp x) : rne x = x := by
  have hpos : (2 : ℝ) ^ ulpExp x ≠ 0 := (zpow_pos (by norm_num) _).ne'
  have : x / 2 ^ ulpExp x = n := by rw [div_eq_iff hpos]; exact h
  rw [rne, this, roundEven_int]; exact h.symm

theorem ulpExp_nat (n : Nat) : ulpExp (n : ℝ) = (Nat.log 2 n : ℤ) - 52 := by
  rw [ulpExp, abs_of_nonneg (Nat.cast_nonneg n), Int.log_natCast]

theorem rne_natCast {n : Nat} (h : n ≤ 2 ^ 53) : rne (n : ℝ) = n := by
  by_cases h0 : n = 0
  · subst h0
    have := rne_err 0
    simp only [abs_zero, mul_zero, sub_zero] at this
    simpa using abs_nonpos_iff.1 this
  rcases Nat.lt_or_ge n (2 ^ 53) with hlt | hge
  · have hl : Nat.log 2 n ≤ 52 := by
      have := Nat.log_lt_of_lt_pow h0 hlt
      omega
    refine rne_exact ((n * 2 ^ (52 - Nat.log 2 n) : ℕ) : ℤ) ?_
    rw [ulpExp_nat, Int.cast_natCast, Nat.cast_mul, Nat.cast_pow, Nat.cast_ofNat, mul_assoc, ← zpow_natCast,
      ← zpow_add₀ (by norm_num)]
    rw [show ((52 - Nat.log 2 n : ℕ) : ℤ) + ((Nat.log 2 n : ℤ) - 52) = 0 by omega]
    simp
  · obtain rfl : n = 2 ^ 53 := le_antisymm h hge
    refine rne_exact (2 ^ 52 : ℤ) ?_
    rw [ulpExp_nat, Nat.log_pow (by norm_num)]
    norm_num

theorem rne_one : rne 1 = 1 := by simpa using rne_natCast (n := 1) (by norm_num)

theorem rne_ofNat (n : Nat) [n.AtLeastTwo] (h : (OfNat.ofNat n : Nat) ≤ 2 ^ 53) :
    rne (OfNat.ofNat n : ℝ) = OfNat.ofNat n := by
  simpa using rne_natCast (n := OfNat.ofNat n) h

theorem rne_zero : rne 0 = 0 := by simpa using rne_natCast (n := 0) (by norm_num)

/-! ### Rounding of dyadic numbers by integer arithmetic -/

/-- `m / 2^j` rounded to the nearest integer, ties to even, in integers. -/
def roundShift (m j : Nat) : Nat :=
  if 2 * (m % 2 ^ j) < 2 ^ j then m / 2 ^ j
  else if 2 ^ j < 2 * (m % 2 ^ j) then m / 2 ^ j + 1
  else if m / 2 ^ j % 2 = 0 then m / 2 ^ j else m / 2 ^ j + 1

theorem roundEven_shift (m j : Nat) : roundEven ((m : ℝ) / 2 ^ j) = roundShift m j := by
  have hp : (0 : ℝ) < 2 ^ j := by positivity
  have hfl : ⌊(m : ℝ) / 2 ^ j⌋ = ((m / 2 ^ j : ℕ) : ℤ) := by
    rw [Int.floor_eq_iff]
    have h1 : (((m / 2 ^ j * 2 ^ j : ℕ)) : ℝ) ≤ m := by exact_mod_cast Nat.div_mul_le_self m (2 ^ j)
    have h2 : (m : ℝ) < ((m / 2 ^ j * 2 ^ j + 2 ^ j : ℕ) : ℝ) := by
      exact_mod_cast Nat.lt_div_mul_add (a := m) (b := 2 ^ j) (by positivity)
    rw [le_div_iff₀ hp, div_lt_iff₀ hp, Int.cast_natCast]
    push_cast at h1 h2
    constructor <;> linarith
  have hfr : (m : ℝ) / 2 ^ j - ((m / 2 ^ j : ℕ) : ℝ) = ((m % 2 ^ j : ℕ) : ℝ) / 2 ^ j := by
    have hd : (m : ℝ) = 2 ^ j * ((m / 2 ^ j : ℕ) : ℝ) + ((m % 2 ^ j : ℕ) : ℝ) := by
      exact_mod_cast (Nat.div_add_mod m (2 ^ j)).symm
    rw [div_sub' hp.ne', div_left_inj' hp.ne']
    linarith
  have hlt : (m : ℝ) / 2 ^ j - ((⌊(m : ℝ) / 2 ^ j⌋ : ℤ) : ℝ) < 1 / 2 ↔ 2 * (m % 2 ^ j) < 2 ^ j := by
    rw [hfl, Int.cast_natCast, hfr, div_lt_div_iff₀ hp (by norm_num)]
    constructor
    · intro h
      have : ((2 * (m % 2 ^ j) : ℕ) : ℝ) < ((2 ^ j : ℕ) : ℝ) := by push_cast at h ⊢; linarith
      exact_mod_cast this
    · intro h
      have : ((2 * (m % 2 ^ j) : ℕ) : ℝ) < ((2 ^ j : ℕ) : ℝ) := by exact_mod_cast h
      push_cast at this ⊢; linarith
  have hgt : 1 / 2 < (m : ℝ) / 2 ^ j - ((⌊(m : ℝ) / 2 ^ j⌋ : ℤ) : ℝ) ↔ 2 ^ j < 2 * (m % 2 ^ j) := by
    rw [hfl, Int.cast_natCast, hfr, div_lt_div_iff₀ (by norm_num) hp]
    constructor
    · intro h
      have : ((2 ^ j : ℕ) : ℝ) < ((2 * (m % 2 ^ j) : ℕ) : ℝ) := by push_cast at h ⊢; linarith
      exact_mod_cast this
    · intro h
      have : ((2 ^ j : ℕ) : ℝ) < ((2 * (m % 2 ^ j) : ℕ) : ℝ) := by exact_mod_cast h
      push_cast at this ⊢; linarith
  rw [roundEven, roundShift]
  simp only [hlt, hgt]
  rw [hfl]
  norm_cast

/-- Rounding a dyadic number `m * 2^k` with at least 53 bits. -/
theorem rne_dyadic {m : Nat} (k : ℤ) (hm : 2 ^ 52 ≤ m) :
    rne ((m : ℝ) * 2 ^ k) = roundShift m (Nat.log 2 m - 52) * 2 ^ (((Nat.log 2 m - 52 : ℕ) : ℤ) + k) := by
  have hm0 : m ≠ 0 := by rintro rfl; norm_num at hm
  have hl : 52 ≤ Nat.log 2 m := by
    rw [← Nat.log_pow (b := 2) (by norm_num) 52]; exact Nat.log_mono_right hm
  have hlog : Int.log 2 ((m : ℝ) * 2 ^ k) = (Nat.log 2 m : ℤ) + k := by
    have h1 : (2 : ℝ) ^ ((Nat.log 2 m : ℤ)) ≤ m := by
      rw [zpow_natCast]; exact_mod_cast Nat.pow_log_le_self 2 hm0
    have h2 : (m : ℝ) < 2 ^ ((Nat.log 2 m : ℤ) + 1) := by
      have := Nat.lt_pow_succ_log_self (b := 2) (by norm_num) m
      have h3 : (m : ℝ) < ((2 ^ (Nat.log 2 m).succ : ℕ) : ℝ) := by exact_mod_cast this
      rw [show ((Nat.log 2 m : ℤ) + 1) = ((Nat.log 2 m).succ : ℕ) by push_cast; ring, zpow_natCast]
      simpa using h3
    have hk : (0 : ℝ) < 2 ^ k := zpow_pos (by norm_num) _
    have hx : (0 : ℝ) < (m : ℝ) * 2 ^ k := by positivity
    apply le_antisymm
    · refine Int.lt_add_one_iff.1 ((Int.lt_zpow_iff_log_lt (b := 2) (by norm_num) hx).1 ?_)
      rw [Nat.cast_ofNat, show (Nat.log 2 m : ℤ) + k + 1 = (Nat.log 2 m + 1 : ℤ) + k by ring,
        zpow_add₀ (by norm_num) _ k]
      gcongr
    · refine (Int.zpow_le_iff_le_log (b := 2) (by norm_num) hx).1 ?_
      rw [Nat.cast_ofNat, zpow_add₀ (by norm_num)]
      gcongr
  have hu : ulpExp ((m : ℝ) * 2 ^ k) = ((Nat.log 2 m - 52 : ℕ) : ℤ) + k := by
    rw [ulpExp, abs_of_nonneg (by positivity), hlog]
    omega
  rw [rne, hu, zpow_add₀ (by norm_num), mul_div_mul_right _ _ (zpow_pos (by norm_num) _).ne', zpow_natCast,
    roundEven_shift]
  simp

/-! ### The literal `1.075` and the security margin -/

theorem rne_1075 : rne 1.075 = 4841369599423283 / 2 ^ 52 := by
  have hlog : Int.log 2 |(1.075 : ℝ)| = 0 := by
    rw [abs_of_nonneg (by norm_num)]
    apply le_antisymm
    · refine Int.lt_add_one_iff.1 ((Int.lt_zpow_iff_log_lt (b := 2) (by norm_num) (by norm_num)).1 ?_)
      norm_num
    · refine (Int.zpow_le_iff_le_log (b := 2) (by norm_num) (by norm_num)).1 ?_
      norm_num
  have hu : ulpExp (1.075 : ℝ) = -52 := by rw [ulpExp, hlog]; norm_num
  have hy : (1.075 : ℝ) / 2 ^ (-52 : ℤ) = 4841369599423283 + 1 / 5 := by
    rw [zpow_neg]; norm_num
  have hf : ⌊(4841369599423283 : ℝ) + 1 / 5⌋ = 4841369599423283 := by
    rw [Int.floor_eq_iff]; norm_num
  rw [rne, hu, hy, roundEven, hf, if_pos (by norm_num), zpow_neg]
  norm_num

/-- The margin computed with integers. -/
def marginNat (n : Nat) : Nat :=
  let m := 4841369599423283 * n
  let j := Nat.log 2 m - 52
  (roundShift m j * 2 ^ j + (2 ^ 52 - 1)) / 2 ^ 52

theorem marginNat_eq : ∀ n, n < 400 → 1 ≤ n → marginNat n = (43 * n + 39) / 40 := by decide +kernel

theorem ceil_natDiv (a b : Nat) (hb : 0 < b) : ⌈(a : ℝ) / b⌉ = ((a + (b - 1)) / b : ℕ) := by
  rw [Int.ceil_eq_iff]
  have hb' : (0 : ℝ) < b := by exact_mod_cast hb
  have h1 := Nat.div_mul_le_self (a + (b - 1)) b
  have h2 := Nat.lt_div_mul_add hb (a := a + (b - 1))
  set d := (a + (b - 1)) / b
  have h1' : d * b < a + b := by omega
  have h2' : a ≤ d * b := by omega
  have h3 : (d : ℝ) * b < a + b := by exact_mod_cast h1'
  have h4 : (a : ℝ) ≤ d * b := by exact_mod_cast h2'
  constructor
  · rw [lt_div_iff₀ hb']; push_cast; nlinarith
  · rw [div_le_iff₀ hb']; push_cast; exact h4

/-- `(1.075 * n as f64).ceil()` is the least integer at least `43 n / 40`. -/
theorem margin_exact {n : Nat} (h1 : 1 ≤ n) (h2 : n < 400) :
    ⌈rne (rne 1.075 * rne n)⌉ = (((43 * n + 39) / 40 : ℕ) : ℤ) := by
  rw [rne_natCast (by omega), rne_1075, ← marginNat_eq n h2 h1]
  have e : (4841369599423283 / 2 ^ 52 : ℝ) * n = ((4841369599423283 * n : ℕ) : ℝ) * 2 ^ (-52 : ℤ) := by
    push_cast
    rw [zpow_neg, div_eq_mul_inv, mul_assoc, mul_comm _ (n : ℝ), ← mul_assoc]
    norm_num
  rw [e, rne_dyadic _ (by omega)]
  have e2 : ((roundShift (4841369599423283 * n) (Nat.log 2 (4841369599423283 * n) - 52) : ℕ) : ℝ) *
      2 ^ (((Nat.log 2 (4841369599423283 * n) - 52 : ℕ) : ℤ) + -52) =
      ((roundShift (4841369599423283 * n) (Nat.log 2 (4841369599423283 * n) - 52) *
        2 ^ (Nat.log 2 (4841369599423283 * n) - 52) : ℕ) : ℝ) / ((2 ^ 52 : ℕ) : ℝ) := by
    rw [zpow_add₀ (by norm_num), zpow_natCast, zpow_neg]
    push_cast
    rw [div_eq_mul_inv, mul_assoc]
    norm_num
  rw [e2, ceil_natDiv _ _ (by norm_num)]
  rfl

end Poseidon
