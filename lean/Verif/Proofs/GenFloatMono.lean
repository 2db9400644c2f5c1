import Verif.Proofs.GenFloat

/-!
# Rounding is monotone; absolute errors
-/

namespace Poseidon

theorem roundEven_mono {x y : ℝ} (h : x ≤ y) : roundEven x ≤ roundEven y := by
  rcases h.eq_or_lt with rfl | h
  · exact le_rfl
  · have h1 := (abs_le.1 (roundEven_err x)).2
    have h2 := (abs_le.1 (roundEven_err y)).1
    have h3 : (roundEven x : ℝ) < roundEven y + 1 := by linarith
    exact Int.lt_add_one_iff.1 (by exact_mod_cast h3)

theorem roundEven_half (n : ℤ) : roundEven ((n : ℝ) + 1 / 2) = if n % 2 = 0 then n else n + 1 := by
  have h : ⌊(n : ℝ) + 1 / 2⌋ = n := by rw [Int.floor_eq_iff]; constructor <;> linarith
  rw [roundEven, h]
  rw [if_neg (by linarith), if_neg (by linarith)]

theorem roundEven_of_near {y : ℝ} {n : ℤ} (h : |y - n| < 1 / 2) : roundEven y = n := by
  have h1 := abs_le.1 (roundEven_err y)
  have h2 := abs_lt.1 h
  have h3 : (roundEven y : ℝ) < n + 1 := by linarith
  have h4 : (n : ℝ) < roundEven y + 1 := by linarith
  have h3' : roundEven y < n + 1 := by exact_mod_cast h3
  have h4' : n < roundEven y + 1 := by exact_mod_cast h4
  omega

theorem roundEven_neg (y : ℝ) : roundEven (-y) = -roundEven y := by
  have h0 := Int.floor_le y
  have h1 := Int.lt_floor_add_one y
  rcases lt_trichotomy (y - ⌊y⌋) (1 / 2) with h | h | h
  · rw [roundEven_of_near (y := y) (n := ⌊y⌋) (by rw [abs_lt]; constructor <;> linarith)]
    exact roundEven_of_near (y := -y) (n := -⌊y⌋) (by push_cast; rw [abs_lt]; constructor <;> linarith)
  · have e : y = (⌊y⌋ : ℝ) + 1 / 2 := by linarith
    have e2 : -y = ((-⌊y⌋ - 1 : ℤ) : ℝ) + 1 / 2 := by push_cast; linarith
    have k1 := roundEven_half ⌊y⌋
    rw [← e] at k1
    rw [e2, roundEven_half, k1]
    split_ifs <;> omega
  · rw [roundEven_of_near (y := y) (n := ⌊y⌋ + 1) (by push_cast; rw [abs_lt]; constructor <;> linarith)]
    exact roundEven_of_near (y := -y) (n := -(⌊y⌋ + 1)) (by push_cast; rw [abs_lt]; constructor <;> linarith)

theorem rne_neg (x : ℝ) : rne (-x) = -rne x := by
  have h : ulpExp (-x) = ulpExp x := by rw [ulpExp, ulpExp, abs_neg]
  rw [rne, rne, h, neg_div, roundEven_neg]
  push_cast; ring

theorem rne_mono_pos {x y : ℝ} (h0 : 0 < x) (h : x ≤ y) : rne x ≤ rne y := by
  have hy : 0 < y := h0.trans_le h
  have hl : Int.log 2 x ≤ Int.log 2 y := Int.log_mono_right h0 h
  have hux : ulpExp x = Int.log 2 x - 52 := by rw [ulpExp, abs_of_pos h0]
  have huy : ulpExp y = Int.log 2 y - 52 := by rw [ulpExp, abs_of_pos hy]
  rcases hl.eq_or_lt with e | hlt
  · rw [rne, rne, hux, huy, e]
    have hp : (0 : ℝ) < 2 ^ (Int.log 2 y - 52) := zpow_pos (by norm_num) _
    apply mul_le_mul_of_nonneg_right _ hp.le
    exact_mod_cast roundEven_mono (div_le_div_of_nonneg_right h hp.le)
  · have hp : ∀ k : ℤ, (0 : ℝ) < 2 ^ k := fun k => zpow_pos (by norm_num) _
    have a1 : x < 2 ^ (Int.log 2 x + 1) := by
      have := Int.lt_zpow_succ_log_self (b := 2) (by norm_num) x
      simpa using this
    have a2 : (2 : ℝ) ^ Int.log 2 y ≤ y := by
      have := Int.zpow_log_le_self (b := 2) (by norm_num) hy
      simpa using this
    have b1 : rne x ≤ 2 ^ (Int.log 2 x + 1) := by
      have c : roundEven (x / 2 ^ ulpExp x) ≤ 2 ^ 53 := by
        have := roundEven_int (2 ^ 53)
        rw [← this]
        apply roundEven_mono
        rw [div_le_iff₀ (hp _), hux]
        refine a1.le.trans (le_of_eq ?_)
        rw [show (((2 ^ 53 : ℤ)) : ℝ) = 2 ^ (53 : ℤ) by norm_num, ← zpow_add₀ (by norm_num)]
        congr 1; ring
      have c' : (roundEven (x / 2 ^ ulpExp x) : ℝ) ≤ 2 ^ 53 := by exact_mod_cast c
      rw [rne]
      refine (mul_le_mul_of_nonneg_right c' (hp _).le).trans (le_of_eq ?_)
      rw [hux, ← zpow_natCast, ← zpow_add₀ (by norm_num)]
      congr 1; push_cast; ring
    have b2 : (2 : ℝ) ^ Int.log 2 y ≤ rne y := by
      have c : 2 ^ 52 ≤ roundEven (y / 2 ^ ulpExp y) := by
        have := roundEven_int (2 ^ 52)
        rw [← this]
        apply roundEven_mono
        rw [le_div_iff₀ (hp _), huy]
        refine le_trans (le_of_eq ?_) a2
        rw [show (((2 ^ 52 : ℤ)) : ℝ) = 2 ^ (52 : ℤ) by norm_num, ← zpow_add₀ (by norm_num)]
        congr 1; ring
      have c' : (2 : ℝ) ^ 52 ≤ roundEven (y / 2 ^ ulpExp y) := by exact_mod_cast c
      rw [rne]
      refine le_trans (le_of_eq ?_) (mul_le_mul_of_nonneg_right c' (hp _).le)
      rw [huy, ← zpow_natCast, ← zpow_add₀ (by norm_num)]
      congr 1; push_cast; ring
    refine b1.trans (le_trans ?_ b2)
    exact zpow_le_zpow_right₀ (by norm_num) (by omega)

/-- IEEE-754 rounding is monotone. -/
theorem rne_mono {x y : ℝ} (h : x ≤ y) : rne x ≤ rne y := by
  rcases lt_or_ge 0 x with h0 | h0
  · exact rne_mono_pos h0 h
  · rcases lt_or_ge 0 y with h1 | h1
    · exact (rne_nonpos h0).trans (rne_nonneg h1.le)
    · rcases h1.eq_or_lt with rfl | h1
      · rw [rne_zero]; exact rne_nonpos h0
      · have := rne_mono_pos (x := -y) (y := -x) (by linarith) (by linarith)
        rw [rne_neg, rne_neg] at this
        linarith

/-- Absolute error of a rounded result. -/
theorem rne_near {x y d B : ℝ} (h : |x - y| ≤ d) (hB : |y| ≤ B) : |rne x - y| ≤ d + (B + d) * 2⁻¹ ^ 53 := by
  have h1 := rne_err x
  have h2 : |x| ≤ B + d := by
    calc |x| = |y + (x - y)| := by ring_nf
      _ ≤ |y| + |x - y| := abs_add_le _ _
      _ ≤ B + d := add_le_add hB h
  calc |rne x - y| = |(x - y) + (rne x - x)| := by ring_nf
    _ ≤ |x - y| + |rne x - x| := abs_add_le _ _
    _ ≤ d + 2⁻¹ ^ 53 * |x| := add_le_add h h1
    _ ≤ d + (B + d) * 2⁻¹ ^ 53 := by nlinarith [abs_nonneg x, (by positivity : (0:ℝ) < 2⁻¹ ^ 53)]

theorem ulpExp_half {x : ℝ} (hx : x ≠ 0) : ulpExp (x / 2) = ulpExp x - 1 := by
  have h0 : 0 < |x| := abs_pos.2 hx
  rw [ulpExp, ulpExp, abs_div, abs_of_pos (by norm_num : (0 : ℝ) < 2)]
  have : Int.log 2 (|x| / 2) = Int.log 2 |x| - 1 := by
    have a1 : (2 : ℝ) ^ Int.log 2 |x| ≤ |x| := by simpa using Int.zpow_log_le_self (b := 2) (by norm_num) h0
    have a2 : |x| < 2 ^ (Int.log 2 |x| + 1) := by simpa using Int.lt_zpow_succ_log_self (b := 2) (by norm_num) |x|
    have hp : (0 : ℝ) < |x| / 2 := by positivity
    apply le_antisymm
    · have := (Int.lt_zpow_iff_log_lt (b := 2) (x := Int.log 2 |x|) (by norm_num) hp).1 (by
        rw [zpow_add_one₀ (by norm_num)] at a2
        rw [Nat.cast_ofNat, div_lt_iff₀ (by norm_num)]; exact a2)
      omega
    · refine (Int.zpow_le_iff_le_log (b := 2) (by norm_num) hp).1 ?_
      rw [Nat.cast_ofNat, zpow_sub_one₀ (by norm_num), ← div_eq_mul_inv]
      exact div_le_div_of_nonneg_right a1 (by norm_num)
  rw [this]; ring

/-- Halving a double is exact. -/
theorem rne_half {x : ℝ} (h : rne x = x) : rne (x / 2) = x / 2 := by
  by_cases hx : x = 0
  · subst hx; simpa using rne_zero
  · refine rne_exact (roundEven (x / 2 ^ ulpExp x)) ?_
    rw [ulpExp_half hx, zpow_sub_one₀ (by norm_num), ← mul_assoc, ← div_eq_mul_inv]
    conv_lhs => rw [← h]
    rw [rne]

/-- Rounding is idempotent on integers of moderate size. -/
theorem rne_intCast {n : ℤ} (h : |n| ≤ 2 ^ 53) : rne (n : ℝ) = n := by
  obtain ⟨m, rfl | rfl⟩ := n.eq_nat_or_neg
  · simpa using rne_natCast (n := m) (by simpa using (by exact_mod_cast h : ((m : ℤ)).natAbs ≤ 2 ^ 53))
  · have hm : m ≤ 2 ^ 53 := by
      rw [abs_neg, Nat.abs_cast] at h; exact_mod_cast h
    push_cast
    rw [rne_neg, rne_natCast hm]

end Poseidon
