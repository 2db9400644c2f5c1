import Verif.Proofs.GenSecurity
import Verif.Proofs.GenFloatMono
import Verif.Spec.Security
import Verif.Proofs.BinomialTable

/-!
# Error bounds for the security test
-/

namespace Poseidon

theorem asUsize_int (n : ℤ) : asUsize (n : ℝ) = n.toNat := by
  rw [asUsize, ← Int.floor_toNat, Int.floor_intCast]

theorem asUsize_ceil_lt {x : ℝ} {n : Nat} (hn : 0 < n) : asUsize (⌈x⌉ : ℝ) < n ↔ ⌈x⌉ < (n : ℤ) := by
  rw [asUsize_int]; omega

theorem asUsize_floor_lt {x : ℝ} {n : Nat} (hn : 0 < n) : asUsize (⌊x⌋ : ℝ) < n ↔ x < n := by
  rw [asUsize_int]
  have : x < n ↔ ⌊x⌋ < (n : ℤ) := by rw [Int.floor_lt]; norm_cast
  rw [this]; omega

theorem min_near {a b a' b' d : ℝ} (h1 : |a - a'| ≤ d) (h2 : |b - b'| ≤ d) : |min a b - min a' b'| ≤ d :=
  (abs_min_sub_min_le_max a b a' b').trans (max_le h1 h2)

theorem mul_near {c c' x x' d e C X : ℝ} (h1 : |c - c'| ≤ d) (h2 : |x - x'| ≤ e) (hc : |c'| ≤ C) (hx : |x'| ≤ X) :
    |c * x - c' * x'| ≤ d * X + (C + d) * e := by
  have hd : 0 ≤ d := (abs_nonneg _).trans h1
  have he : 0 ≤ e := (abs_nonneg _).trans h2
  have hcc : |c| ≤ C + d := by
    calc |c| = |c' + (c - c')| := by ring_nf
      _ ≤ |c'| + |c - c'| := abs_add_le _ _
      _ ≤ C + d := add_le_add hc h1
  have hC : 0 ≤ C + d := (abs_nonneg _).trans hcc
  calc |c * x - c' * x'| = |(c - c') * x' + c * (x - x')| := by ring_nf
    _ ≤ |(c - c') * x'| + |c * (x - x')| := abs_add_le _ _
    _ = |c - c'| * |x'| + |c| * |x - x'| := by rw [abs_mul, abs_mul]
    _ ≤ d * X + (C + d) * e := by
      apply add_le_add
      · exact mul_le_mul h1 hx (abs_nonneg _) hd
      · exact mul_le_mul hcc h2 (abs_nonneg _) hC

/-- Relative error of `x.log(b)`. -/
theorem Libm.Accurate.log_near {L : Libm} (hL : L.Accurate) {x b : ℝ} (hx : 1 ≤ x) (hb : 1 < b) :
    |L.log x b - Real.logb b x| ≤ 2⁻¹ ^ 38 * Real.logb b x := by
  have hX := Real.log_nonneg hx
  have hB := Real.log_pos hb
  have e1 := abs_le.1 (hL.ln x hx)
  have e2 := abs_le.1 (hL.ln b hb.le)
  set X := Real.log x
  set B := Real.log b
  have hlb : Real.logb b x = X / B := rfl
  rw [hlb]
  set r := X / B with hr
  have hr0 : 0 ≤ r := div_nonneg hX hB.le
  have hXr : X = r * B := by rw [hr, div_mul_cancel₀ _ hB.ne']
  have hlnb : 0 < L.ln b := by nlinarith [(by norm_num : (2⁻¹ : ℝ) ^ 40 < 1)]
  have hup : L.ln x / L.ln b ≤ r * (1 + 3 * 2⁻¹ ^ 40) := by
    rw [div_le_iff₀ hlnb]
    have h1 : L.ln x ≤ r * B * (1 + 2⁻¹ ^ 40) := by rw [← hXr]; linarith
    have h2 : B * (1 - 2⁻¹ ^ 40) ≤ L.ln b := by linarith
    have h3 : r * (1 + 3 * 2⁻¹ ^ 40) * (B * (1 - 2⁻¹ ^ 40)) ≤ r * (1 + 3 * 2⁻¹ ^ 40) * L.ln b :=
      mul_le_mul_of_nonneg_left h2 (by positivity)
    have h4 : 0 ≤ r * B := by positivity
    have h5 : (1 + (2⁻¹ : ℝ) ^ 40) ≤ (1 + 3 * 2⁻¹ ^ 40) * (1 - 2⁻¹ ^ 40) := by norm_num
    nlinarith
  have hlo : r * (1 - 3 * 2⁻¹ ^ 40) ≤ L.ln x / L.ln b := by
    rw [le_div_iff₀ hlnb]
    have h1 : r * B * (1 - 2⁻¹ ^ 40) ≤ L.ln x := by rw [← hXr]; linarith
    have h2 : L.ln b ≤ B * (1 + 2⁻¹ ^ 40) := by linarith
    have h0 : (0 : ℝ) ≤ 1 - 3 * 2⁻¹ ^ 40 := by norm_num
    have h3 : r * (1 - 3 * 2⁻¹ ^ 40) * L.ln b ≤ r * (1 - 3 * 2⁻¹ ^ 40) * (B * (1 + 2⁻¹ ^ 40)) :=
      mul_le_mul_of_nonneg_left h2 (by positivity)
    have h4 : 0 ≤ r * B := by positivity
    have h5 : (1 - 3 * (2⁻¹ : ℝ) ^ 40) * (1 + 2⁻¹ ^ 40) ≤ 1 - 2⁻¹ ^ 40 := by norm_num
    nlinarith
  have h := rne_near (x := L.ln x / L.ln b) (y := r) (d := 3 * 2⁻¹ ^ 40 * r) (B := r)
    (by rw [abs_le]; constructor <;> linarith) (by rw [abs_of_nonneg hr0])
  refine h.trans ?_
  have : 3 * 2⁻¹ ^ 40 * r + (r + 3 * 2⁻¹ ^ 40 * r) * 2⁻¹ ^ 53 = r * (3 * 2⁻¹ ^ 40 + (1 + 3 * 2⁻¹ ^ 40) * 2⁻¹ ^ 53) := by ring
  rw [this, mul_comm]
  apply mul_le_mul_of_nonneg_right _ hr0
  norm_num

section Power
variable {L : Libm} (hL : L.Accurate) {input : GenInput} {lp : ℝ} {e : Nat}
  (hM : input.security ≤ 4096) (hlp0 : 0 ≤ lp) (hlp : lp ≤ 4096) (ht : 1 ≤ input.t) (ht' : input.t ≤ 4096)
  (he : 3 ≤ e) (he' : e < 2 ^ 32)
include hL hM hlp0 hlp ht ht' he he'

theorem statistical_near :
    (Spec.fullRoundsNeeded (1e-6) input.security lp input.t e = 6 → statisticalAttackFullRounds L input lp (.exponent e) = 6) ∧
    (statisticalAttackFullRounds L input lp (.exponent e) = 6 → Spec.fullRoundsNeeded (-1e-6) input.security lp input.t e = 6) := by
  have heR : (3 : ℝ) ≤ e := by exact_mod_cast he
  have htR : (1 : ℝ) ≤ input.t := by exact_mod_cast ht
  have htR' : (input.t : ℝ) ≤ 4096 := by exact_mod_cast ht'
  have hre : rne (e : ℝ) = e := rne_natCast (by omega)
  have hre1 : rne ((e : ℝ) - 1) = e - 1 := by
    have := rne_natCast (n := e - 1) (by omega)
    rwa [Nat.cast_sub (by omega), Nat.cast_one] at this
  have hrM : rne (input.security : ℝ) = input.security := rne_natCast (by omega)
  have hrt : rne (input.t : ℝ) = input.t := rne_natCast (by omega)
  have hrt1 : rne ((input.t : ℝ) + 1) = input.t + 1 := by
    have := rne_natCast (n := input.t + 1) (by omega)
    push_cast at this; exact this
  set C := Real.logb 2 ((e : ℝ) - 1) with hC
  have hC0 : 0 ≤ C := Real.logb_nonneg (by norm_num) (by linarith)
  have hC32 : C ≤ 32 := by
    have : (e : ℝ) ≤ 2 ^ 32 := by exact_mod_cast he'.le
    exact_mod_cast logb2_le (n := 32) (by linarith) (by linarith)
  have d1 : |L.log2 ((e : ℝ) - 1) - C| ≤ 1e-10 := by
    refine (hL.log2 _ (by linarith)).trans ?_
    rw [← hC]
    calc (2⁻¹ : ℝ) ^ 40 * C ≤ 2⁻¹ ^ 40 * 32 := by gcongr
      _ ≤ 1e-10 := by norm_num
  have hf0 : (0 : ℝ) ≤ ⌊lp⌋ := by exact_mod_cast Int.floor_nonneg.2 hlp0
  have hf1 : (⌊lp⌋ : ℝ) ≤ 4096 := (Int.floor_le lp).trans hlp
  have d2 : |rne (⌊lp⌋ - L.log2 ((e : ℝ) - 1)) - (⌊lp⌋ - C)| ≤ 1.1e-10 := by
    refine (rne_near (d := 1e-10) (B := 4128) ?_ ?_).trans (by norm_num)
    · rw [show (⌊lp⌋ : ℝ) - L.log2 ((e : ℝ) - 1) - (⌊lp⌋ - C) = -(L.log2 ((e : ℝ) - 1) - C) by ring, abs_neg]
      exact d1
    · rw [abs_le]; constructor <;> linarith
  have d3 : |rne (rne (⌊lp⌋ - L.log2 ((e : ℝ) - 1)) * ((input.t : ℝ) + 1)) - (⌊lp⌋ - C) * (input.t + 1)| ≤ 1e-6 := by
    have hb : |(⌊lp⌋ : ℝ) - C| ≤ 4128 := by rw [abs_le]; constructor <;> linarith
    have hb2 : |(input.t : ℝ) + 1| ≤ 4097 := by rw [abs_le]; constructor <;> linarith
    refine (rne_near (d := 1.1e-10 * 4097) (B := 4128 * 4097) ?_ ?_).trans (by norm_num)
    · refine (mul_near d2 (x' := (input.t : ℝ) + 1) (e := 0) (by simp) hb hb2).trans (by norm_num)
    · rw [abs_mul]; exact mul_le_mul hb hb2 (abs_nonneg _) (by norm_num)
  have d3' := abs_le.1 d3
  constructor
  · intro h
    rw [Spec.fullRoundsNeeded] at h
    rw [statisticalAttackFullRounds]
    simp only [hre, hre1, hrM, hrt, hrt1]
    split_ifs at h with h1
    · rw [if_pos]; linarith
    · omega
  · intro h
    rw [statisticalAttackFullRounds] at h
    simp only [hre, hre1, hrM, hrt, hrt1] at h
    rw [Spec.fullRoundsNeeded]
    split_ifs at h with h1
    · rw [if_pos]; linarith
    · omega

omit hlp in
theorem interpolation_near {n : Nat} (hn : 0 < n) :
    (⌈⌈Real.logb e 2 * min (input.security : ℝ) lp + 1e-6⌉ + Real.logb e input.t + 1e-6⌉ < (n : ℤ) →
      algebraicAttackInterpolation L input lp (.exponent e) < n) ∧
    (algebraicAttackInterpolation L input lp (.exponent e) < n →
      ⌈⌈Real.logb e 2 * min (input.security : ℝ) lp + -1e-6⌉ + Real.logb e input.t + -1e-6⌉ < (n : ℤ)) := by
  have heR : (3 : ℝ) ≤ e := by exact_mod_cast he
  have htR : (1 : ℝ) ≤ input.t := by exact_mod_cast ht
  have htR' : (input.t : ℝ) ≤ 2 ^ 12 := by exact_mod_cast ht'
  have hMR : (input.security : ℝ) ≤ 4096 := by exact_mod_cast hM
  have hM0 : (0 : ℝ) ≤ input.security := Nat.cast_nonneg _
  have hre : rne (e : ℝ) = e := rne_natCast (by omega)
  have hrM : rne (input.security : ℝ) = input.security := rne_natCast (by omega)
  have hrt : rne (input.t : ℝ) = input.t := rne_natCast (by omega)
  have hc0 : 0 ≤ Real.logb e 2 := Real.logb_nonneg (by linarith) (by norm_num)
  have hc1 : Real.logb e 2 ≤ 1 := by
    rw [Real.logb_le_iff_le_rpow (by linarith) (by norm_num), Real.rpow_one]; linarith
  have hB0 : 0 ≤ Real.logb e input.t := Real.logb_nonneg (by linarith) htR
  have hB1 : Real.logb e input.t ≤ 12 := by
    have h2 : Real.logb e input.t ≤ (12 : ℕ) := by
      rw [Real.logb_le_iff_le_rpow (by linarith) (by linarith), Real.rpow_natCast]
      exact htR'.trans (pow_le_pow_left₀ (by norm_num) (by linarith) _)
    exact_mod_cast h2
  set c := Real.logb e 2
  set B := Real.logb (e : ℝ) input.t
  set m := min (input.security : ℝ) lp
  have hm0 : 0 ≤ m := le_min hM0 hlp0
  have hm1 : m ≤ 4096 := (min_le_left _ _).trans hMR
  have d1 : |L.log 2 e - c| ≤ 2⁻¹ ^ 38 := by
    refine (hL.log_near (by norm_num) (by linarith)).trans ?_
    exact mul_le_of_le_one_right (by norm_num) hc1
  have d2 : |L.log input.t e - B| ≤ 1e-9 := by
    refine (hL.log_near htR (by linarith)).trans ?_
    calc (2⁻¹ : ℝ) ^ 38 * B ≤ 2⁻¹ ^ 38 * 12 := by gcongr
      _ ≤ 1e-9 := by norm_num
  have hcm : |c * m| ≤ 4096 := by
    rw [abs_of_nonneg (by positivity)]; nlinarith
  have d3 : |rne (L.log 2 e * m) - c * m| ≤ 1e-6 := by
    refine (rne_near (d := 2⁻¹ ^ 38 * 4096) (B := 4096) ?_ hcm).trans (by norm_num)
    refine (mul_near d1 (x' := m) (e := 0) (by simp) (abs_le.2 ⟨by linarith, hc1⟩) (abs_le.2 ⟨by linarith, hm1⟩)).trans (by norm_num)
  have d3' := abs_le.1 d3
  have d2' := abs_le.1 d2
  have hcm' := abs_le.1 hcm
  have key : ∀ k : ℤ, 0 ≤ k → k ≤ 4098 → |rne (k + L.log input.t e) - (k + B)| ≤ 1e-6 := by
    intro k hk0 hk1
    have hk0' : (0 : ℝ) ≤ k := by exact_mod_cast hk0
    have hk1' : (k : ℝ) ≤ 4098 := by exact_mod_cast hk1
    refine (rne_near (d := 1e-9) (B := 4110) ?_ ?_).trans (by norm_num)
    · rw [show (k : ℝ) + L.log input.t e - (k + B) = L.log input.t e - B by ring]; exact d2
    · rw [abs_le]; constructor <;> linarith
  have hk0 : 0 ≤ ⌈rne (L.log 2 e * m)⌉ :=
    Int.ceil_nonneg (rne_nonneg (mul_nonneg (hL.log_nonneg (by norm_num) (by linarith)) hm0))
  have hk1 : ⌈rne (L.log 2 e * m)⌉ ≤ 4098 := Int.ceil_le.2 (by push_cast; linarith)
  have d4 := abs_le.1 (key _ hk0 hk1)
  rw [algebraicAttackInterpolation]
  rw [hre, hrM, hrt, asUsize_ceil_lt hn]
  constructor
  · refine fun h => lt_of_le_of_lt (Int.ceil_mono ?_) h
    have : ((⌈rne (L.log 2 e * m)⌉ : ℤ) : ℝ) ≤ ⌈c * m + 1e-6⌉ := by
      exact_mod_cast Int.ceil_mono (by linarith)
    linarith
  · refine fun h => lt_of_le_of_lt (Int.ceil_mono ?_) h
    have : ((⌈c * m + -1e-6⌉ : ℤ) : ℝ) ≤ ⌈rne (L.log 2 e * m)⌉ := by
      exact_mod_cast Int.ceil_mono (by linarith)
    linarith

theorem grobner_near {n g : Nat} (hn : 0 < n) (hg : algebraicAttackGrobnerBasisV1 L input lp (.exponent e) = .ok g) :
    (Real.logb e 2 * min (input.security / 3 : ℝ) (lp / 2) + 1e-6 < (n : ℝ) →
      (input.t : ℝ) - 1 + Real.logb e 2 * min (input.security / (input.t + 1) : ℝ) (lp / 2) + 1e-6 < (n : ℝ) → g < n) ∧
    (g < n → Real.logb e 2 * min (input.security / 3 : ℝ) (lp / 2) + -1e-6 < (n : ℝ) ∧
      (input.t : ℝ) - 1 + Real.logb e 2 * min (input.security / (input.t + 1) : ℝ) (lp / 2) + -1e-6 < (n : ℝ)) := by
  have heR : (3 : ℝ) ≤ e := by exact_mod_cast he
  have htR : (1 : ℝ) ≤ input.t := by exact_mod_cast ht
  have htR' : (input.t : ℝ) ≤ 4096 := by exact_mod_cast ht'
  have hMR : (input.security : ℝ) ≤ 4096 := by exact_mod_cast hM
  have hM0 : (0 : ℝ) ≤ input.security := Nat.cast_nonneg _
  have hre : rne (e : ℝ) = e := rne_natCast (by omega)
  have hrM : rne (input.security : ℝ) = input.security := rne_natCast (by omega)
  have hrt : rne (input.t : ℝ) = input.t := rne_natCast (by omega)
  have hrt1 : rne ((input.t : ℝ) + 1) = input.t + 1 := by
    have := rne_natCast (n := input.t + 1) (by omega)
    push_cast at this; exact this
  have hrtm : rne ((input.t - 1 : ℕ) : ℝ) = input.t - 1 := by
    rw [rne_natCast (n := input.t - 1) (by omega), Nat.cast_sub ht, Nat.cast_one]
  have hc0 : 0 ≤ Real.logb e 2 := Real.logb_nonneg (by linarith) (by norm_num)
  have hc1 : Real.logb e 2 ≤ 1 := by
    rw [Real.logb_le_iff_le_rpow (by linarith) (by norm_num), Real.rpow_one]; linarith
  rw [algebraicAttackGrobnerBasisV1, usub, if_pos ht] at hg
  obtain rfl := Except.ok.inj hg
  simp only [hre, hrM, hrt, hrt1, hrtm]
  rw [asUsize_floor_lt hn]
  set c := Real.logb e 2
  have d1 : |L.log 2 e - c| ≤ 2⁻¹ ^ 38 := by
    refine (hL.log_near (by norm_num) (by linarith)).trans ?_
    exact mul_le_of_le_one_right (by norm_num) hc1
  have hcabs : |c| ≤ 1 := abs_le.2 ⟨by linarith, hc1⟩
  -- first condition
  have e1 : |rne ((input.security : ℝ) / 3) - input.security / 3| ≤ 1e-11 := by
    refine (rne_near (d := 0) (B := 4096) (by simp) ?_).trans (by norm_num)
    rw [abs_of_nonneg (by positivity)]; linarith
  have e2 : |rne (lp / 2) - lp / 2| ≤ 1e-11 := by
    refine (rne_near (d := 0) (B := 4096) (by simp) ?_).trans (by norm_num)
    rw [abs_of_nonneg (by positivity)]; linarith
  have b1 : |min ((input.security : ℝ) / 3) (lp / 2)| ≤ 4096 := by
    rw [abs_of_nonneg (le_min (by positivity) (by positivity))]
    exact (min_le_left _ _).trans (by linarith)
  have g1 : |rne (L.log 2 e * min (rne ((input.security : ℝ) / 3)) (rne (lp / 2))) -
      c * min (input.security / 3 : ℝ) (lp / 2)| ≤ 1e-6 := by
    refine (rne_near (d := 2⁻¹ ^ 38 * 4096 + (1 + 2⁻¹ ^ 38) * 1e-11) (B := 4096) ?_ ?_).trans (by norm_num)
    · exact mul_near d1 (min_near e1 e2) hcabs b1
    · rw [abs_mul]
      calc |c| * |min ((input.security : ℝ) / 3) (lp / 2)| ≤ 1 * 4096 :=
            mul_le_mul hcabs b1 (abs_nonneg _) (by norm_num)
        _ ≤ 4096 := by norm_num
  -- second condition
  have p : ∀ x : ℝ, 0 ≤ x → x ≤ 4096 → |rne (L.log 2 e * x) - c * x| ≤ 1e-7 := by
    intro x hx0 hx1
    have hx : |x| ≤ 4096 := abs_le.2 ⟨by linarith, hx1⟩
    refine (rne_near (d := 2⁻¹ ^ 38 * 4096) (B := 4096) ?_ ?_).trans (by norm_num)
    · exact (mul_near d1 (x' := x) (e := 0) (by simp) hcabs hx).trans (by norm_num)
    · rw [abs_mul]
      calc |c| * |x| ≤ 1 * 4096 := mul_le_mul hcabs hx (abs_nonneg _) (by norm_num)
        _ ≤ 4096 := by norm_num
  have q : ∀ x k : ℝ, 0 ≤ x → x ≤ 4096 → 1 ≤ k → |rne (rne (L.log 2 e * x) / k) - c * (x / k)| ≤ 2e-7 := by
    intro x k hx0 hx1 hk
    have hk0 : 0 < k := by linarith
    refine (rne_near (d := 1e-7) (B := 4096) ?_ ?_).trans (by norm_num)
    · rw [show rne (L.log 2 e * x) / k - c * (x / k) = (rne (L.log 2 e * x) - c * x) / k by ring, abs_div, abs_of_pos hk0]
      exact (div_le_self (abs_nonneg _) hk).trans (p x hx0 hx1)
    · have : x / k ≤ x := div_le_self hx0 hk
      have h0 : 0 ≤ x / k := by positivity
      rw [abs_of_nonneg (by positivity)]
      nlinarith
  have q1 := q input.security (input.t + 1) hM0 hMR (by linarith)
  have q2 := q lp 2 hlp0 hlp (by norm_num)
  have q3 := min_near q1 q2
  rw [← mul_min_of_nonneg _ _ hc0] at q3
  have b2 : c * min ((input.security : ℝ) / (input.t + 1)) (lp / 2) ≤ 4096 := by
    have h1 : min ((input.security : ℝ) / (input.t + 1)) (lp / 2) ≤ 4096 := (min_le_right _ _).trans (by linarith)
    have h0 : 0 ≤ min ((input.security : ℝ) / (input.t + 1)) (lp / 2) := le_min (by positivity) (by positivity)
    nlinarith
  have b3 : 0 ≤ c * min ((input.security : ℝ) / (input.t + 1)) (lp / 2) :=
    mul_nonneg hc0 (le_min (by positivity) (by positivity))
  have g2 : |rne ((input.t : ℝ) - 1 + min (rne (rne (L.log 2 e * input.security) / (input.t + 1))) (rne (rne (L.log 2 e * lp) / 2))) -
      (input.t - 1 + c * min ((input.security : ℝ) / (input.t + 1)) (lp / 2))| ≤ 1e-6 := by
    refine (rne_near (d := 2e-7) (B := 8192) ?_ ?_).trans (by norm_num)
    · rw [add_sub_add_left_eq_sub]; exact q3
    · rw [abs_le]; constructor <;> linarith
  have g1' := abs_le.1 g1
  have g2' := abs_le.1 g2
  rw [max_lt_iff]
  constructor
  · intro h1 h2; constructor <;> linarith
  · rintro ⟨h1, h2⟩; constructor <;> linarith

end Power

/-! ### The inverse S-box: the test is exact -/

theorem logb_small : (2⁻¹ : ℝ) ^ 20 ≤ Real.logb 2 ((2 ^ 19 + 1) / 2 ^ 19) := by
  have h1 := Real.one_sub_inv_le_log_of_pos (x := (2 ^ 19 + 1) / 2 ^ 19) (by norm_num)
  have h2 := Real.log_two_lt_d9
  have h3 : (0 : ℝ) < Real.log 2 := Real.log_pos (by norm_num)
  rw [Real.logb, le_div_iff₀ h3]
  have h4 : (2⁻¹ : ℝ) ^ 20 * Real.log 2 ≤ 2⁻¹ ^ 20 * 1 := by
    apply mul_le_mul_of_nonneg_left _ (by positivity); linarith
  have h5 : (2⁻¹ : ℝ) ^ 20 * 1 ≤ 1 - ((2 ^ 19 + 1) / 2 ^ 19)⁻¹ := by norm_num
  linarith

theorem logb_far {t r : Nat} (ht : 1 ≤ t) (h : farFromPow t r = true) :
    (Nat.log 2 (t ^ r) : ℝ) + 2⁻¹ ^ 20 ≤ r * Real.logb 2 t ∧
      r * Real.logb 2 t ≤ Nat.log 2 (t ^ r) + 1 - 2⁻¹ ^ 20 := by
  rw [farFromPow, Nat.log2_eq_log_two] at h
  simp only [Bool.and_eq_true, decide_eq_true_eq] at h
  set k := Nat.log 2 (t ^ r)
  have htR : (0 : ℝ) < t := by exact_mod_cast ht
  have e : (r : ℝ) * Real.logb 2 t = Real.logb 2 ((t : ℝ) ^ r) := by rw [Real.logb_pow]
  have hk : ∀ j : Nat, Real.logb 2 ((2 : ℝ) ^ j) = j := by
    intro j; rw [Real.logb_pow, Real.logb_self_eq_one (by norm_num), mul_one]
  have h0 : (0 : ℝ) < (t : ℝ) ^ r := by positivity
  rw [e]
  have h1 : (2 : ℝ) ^ k * (2 ^ 19 + 1) ≤ (t : ℝ) ^ r * 2 ^ 19 := by exact_mod_cast h.1
  have h2 : (t : ℝ) ^ r * (2 ^ 19 + 1) ≤ (2 : ℝ) ^ (k + 1) * 2 ^ 19 := by exact_mod_cast h.2
  have hs := logb_small
  have l2 : (1 : ℝ) < 2 := by norm_num
  constructor
  · have : Real.logb 2 (2 ^ k * ((2 ^ 19 + 1) / 2 ^ 19)) ≤ Real.logb 2 ((t : ℝ) ^ r) := by
      apply Real.logb_le_logb_of_le l2 (by positivity)
      rw [← mul_div_assoc, div_le_iff₀ (by norm_num)]; exact h1
    rw [Real.logb_mul (by positivity) (by norm_num), hk] at this
    linarith
  · have : Real.logb 2 ((t : ℝ) ^ r * ((2 ^ 19 + 1) / 2 ^ 19)) ≤ Real.logb 2 ((2 : ℝ) ^ (k + 1)) := by
      apply Real.logb_le_logb_of_le l2 (by positivity)
      rw [← mul_div_assoc, div_le_iff₀ (by norm_num)]; exact h2
    rw [Real.logb_mul (by positivity) (by norm_num), hk] at this
    push_cast at this
    linarith

section Inverse
variable {L : Libm} (hL : L.Accurate) (hpow : ∀ k : Nat, L.log2 (2 ^ k) = k) {input : GenInput} {lp : ℝ}
  (hM : input.security ≤ 4096) (hlp0 : 0 ≤ lp) (hlp : lp ≤ 4096) (hlpd : rne lp = lp) (ht : 1 ≤ input.t) (ht' : input.t ≤ 64)

section
include hL hpow

omit hL hpow in
theorem logb2_width {t : Nat} (ht : 1 ≤ t) (ht' : t ≤ 64) : 0 ≤ Real.logb 2 (t : ℝ) ∧ Real.logb 2 (t : ℝ) ≤ 6 := by
  have htR : (1 : ℝ) ≤ t := by exact_mod_cast ht
  have : (t : ℝ) ≤ 2 ^ 6 := by exact_mod_cast ht'
  exact ⟨Real.logb_nonneg (by norm_num) htR, by exact_mod_cast logb2_le (n := 6) (by linarith) this⟩

theorem floor_log2_exact {t r : Nat} (ht : 1 ≤ t) (ht' : t ≤ 64) (hr : 1 ≤ r) (hr' : r ≤ 101) :
    ⌊rne (rne r * L.log2 t)⌋ = Nat.log 2 (t ^ r) := by
  rw [rne_natCast (n := r) (by omega)]
  have htR : (1 : ℝ) ≤ t := by exact_mod_cast ht
  rcases farFromPow_all t (by omega) ht with h | h
  · have e : (t : ℝ) = 2 ^ t.log2 := by exact_mod_cast h.symm
    have e2 : L.log2 (t : ℝ) = (t.log2 : ℝ) := by rw [e]; exact hpow _
    have hl : t.log2 ≤ 64 := by
      have := Nat.lt_two_pow_self (n := t.log2)
      omega
    have hb : r * t.log2 ≤ 2 ^ 53 := le_trans (Nat.mul_le_mul hr' hl) (by norm_num)
    rw [e2, ← Nat.cast_mul, rne_natCast hb, Int.floor_natCast]
    norm_cast
    conv_rhs => rw [← h]
    rw [← pow_mul, Nat.log_pow (by norm_num), mul_comm]
  · obtain ⟨h1, h2⟩ := logb_far ht (h r (by omega) hr)
    obtain ⟨l0, l6⟩ := logb2_width ht ht'
    have hrR : (r : ℝ) ≤ 101 := by exact_mod_cast hr'
    have hr0 : (0 : ℝ) ≤ r := Nat.cast_nonneg _
    have d : |L.log2 (t : ℝ) - Real.logb 2 t| ≤ 6 * 2⁻¹ ^ 40 := by
      refine (hL.log2 _ htR).trans ?_
      rw [mul_comm]
      exact mul_le_mul_of_nonneg_right l6 (by positivity)
    have d2 : |rne (r * L.log2 (t : ℝ)) - r * Real.logb 2 t| ≤ 2⁻¹ ^ 25 := by
      refine (rne_near (d := 101 * (6 * 2⁻¹ ^ 40)) (B := 101 * 6) ?_ ?_).trans (by norm_num)
      · rw [← mul_sub, abs_mul, abs_of_nonneg hr0]
        exact mul_le_mul hrR d (abs_nonneg _) (by norm_num)
      · rw [abs_of_nonneg (by positivity)]
        exact mul_le_mul hrR l6 l0 (by norm_num)
    have d2' := abs_le.1 d2
    have n1 : (2⁻¹ : ℝ) ^ 25 < 2⁻¹ ^ 20 := by norm_num
    rw [Int.floor_eq_iff]
    push_cast
    constructor <;> linarith

theorem ceil_log2_exact {t : Nat} (ht : 1 ≤ t) (ht' : t ≤ 64) : ⌈L.log2 (t : ℝ)⌉ = Nat.clog 2 t := by
  have htR : (1 : ℝ) ≤ t := by exact_mod_cast ht
  rcases farFromPow_all t (by omega) ht with h | h
  · have e : (t : ℝ) = 2 ^ t.log2 := by exact_mod_cast h.symm
    rw [e, hpow, Int.ceil_natCast]
    conv_rhs => rw [← h]
    rw [Nat.clog_pow _ _ (by norm_num)]
  · obtain ⟨h1, h2⟩ := logb_far ht (h 1 (by omega) le_rfl)
    obtain ⟨l0, l6⟩ := logb2_width ht ht'
    rw [pow_one, Nat.cast_one, one_mul] at h1 h2
    have d : |L.log2 (t : ℝ) - Real.logb 2 t| ≤ 6 * 2⁻¹ ^ 40 := by
      refine (hL.log2 _ htR).trans ?_
      rw [mul_comm]
      exact mul_le_mul_of_nonneg_right l6 (by positivity)
    have d' := abs_le.1 d
    have n1 : 6 * (2⁻¹ : ℝ) ^ 40 < 2⁻¹ ^ 20 := by norm_num
    have hc : Nat.clog 2 t = Nat.log 2 t + 1 := by
      apply le_antisymm
      · exact Nat.clog_le_of_le_pow (Nat.lt_pow_succ_log_self (by norm_num) t).le
      · by_contra hcon
        have h5 : Nat.clog 2 t ≤ Nat.log 2 t := by omega
        have h6 : t ≤ 2 ^ Nat.log 2 t := (Nat.le_pow_clog (by norm_num) t).trans (Nat.pow_le_pow_right (by norm_num) h5)
        have h7 : Real.logb 2 (t : ℝ) ≤ (Nat.log 2 t : ℕ) := logb2_le (by linarith) (by exact_mod_cast h6)
        have : (0 : ℝ) < 2⁻¹ ^ 20 := by positivity
        linarith
    rw [hc, Int.ceil_eq_iff]
    push_cast
    constructor <;> linarith

end

theorem ceil_div_exact {a b : Nat} (ha : a ≤ 4096) (hb : 1 ≤ b) (hb' : b ≤ 4097) :
    ⌈rne ((a : ℝ) / b)⌉ = ⌈(a : ℝ) / b⌉ := by
  have hbR : (0 : ℝ) < b := by exact_mod_cast hb
  have haR : (a : ℝ) ≤ 4096 := by exact_mod_cast ha
  have hbR' : (b : ℝ) ≤ 4097 := by exact_mod_cast hb'
  have hx0 : 0 ≤ (a : ℝ) / b := by positivity
  rw [Int.ceil_eq_iff]
  rw [ceil_natDiv a b hb]
  set n := (a + (b - 1)) / b with hn
  have hna : n ≤ 2 ^ 53 := by
    have : n ≤ a + (b - 1) := Nat.div_le_self _ _
    omega
  have h1 := Nat.lt_div_mul_add hb (a := a + (b - 1))
  have h2 := Nat.div_mul_le_self (a + (b - 1)) b
  rw [← hn] at h1 h2
  have h3 : a ≤ n * b := by omega
  have h4 : n * b + 1 ≤ a + b := by omega
  have h3R : (a : ℝ) ≤ n * b := by exact_mod_cast h3
  have h4R : (n : ℝ) * b + 1 ≤ a + b := by exact_mod_cast h4
  constructor
  · have hl := le_rne (le_refl ((a : ℝ) / b)) hx0
    rw [Int.cast_natCast]
    have : ((n : ℝ) - 1) + 1 / b ≤ (a : ℝ) / b := by
      rw [le_div_iff₀ hbR, add_mul, one_div, inv_mul_cancel₀ hbR.ne']; linarith
    have h5 : (a : ℝ) / b * 2⁻¹ ^ 53 < 1 / b := by
      rw [div_mul_eq_mul_div]
      apply div_lt_div_of_pos_right _ hbR
      calc (a : ℝ) * 2⁻¹ ^ 53 ≤ 4096 * 2⁻¹ ^ 53 := by gcongr
        _ < 1 := by norm_num
    linarith
  · have : (a : ℝ) / b ≤ n := by rw [div_le_iff₀ hbR]; exact h3R
    have := rne_mono this
    rw [rne_natCast hna] at this
    simpa using this

include hL hpow hM hlp0 hlp hlpd ht ht'

/-- The test for the inverse S-box is the specification. -/
theorem isSecureV1_inverse_iff (r : RoundNumbers) (hrF : r.rF ≤ 101) :
    isSecureV1 L input lp .inverse r = .ok true ↔ Spec.SecureInverse input.security lp input.t r.rP r.rF := by
  have htR : (1 : ℝ) ≤ input.t := by exact_mod_cast ht
  have htR' : (input.t : ℝ) ≤ 64 := by exact_mod_cast ht'
  have hMR : (input.security : ℝ) ≤ 4096 := by exact_mod_cast hM
  have hM0 : (0 : ℝ) ≤ input.security := Nat.cast_nonneg _
  have hrM : rne (input.security : ℝ) = input.security := rne_natCast (by omega)
  have hrt : rne (input.t : ℝ) = input.t := rne_natCast (by omega)
  have hrt1 : rne ((input.t : ℝ) + 1) = input.t + 1 := by
    have := rne_natCast (n := input.t + 1) (by omega)
    push_cast at this; exact this
  have hrtm : rne ((input.t - 1 : ℕ) : ℝ) = ((input.t - 1 : ℕ) : ℝ) := rne_natCast (by omega)
  have hf0 : 0 ≤ ⌊lp⌋ := Int.floor_nonneg.2 hlp0
  have hf1 : ⌊lp⌋ ≤ 4096 := Int.floor_le_iff.2 (by push_cast; linarith)
  have hmin : rne (0.5 * min (input.security : ℝ) lp) = min (input.security : ℝ) lp / 2 := by
    rw [show (0.5 : ℝ) * min (input.security : ℝ) lp = min (input.security : ℝ) lp / 2 by ring]
    apply rne_half
    rcases min_choice (input.security : ℝ) lp with h | h <;> rw [h]
    · exact hrM
    · exact hlpd
  have hhalf : rne (0.5 * lp) = lp / 2 := by
    rw [show (0.5 : ℝ) * lp = lp / 2 by ring]; exact rne_half hlpd
  have hclog : Nat.clog 2 input.t ≤ 64 := by
    refine (Nat.clog_le_of_le_pow (y := input.t) ?_).trans ht'
    exact Nat.lt_two_pow_self.le
  have hcl := ceil_log2_exact hL hpow ht ht'
  have hdiv : ⌈rne ((input.security : ℝ) / (input.t + 1))⌉ = ⌈(input.security : ℝ) / (input.t + 1)⌉ := by
    have := ceil_div_exact (a := input.security) (b := input.t + 1) hM (by omega) (by omega)
    push_cast at this; exact this
  have m0 : 0 ≤ ⌈min (input.security : ℝ) lp / 2⌉ := Int.ceil_nonneg (div_nonneg (le_min hM0 hlp0) (by norm_num))
  have m1 : ⌈min (input.security : ℝ) lp / 2⌉ ≤ 4096 := Int.ceil_le.2 (by
    have := min_le_left (input.security : ℝ) lp
    push_cast; linarith)
  have n0 : 0 ≤ min ⌈(input.security : ℝ) / (input.t + 1)⌉ ⌈lp / 2⌉ :=
    le_min (Int.ceil_nonneg (by positivity)) (Int.ceil_nonneg (by positivity))
  have n1 : min ⌈(input.security : ℝ) / (input.t + 1)⌉ ⌈lp / 2⌉ ≤ 4096 :=
    (min_le_right _ _).trans (Int.ceil_le.2 (by push_cast; linarith))
  -- the three bounds as integers
  have hS : statisticalAttackFullRounds L input lp .inverse = if (input.security : ℝ) ≤ (⌊lp⌋ - 2) * (input.t + 1) then 6 else 10 := by
    have hp : rne (rne ((⌊lp⌋ : ℝ) - 2) * ((input.t : ℝ) + 1)) = (⌊lp⌋ - 2) * (input.t + 1) := by
      have e1 := rne_intCast (n := ⌊lp⌋ - 2) (by rw [abs_le]; constructor <;> omega)
      push_cast at e1
      rw [e1]
      have e2 := rne_intCast (n := (⌊lp⌋ - 2) * (input.t + 1)) (by
        rw [abs_mul]
        have a1 : |⌊lp⌋ - 2| ≤ 4096 := by rw [abs_le]; constructor <;> omega
        have a2 : |(input.t : ℤ) + 1| ≤ 65 := by rw [abs_le]; constructor <;> omega
        exact (mul_le_mul a1 a2 (abs_nonneg _) (by norm_num)).trans (by norm_num))
      push_cast at e2
      exact e2
    rw [statisticalAttackFullRounds]
    simp only [hrM, hrt, hrt1, hp]
  have hI : algebraicAttackInterpolation L input lp .inverse =
      ((Nat.clog 2 input.t : ℤ) + ⌈min (input.security : ℝ) lp / 2⌉).toNat := by
    rw [algebraicAttackInterpolation]
    simp only [hrM, hrt, hmin, hcl]
    rw [← Int.cast_add, rne_intCast (by rw [abs_le]; constructor <;> omega), asUsize_int]
  have hG : algebraicAttackGrobnerBasisV1 L input lp .inverse = .ok
      (max ((Nat.clog 2 input.t : ℤ) + ⌈min (input.security : ℝ) lp / 2⌉)
        ((input.t : ℤ) - 1 + Nat.clog 2 input.t + min ⌈(input.security : ℝ) / (input.t + 1)⌉ ⌈lp / 2⌉)).toNat := by
    rw [algebraicAttackGrobnerBasisV1, usub, if_pos ht]
    refine congrArg Except.ok ?_
    simp only [hrM, hrt, hrt1, hrtm, hmin, hcl, hdiv, hhalf]
    have e1 : rne (((input.t - 1 : ℕ) : ℝ) + ((Nat.clog 2 input.t : ℤ) : ℝ)) =
        (((input.t : ℤ) - 1 + Nat.clog 2 input.t : ℤ) : ℝ) := by
      rw [← rne_intCast (n := (input.t : ℤ) - 1 + Nat.clog 2 input.t) (by rw [abs_le]; constructor <;> omega)]
      congr 1
      rw [Nat.cast_sub ht]
      push_cast; ring
    rw [e1, ← Int.cast_min, ← Int.cast_add, ← Int.cast_add, rne_intCast (by rw [abs_le]; constructor <;> omega),
      rne_intCast (by rw [abs_le]; constructor <;> omega), ← Int.cast_max, Int.floor_intCast, asUsize_int, add_comm (Nat.clog 2 input.t : ℤ) ⌈_⌉]
  rw [isSecureV1_eq L lp .inverse hG]
  rw [Except.ok.injEq, decide_eq_true_eq, hS, hI]
  simp only [roundMeasure, inverseRounds, RoundNumbers.full, RoundNumbers.partialRounds]
  by_cases hrF1 : 1 ≤ r.rF
  · rw [hrt, floor_log2_exact hL hpow ht ht' hrF1 hrF, asUsize_int]
    constructor
    · rintro ⟨h1, h2, h3⟩
      refine ⟨?_, ?_, ?_⟩
      · split_ifs at h1 with h
        · exact Or.inl ⟨h, h1⟩
        · exact Or.inr h1
      · push_cast; omega
      · push_cast; omega
    · rintro ⟨h1, h2, h3⟩
      push_cast at h2 h3
      refine ⟨?_, by omega, by omega⟩
      split_ifs with h
      · rcases h1 with h1 | h1
        · exact h1.2
        · omega
      · rcases h1 with h1 | h1
        · exact absurd h1.1 h
        · exact h1
  · constructor
    · rintro ⟨h1, -⟩
      split_ifs at h1 <;> omega
    · rintro ⟨h1, -⟩
      rcases h1 with h1 | h1 <;> omega

end Inverse

end Poseidon
