import Verif.Proofs.GenRounds

/-!
# The security inequalities
-/

namespace Poseidon

/-! ### Coarse interval arithmetic -/

theorem rne_le_of {x b c : ℝ} (h : x ≤ b) (hb : 0 ≤ b) (hc : b * 1.0001 ≤ c) : rne x ≤ c := by
  refine (rne_le h hb).trans (le_trans ?_ hc)
  apply mul_le_mul_of_nonneg_left _ hb
  norm_num

theorem le_rne_of {x a c : ℝ} (h : a ≤ x) (ha : 0 ≤ a) (hc : c ≤ a * 0.9999) : c ≤ rne x := by
  refine le_trans (hc.trans ?_) (le_rne h ha)
  apply mul_le_mul_of_nonneg_left _ ha
  norm_num

theorem asUsize_ceil_le {x : ℝ} {n : Nat} (h : x ≤ n) : asUsize (⌈x⌉ : ℝ) ≤ n := by
  rw [asUsize]
  apply Nat.floor_le_of_le
  have : ⌈x⌉ ≤ (n : ℤ) := Int.ceil_le.2 (by exact_mod_cast h)
  exact_mod_cast this

theorem asUsize_le {x : ℝ} {n : Nat} (h : x ≤ n) : asUsize x ≤ n := Nat.floor_le_of_le h

theorem asUsize_floor_le {x : ℝ} {n : Nat} (h : x ≤ n) : asUsize (⌊x⌋ : ℝ) ≤ n :=
  Nat.floor_le_of_le ((Int.floor_le x).trans h)

theorem ceil_le_real {x : ℝ} {n : ℤ} (h : x ≤ n) : ((⌈x⌉ : ℤ) : ℝ) ≤ n := by exact_mod_cast Int.ceil_le.2 h

/-! ### Logarithms -/

theorem Libm.Accurate.ln_le {L : Libm} (hL : L.Accurate) {x b : ℝ} (hx : 1 ≤ x) (h : Real.log x ≤ b) :
    L.ln x ≤ b * 1.0001 := by
  have h1 := (abs_le.1 (hL.ln x hx)).2
  have h0 := Real.log_nonneg hx
  have : L.ln x ≤ Real.log x * 1.0001 := by
    have : (2⁻¹ : ℝ) ^ 40 * Real.log x ≤ 0.0001 * Real.log x := by
      apply mul_le_mul_of_nonneg_right _ h0; norm_num
    linarith
  nlinarith

theorem Libm.Accurate.le_ln {L : Libm} (hL : L.Accurate) {x a : ℝ} (hx : 1 ≤ x) (h : a ≤ Real.log x) :
    a * 0.9999 ≤ L.ln x := by
  have h1 := (abs_le.1 (hL.ln x hx)).1
  have h0 := Real.log_nonneg hx
  have : Real.log x * 0.9999 ≤ L.ln x := by
    have : (2⁻¹ : ℝ) ^ 40 * Real.log x ≤ 0.0001 * Real.log x := by
      apply mul_le_mul_of_nonneg_right _ h0; norm_num
    linarith
  nlinarith

theorem Libm.Accurate.log2_le {L : Libm} (hL : L.Accurate) {x b : ℝ} (hx : 1 ≤ x) (h : Real.logb 2 x ≤ b) :
    L.log2 x ≤ b * (1 + 2⁻¹ ^ 40) := by
  have h1 := (abs_le.1 (hL.log2 x hx)).2
  have h0 := Real.logb_nonneg (b := 2) (by norm_num) hx
  nlinarith

theorem Libm.Accurate.le_log2 {L : Libm} (hL : L.Accurate) {x a : ℝ} (hx : 1 ≤ x) (h : a ≤ Real.logb 2 x) :
    a * (1 - 2⁻¹ ^ 40) ≤ L.log2 x := by
  have h1 := (abs_le.1 (hL.log2 x hx)).1
  have : a * (1 - 2⁻¹ ^ 40) ≤ Real.logb 2 x * (1 - 2⁻¹ ^ 40) := by
    apply mul_le_mul_of_nonneg_right h; norm_num
  linarith

theorem logb2_le {x : ℝ} {n : Nat} (h0 : 0 < x) (h : x ≤ 2 ^ n) : Real.logb 2 x ≤ n := by
  rw [Real.logb_le_iff_le_rpow (by norm_num) h0, Real.rpow_natCast]; exact h

theorem le_logb2 {x : ℝ} {n : Nat} (h0 : 0 < x) (h : 2 ^ n ≤ x) : (n : ℝ) ≤ Real.logb 2 x := by
  rw [Real.le_logb_iff_rpow_le (by norm_num) h0, Real.rpow_natCast]; exact h

theorem log_three_gt : (1.09 : ℝ) < Real.log 3 := by
  have h : Real.log (2 ^ 3) + Real.log (9 / 8) = 2 * Real.log 3 := by
    rw [← Real.log_mul (by norm_num) (by norm_num), show (2 ^ 3 * (9 / 8) : ℝ) = 3 ^ 2 by norm_num, Real.log_pow]
    norm_num
  have h2 : Real.log (2 ^ 3) = 3 * Real.log 2 := by rw [Real.log_pow]; norm_num
  have h3 := Real.one_sub_inv_le_log_of_pos (x := 9 / 8) (by norm_num)
  have h4 := Real.log_two_gt_d9
  norm_num at h3
  rw [h2] at h
  linarith

theorem log_17_gt : (2.831 : ℝ) < Real.log 17 := by
  have h : Real.log (2 ^ 4) + Real.log (17 / 16) = Real.log 17 := by
    rw [← Real.log_mul (by norm_num) (by norm_num)]; norm_num
  have h2 : Real.log (2 ^ 4) = 4 * Real.log 2 := by rw [Real.log_pow]; norm_num
  have h3 := Real.one_sub_inv_le_log_of_pos (x := 17 / 16) (by norm_num)
  have h4 := Real.log_two_gt_d9
  norm_num at h3
  rw [h2] at h
  linarith

theorem log_17_lt : Real.log 17 < 2.8352 := by
  have h : Real.log (2 ^ 4) + Real.log (17 / 16) = Real.log 17 := by
    rw [← Real.log_mul (by norm_num) (by norm_num)]; norm_num
  have h2 : Real.log (2 ^ 4) = 4 * Real.log 2 := by rw [Real.log_pow]; norm_num
  have h3 := Real.log_le_sub_one_of_pos (x := 17 / 16) (by norm_num)
  have h4 := Real.log_two_lt_d9
  norm_num at h3
  rw [h2] at h
  linarith

theorem log_8_lt : Real.log 8 < 2.0795 := by
  have h2 : Real.log (2 ^ 3) = 3 * Real.log 2 := by rw [Real.log_pow]; norm_num
  have h4 := Real.log_two_lt_d9
  norm_num at h2
  linarith

theorem log_64_lt : Real.log 64 < 4.159 := by
  have h2 : Real.log (2 ^ 6) = 6 * Real.log 2 := by rw [Real.log_pow]; norm_num
  have h4 := Real.log_two_lt_d9
  norm_num at h2
  linarith

/-! ### The test in closed form -/

theorem grobnerV1_ok (L : Libm) {input : GenInput} (lp : ℝ) (alpha : Alpha) (ht : 1 ≤ input.t) :
    ∃ g, algebraicAttackGrobnerBasisV1 L input lp alpha = .ok g := by
  rw [algebraicAttackGrobnerBasisV1, usub, if_pos ht]
  cases alpha <;> exact ⟨_, rfl⟩

/-- The quantity compared with the bounds of the algebraic attacks. -/
noncomputable def roundMeasure (L : Libm) (input : GenInput) (alpha : Alpha) (r : RoundNumbers) : Nat :=
  match alpha with
  | .exponent _ => r.total
  | .inverse => inverseRounds L input r

theorem isSecureV1_eq (L : Libm) {input : GenInput} (lp : ℝ) (alpha : Alpha) {g : Nat}
    (hg : algebraicAttackGrobnerBasisV1 L input lp alpha = .ok g) (r : RoundNumbers) :
    isSecureV1 L input lp alpha r = .ok (decide (statisticalAttackFullRounds L input lp alpha ≤ r.rF ∧
      algebraicAttackInterpolation L input lp alpha < roundMeasure L input alpha r ∧
      g < roundMeasure L input alpha r)) := by
  have e : isSecureV1 L input lp alpha r =
      if r.rF < statisticalAttackFullRounds L input lp alpha then .ok false
      else if roundMeasure L input alpha r ≤ algebraicAttackInterpolation L input lp alpha then .ok false
      else if roundMeasure L input alpha r ≤ g then .ok false else .ok true := by
    unfold isSecureV1
    cases alpha <;> simp only [hg] <;> rfl
  rw [e]
  split_ifs with h1 h2 h3
  · rw [decide_eq_false (by omega)]
  · rw [decide_eq_false (by omega)]
  · rw [decide_eq_false (by omega)]
  · rw [decide_eq_true (by omega)]

theorem statistical_cases (L : Libm) (input : GenInput) (lp : ℝ) (alpha : Alpha) :
    statisticalAttackFullRounds L input lp alpha = 6 ∨ statisticalAttackFullRounds L input lp alpha = 10 := by
  unfold statisticalAttackFullRounds
  dsimp only
  split_ifs <;> simp

/-- The cheapest candidate for tests of this shape has the least possible number of full rounds. -/
theorem search_minFull {isSecure : RoundNumbers → R Bool} {t S B : Nat} {fl : Nat → Nat}
    (hs : ∀ r, Candidate r → isSecure r = .ok (decide (S ≤ r.rF ∧ B < fl r.rF + r.rP)))
    (ht : 101 * t + 429 < usizeMax) (hS : 4 ≤ S) (hS' : S < 100) (hB : B < 399 + fl S)
    (hfl : ∀ k, 1 ≤ k → S + k < 100 → 43 * fl (S + k) ≤ 43 * fl S + 40 * (t * k)) :
    roundSearch isSecure t = .ok ⟨(43 * max 1 (B + 1 - fl S) + 39) / 40, S + 2⟩ := by
  have hc : Candidate ⟨max 1 (B + 1 - fl S), S⟩ := ⟨le_max_left _ _, by dsimp only; omega, hS, hS'⟩
  refine roundSearch_of_best hs ht hc (by simp; omega) ?_
  rintro ⟨rP, rF⟩ hc' hsec
  simp only [decide_eq_true_eq] at hsec
  obtain ⟨k, rfl⟩ := Nat.exists_eq_add_of_le hsec.1
  have hrange := hc'
  obtain ⟨h1, h2, h3, h4⟩ := hrange
  dsimp only at h1 h2 h3 h4
  unfold AsGood
  rw [candCost_eq hc, candCost_eq hc']
  dsimp only
  rcases Nat.eq_zero_or_pos k with rfl | hk
  · simp only [Nat.add_zero] at *
    have hle : max 1 (B + 1 - fl S) ≤ rP := by omega
    have hle2 : (43 * max 1 (B + 1 - fl S) + 39) / 40 ≤ (43 * rP + 39) / 40 := Nat.div_le_div_right (by omega)
    omega
  · have h5 := hfl k hk h4
    have e : t * (S + k + 2) = t * (S + 2) + t * k := by ring
    rw [e]
    generalize t * k = x at *
    generalize t * (S + 2) = y at *
    have hle2 : (43 * max 1 (B + 1 - fl S) + 39) / 40 ≤ (43 * rP + 39) / 40 + x := by omega
    omega

/-- Closed form of `v1_generate` for positive exponents. -/
theorem roundsV1_exponent {L : Libm} {input : GenInput} {lp : ℝ} {e g : Nat} (hM : input.security ≤ 256)
    (ht : 2 ≤ input.t) (ht' : 101 * input.t + 429 < usizeMax)
    (hg : algebraicAttackGrobnerBasisV1 L input lp (.exponent e) = .ok g)
    (hB : max (algebraicAttackInterpolation L input lp (.exponent e)) g < 405) :
    roundsV1Generate L input lp (.exponent e) =
      .ok ⟨(43 * max 1 (max (algebraicAttackInterpolation L input lp (.exponent e)) g + 1
          - statisticalAttackFullRounds L input lp (.exponent e)) + 39) / 40,
        statisticalAttackFullRounds L input lp (.exponent e) + 2⟩ := by
  have hS := statistical_cases L input lp (.exponent e)
  rw [roundsV1Generate, if_neg (by omega)]
  refine search_minFull (S := statisticalAttackFullRounds L input lp (.exponent e)) (fl := id) (fun r _ => ?_) ht' (by omega) (by omega) (by simp only [id]; omega) ?_
  · rw [isSecureV1_eq L lp _ hg]
    congr 1
    rw [decide_eq_decide]
    simp only [roundMeasure, RoundNumbers.total, id]
    omega
  · intro k _ _
    have : 2 * k ≤ input.t * k := Nat.mul_le_mul_right k ht
    simp only [id]
    omega

/-- Closed form of `v1_generate` for the inverse S-box. -/
theorem roundsV1_inverse {L : Libm} {input : GenInput} {lp : ℝ} {g : Nat} (hM : input.security ≤ 256)
    (ht' : 101 * input.t + 429 < usizeMax) (fl : Nat → Nat)
    (hfl0 : ∀ k : Nat, asUsize ⌊rne (rne k * L.log2 (rne input.t))⌋ = fl k)
    (hfl : ∀ S k, S = 6 ∨ S = 10 → 1 ≤ k → S + k < 100 → 43 * fl (S + k) ≤ 43 * fl S + 40 * (input.t * k))
    (hg : algebraicAttackGrobnerBasisV1 L input lp .inverse = .ok g)
    (hB : max (algebraicAttackInterpolation L input lp .inverse) g < 399) :
    ∃ rP, 1 ≤ rP ∧
      roundsV1Generate L input lp .inverse = .ok ⟨rP, statisticalAttackFullRounds L input lp .inverse + 2⟩ := by
  have hS := statistical_cases L input lp .inverse
  rw [roundsV1Generate, if_neg (by omega)]
  refine ⟨(43 * max 1 (max (algebraicAttackInterpolation L input lp .inverse) g + 1
      - fl (statisticalAttackFullRounds L input lp .inverse)) + 39) / 40, by omega,
    search_minFull (S := statisticalAttackFullRounds L input lp .inverse) (fl := fl) (B := max (algebraicAttackInterpolation L input lp .inverse) g)
    (fun r _ => ?_) ht' (by omega) (by omega) (by omega) (fun k h1 h2 => hfl _ k hS h1 h2)⟩
  rw [isSecureV1_eq L lp _ hg]
  congr 1
  rw [decide_eq_decide]
  simp only [roundMeasure, inverseRounds, RoundNumbers.full, RoundNumbers.partialRounds, hfl0]
  omega

/-! ### Bounds for every field -/

section Bounds
variable {L : Libm} (hL : L.Accurate) {input : GenInput} {lp : ℝ}
include hL

theorem Libm.Accurate.log_nonneg {x b : ℝ} (hx : 1 ≤ x) (hb : 1 ≤ b) : 0 ≤ L.log x b := by
  refine rne_nonneg (div_nonneg ?_ ?_)
  · simpa using hL.le_ln hx (Real.log_nonneg hx)
  · simpa using hL.le_ln hb (Real.log_nonneg hb)

theorem Libm.Accurate.log_le {x b a c d : ℝ} (hx : 1 ≤ x) (hb : 1 ≤ b) (h1 : Real.log x ≤ a) (h2 : c ≤ Real.log b)
    (hc : 0 < c) (hd : a / c * 1.001 ≤ d) : L.log x b ≤ d := by
  have h3 := hL.ln_le hx h1
  have h4 := hL.le_ln hb h2
  have ha : 0 ≤ a := (Real.log_nonneg hx).trans h1
  have h5 : L.ln x / L.ln b ≤ (a * 1.0001) / (c * 0.9999) := by
    apply div_le_div₀ _ h3 _ h4 <;> positivity
  refine rne_le_of h5 (by positivity) (le_trans ?_ hd)
  have e : a * 1.0001 / (c * 0.9999) * 1.0001 = a / c * (1.0001 * 1.0001 / 0.9999) := by
    field_simp
  rw [e]
  apply mul_le_mul_of_nonneg_left _ (by positivity)
  norm_num

theorem Libm.Accurate.le_log {x b a c d : ℝ} (hx : 1 ≤ x) (hb : 1 < b) (h1 : a ≤ Real.log x) (h2 : Real.log b ≤ c)
    (ha : 0 ≤ a) (hd : d ≤ a / c * 0.999) : d ≤ L.log x b := by
  have h3 := hL.le_ln hx h1
  have h4 := hL.ln_le hb.le h2
  have hlb := Real.log_pos hb
  have hc : 0 < c := hlb.trans_le h2
  have hlnb : 0 < L.ln b := lt_of_lt_of_le (by positivity) (hL.le_ln hb.le le_rfl)
  have h5 : (a * 0.9999) / (c * 1.0001) ≤ L.ln x / L.ln b := by
    apply div_le_div₀ _ h3 hlnb h4
    exact le_trans (by positivity) h3
  refine le_rne_of h5 (by positivity) (hd.trans ?_)
  have e : a * 0.9999 / (c * 1.0001) * 0.9999 = a / c * (0.9999 * 0.9999 / 1.0001) := by
    field_simp
  rw [e]
  apply mul_le_mul_of_nonneg_left _ (by positivity)
  norm_num

/-- All bounds of the algebraic attacks are far below the search limit, whatever the field. -/
theorem bounds_exponent (hM : input.security ≤ 256) (ht : 1 ≤ input.t) (ht64 : input.t ≤ 64) {e : Nat} (he : 3 ≤ e)
    (he' : e ≤ 2 ^ 53) :
    ∃ g, algebraicAttackGrobnerBasisV1 L input lp (.exponent e) = .ok g ∧ g ≤ 300 ∧
      algebraicAttackInterpolation L input lp (.exponent e) ≤ 200 := by
  have heR : (3 : ℝ) ≤ e := by exact_mod_cast he
  have htR : (1 : ℝ) ≤ input.t := by exact_mod_cast ht
  have ht64R : (input.t : ℝ) ≤ 64 := by exact_mod_cast ht64
  have hMR : (input.security : ℝ) ≤ 256 := by exact_mod_cast hM
  have hle : (1.09 : ℝ) ≤ Real.log e :=
    log_three_gt.le.trans (Real.log_le_log (by norm_num) heR)
  have hc0 : 0 ≤ L.log 2 e := hL.log_nonneg (by norm_num) (by linarith)
  have hc : L.log 2 e ≤ 0.64 :=
    hL.log_le (by norm_num) (by linarith) Real.log_two_lt_d9.le hle (by norm_num) (by norm_num)
  have hlt : L.log input.t e ≤ 4 := by
    refine hL.log_le htR (by linarith) ((Real.log_le_log (by linarith) ht64R).trans log_64_lt.le) hle
      (by norm_num) (by norm_num)
  have hrM : rne (input.security : ℝ) = input.security := rne_natCast (by omega)
  have hrt : rne (input.t : ℝ) = input.t := rne_natCast (by omega)
  have hre : rne (e : ℝ) = e := rne_natCast he'
  have hM0 : (0 : ℝ) ≤ input.security := Nat.cast_nonneg _
  have hprod : ∀ x : ℝ, x ≤ 256 → rne (L.log 2 e * x) ≤ 164 := by
    intro x hx
    have : L.log 2 e * x ≤ 163.84 := by
      rcases le_total 0 x with h0 | h0 <;> nlinarith
    exact rne_le_of this (by norm_num) (by norm_num)
  obtain ⟨g, hg⟩ := grobnerV1_ok L lp (.exponent e) ht
  refine ⟨g, hg, ?_, ?_⟩
  · rw [algebraicAttackGrobnerBasisV1, usub, if_pos ht] at hg
    obtain rfl := Except.ok.inj hg
    apply asUsize_floor_le
    simp only [hrM, hrt, hre]
    apply max_le
    · refine (hprod _ ((min_le_left _ _).trans ?_)).trans (by norm_num)
      exact rne_le_of (b := 86) (by linarith) (by norm_num) (by norm_num)
    · have h1 : rne ((input.t - 1 : ℕ) : ℝ) ≤ 63 := by
        rw [rne_natCast (by omega)]; exact_mod_cast (by omega : input.t - 1 ≤ 63)
      have h2 : rne (rne (L.log 2 e * input.security) / rne (input.t + 1)) ≤ 165 := by
        refine rne_le_of (b := 164) ?_ (by norm_num) (by norm_num)
        have h3 : 1 ≤ rne ((input.t : ℝ) + 1) := le_rne_of (a := 2) (by linarith) (by norm_num) (by norm_num)
        exact (div_le_self (rne_nonneg (by positivity)) h3).trans (hprod _ hMR)
      have h3 := min_le_left (rne (rne (L.log 2 e * input.security) / rne ((input.t : ℝ) + 1)))
        (rne (rne (L.log 2 e * lp) / 2))
      exact rne_le_of (b := 228) (by linarith) (by norm_num) (by norm_num)
  · rw [algebraicAttackInterpolation]
    apply asUsize_ceil_le
    simp only [hrM, hrt, hre]
    have h1 : ((⌈rne (L.log 2 e * min (input.security : ℝ) lp)⌉ : ℤ) : ℝ) ≤ (164 : ℤ) :=
      ceil_le_real ((hprod _ ((min_le_left _ _).trans hMR)).trans (by norm_num))
    push_cast at h1
    exact rne_le_of (b := 168) (by linarith) (by norm_num) (by norm_num)

theorem bounds_inverse (hM : input.security ≤ 256) (ht : 1 ≤ input.t) (ht8 : input.t ≤ 8) :
    ∃ g, algebraicAttackGrobnerBasisV1 L input lp .inverse = .ok g ∧ g ≤ 200 ∧
      algebraicAttackInterpolation L input lp .inverse ≤ 200 := by
  have htR : (1 : ℝ) ≤ input.t := by exact_mod_cast ht
  have ht8R : (input.t : ℝ) ≤ 8 := by exact_mod_cast ht8
  have hMR : (input.security : ℝ) ≤ 256 := by exact_mod_cast hM
  have hrM : rne (input.security : ℝ) = input.security := rne_natCast (by omega)
  have hrt : rne (input.t : ℝ) = input.t := rne_natCast (by omega)
  have hl : L.log2 input.t ≤ (4 : ℤ) := by
    refine (hL.log2_le htR (logb2_le (n := 3) (by linarith) (by linarith))).trans (by norm_num)
  have hcl := ceil_le_real hl
  have hh : ((⌈rne (0.5 * min (input.security : ℝ) lp)⌉ : ℤ) : ℝ) ≤ (129 : ℤ) := by
    apply ceil_le_real
    refine rne_le_of (b := 128) ?_ (by norm_num) (by norm_num)
    have := min_le_left (input.security : ℝ) lp
    linarith
  push_cast at hcl hh
  obtain ⟨g, hg⟩ := grobnerV1_ok L lp .inverse ht
  refine ⟨g, hg, ?_, ?_⟩
  · rw [algebraicAttackGrobnerBasisV1, usub, if_pos ht] at hg
    obtain rfl := Except.ok.inj hg
    apply asUsize_floor_le
    simp only [hrM, hrt]
    apply max_le
    · exact rne_le_of (b := 133) (by linarith) (by norm_num) (by norm_num)
    · have h1 : rne ((input.t - 1 : ℕ) : ℝ) ≤ 7 := by
        rw [rne_natCast (by omega)]; exact_mod_cast (by omega : input.t - 1 ≤ 7)
      have h2 : ((⌈rne ((input.security : ℝ) / rne (input.t + 1))⌉ : ℤ) : ℝ) ≤ (130 : ℤ) := by
        apply ceil_le_real
        refine rne_le_of (b := 129) ?_ (by norm_num) (by norm_num)
        have h3 : 1.999 ≤ rne ((input.t : ℝ) + 1) := le_rne_of (a := 2) (by linarith) (by norm_num) (by norm_num)
        rw [div_le_iff₀ (by linarith)]
        linarith
      push_cast at h2
      have h3 := min_le_left ((⌈rne ((input.security : ℝ) / rne (input.t + 1))⌉ : ℤ) : ℝ)
        ((⌈rne (0.5 * lp)⌉ : ℤ) : ℝ)
      have h4 : rne (rne ((input.t - 1 : ℕ) : ℝ) + ((⌈L.log2 (input.t : ℝ)⌉ : ℤ) : ℝ)) ≤ 12 :=
        rne_le_of (b := 11) (by linarith) (by norm_num) (by norm_num)
      exact rne_le_of (b := 142) (by linarith) (by norm_num) (by norm_num)
  · rw [algebraicAttackInterpolation]
    apply asUsize_le
    simp only [hrM, hrt]
    exact rne_le_of (b := 133) (by linarith) (by norm_num) (by norm_num)

/-- For the inverse S-box a full round never pays off against partial rounds. -/
theorem inverse_fl (ht : 2 ≤ input.t) (ht8 : input.t ≤ 8) (hl2 : L.log2 2 = 1) (S k : Nat)
    (hk : 1 ≤ k) (hk' : S + k < 100) :
    43 * asUsize ⌊rne (rne ((S + k : ℕ) : ℝ) * L.log2 (rne input.t))⌋ ≤
      43 * asUsize ⌊rne (rne (S : ℝ) * L.log2 (rne input.t))⌋ + 40 * (input.t * k) := by
  rw [rne_natCast (n := S + k) (by omega), rne_natCast (n := S) (by omega), rne_natCast (n := input.t) (by omega)]
  rcases Nat.lt_or_ge 2 input.t with h2 | h2
  · have htR : (1 : ℝ) ≤ input.t := by exact_mod_cast (by omega : 1 ≤ input.t)
    obtain ⟨b, hb, hb0, hb1, hb2⟩ : ∃ b : ℝ, Real.logb 2 input.t ≤ b ∧ 0 < b ∧ 43 * b + 44 ≤ 40 * input.t ∧ b ≤ 3 := by
      rcases Nat.lt_or_ge 3 input.t with h3 | h3
      · rcases Nat.lt_or_ge 4 input.t with h4 | h4
        · refine ⟨3, logb2_le (n := 3) (by linarith) ?_, by norm_num, ?_, le_rfl⟩
          · exact_mod_cast ht8
          · have : (5 : ℝ) ≤ input.t := by exact_mod_cast h4
            linarith
        · have h4 : input.t = 4 := by omega
          rw [h4]
          exact ⟨2, logb2_le (n := 2) (by norm_num) (by norm_num), by norm_num, by norm_num, by norm_num⟩
      · have h3 : input.t = 3 := by omega
        rw [h3]
        refine ⟨1.6, ?_, by norm_num, by norm_num, by norm_num⟩
        have h5 : Real.logb 2 ((3 : ℝ) ^ 5) ≤ 8 := logb2_le (n := 8) (by norm_num) (by norm_num)
        rw [Real.logb_pow] at h5
        push_cast at h5 ⊢
        linarith
    set l := Real.logb 2 (input.t : ℝ) with hldef
    have hl0 : 0 ≤ l := Real.logb_nonneg (by norm_num) htR
    have hup := hL.log2_le htR (le_refl l)
    have hlo := hL.le_log2 htR (le_refl l)
    have hSk : (0 : ℝ) ≤ ((S + k : ℕ) : ℝ) := Nat.cast_nonneg _
    have hS0 : (0 : ℝ) ≤ (S : ℝ) := Nat.cast_nonneg _
    have hSk100 : ((S + k : ℕ) : ℝ) ≤ 100 := by exact_mod_cast hk'.le
    have hS100 : (S : ℝ) ≤ 100 := by exact_mod_cast (by omega : S ≤ 100)
    -- upper bound for the larger value
    have u1 : rne (((S + k : ℕ) : ℝ) * L.log2 input.t) ≤ ((S + k : ℕ) : ℝ) * l + 0.001 := by
      have a1 : ((S + k : ℕ) : ℝ) * L.log2 input.t ≤ ((S + k : ℕ) : ℝ) * (l * (1 + 2⁻¹ ^ 40)) :=
        mul_le_mul_of_nonneg_left hup hSk
      refine (rne_le a1 (by positivity)).trans ?_
      have a2 : ((S + k : ℕ) : ℝ) * l ≤ 100 * 3 := mul_le_mul hSk100 (hb.trans hb2) hl0 (by norm_num)
      have a3 : ((S + k : ℕ) : ℝ) * (l * (1 + 2⁻¹ ^ 40)) * (1 + 2⁻¹ ^ 53) =
        ((S + k : ℕ) : ℝ) * l + (((S + k : ℕ) : ℝ) * l) * ((1 + 2⁻¹ ^ 40) * (1 + 2⁻¹ ^ 53) - 1) := by ring
      rw [a3]
      have a4 : (((S + k : ℕ) : ℝ) * l) * ((1 + 2⁻¹ ^ 40) * (1 + 2⁻¹ ^ 53) - 1) ≤ 100 * 3 * ((1 + 2⁻¹ ^ 40) * (1 + 2⁻¹ ^ 53) - 1) :=
        mul_le_mul_of_nonneg_right a2 (by norm_num)
      refine add_le_add_right (a4.trans ?_) _
      norm_num
    have u2 : (S : ℝ) * l - 0.001 ≤ rne ((S : ℝ) * L.log2 input.t) := by
      have a0 : (0 : ℝ) ≤ 1 - 2⁻¹ ^ 40 := by norm_num
      have a1 : (S : ℝ) * (l * (1 - 2⁻¹ ^ 40)) ≤ (S : ℝ) * L.log2 input.t :=
        mul_le_mul_of_nonneg_left hlo hS0
      refine le_trans ?_ (le_rne a1 (by positivity))
      have a2 : (S : ℝ) * l ≤ 100 * 3 := mul_le_mul hS100 (hb.trans hb2) hl0 (by norm_num)
      have a3 : (S : ℝ) * (l * (1 - 2⁻¹ ^ 40)) * (1 - 2⁻¹ ^ 53) =
        (S : ℝ) * l - ((S : ℝ) * l) * (1 - (1 - 2⁻¹ ^ 40) * (1 - 2⁻¹ ^ 53)) := by ring
      rw [a3]
      have a4 : ((S : ℝ) * l) * (1 - (1 - 2⁻¹ ^ 40) * (1 - 2⁻¹ ^ 53)) ≤ 100 * 3 * (1 - (1 - 2⁻¹ ^ 40) * (1 - 2⁻¹ ^ 53)) :=
        mul_le_mul_of_nonneg_right a2 (by norm_num)
      refine sub_le_sub_left (a4.trans ?_) _
      norm_num
    set x := rne (((S + k : ℕ) : ℝ) * L.log2 input.t)
    set y := rne ((S : ℝ) * L.log2 input.t)
    have hx0 : 0 ≤ x := by
      refine rne_nonneg (mul_nonneg hSk (le_trans ?_ hlo))
      have a0 : (0 : ℝ) ≤ 1 - 2⁻¹ ^ 40 := by norm_num
      positivity
    have v1 : ((asUsize ⌊x⌋ : ℕ) : ℝ) ≤ x := by
      rw [asUsize]
      refine (Nat.floor_le ?_).trans (Int.floor_le x)
      exact_mod_cast Int.floor_nonneg.2 hx0
    have v2 : y - 1 < ((asUsize ⌊y⌋ : ℕ) : ℝ) := by
      rw [asUsize]
      have b1 := Int.sub_one_lt_floor y
      have b2 : ((⌊y⌋ : ℤ) : ℝ) ≤ ((⌊((⌊y⌋ : ℤ) : ℝ)⌋₊ : ℕ) : ℝ) := by
        rw [← Int.floor_toNat, Int.floor_intCast]
        exact_mod_cast Int.self_le_toNat _
      linarith
    have hkR : (1 : ℝ) ≤ k := by exact_mod_cast hk
    have fin : (43 : ℝ) * ((asUsize ⌊x⌋ : ℕ) : ℝ) ≤ 43 * ((asUsize ⌊y⌋ : ℕ) : ℝ) + 40 * (input.t * k) := by
      have c1 : (((S + k : ℕ) : ℝ)) * l = S * l + k * l := by push_cast; ring
      rw [c1] at u1
      have c2 : (k : ℝ) * l ≤ k * b := mul_le_mul_of_nonneg_left hb (by linarith)
      have c3 : (k : ℝ) * (43 * b + 44) ≤ k * (40 * input.t) := mul_le_mul_of_nonneg_left hb1 (by linarith)
      nlinarith
    exact_mod_cast fin
  · have h2 : input.t = 2 := by omega
    rw [h2]
    have e : L.log2 ((2 : ℕ) : ℝ) = 1 := by simpa using hl2
    rw [e, mul_one, mul_one, rne_natCast (n := S + k) (by omega), rne_natCast (n := S) (by omega)]
    simp only [asUsize, Int.floor_natCast, Int.cast_natCast, Nat.floor_natCast]
    omega

end Bounds

end Poseidon
