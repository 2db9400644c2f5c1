import Verif.Props.Rounds
import Verif.Proofs.GenSecurityExact

/-!
# Property theorems C56 to C58: what the security test means

* C56: the floating-point test decides the inequalities of the paper, up to a slack of `10⁻⁶` (power S-boxes)
  or exactly (inverse S-box);
* C57: more rounds are never less secure, and the returned numbers pass the test themselves;
* C58: more security is never cheaper, and Poseidon2's search is never cheaper than Poseidon's.
-/

namespace Poseidon

/-! ## C56 -/

/-- **C56.** Power S-boxes, first version.  Fields, security levels and widths up to 4096 (bits, bits, words): a choice
meeting the inequalities of the paper with slack `10⁻⁶` is accepted; an accepted choice meets them up to `10⁻⁶`. -/
theorem C56_power (L : Libm) (hL : L.Accurate) (input : GenInput) (lp : ℝ) (e rP rF : Nat)
    (hM : input.security ≤ 4096) (hlp0 : 0 ≤ lp) (hlp : lp ≤ 4096) (ht : 1 ≤ input.t) (ht' : input.t ≤ 4096)
    (he : 3 ≤ e) (he' : e < 2 ^ 32) :
    (Spec.SecurePower 1e-6 input.security lp input.t e rP rF → isSecureV1 L input lp (.exponent e) ⟨rP, rF⟩ = .ok true) ∧
    (isSecureV1 L input lp (.exponent e) ⟨rP, rF⟩ = .ok true → Spec.SecurePower (-1e-6) input.security lp input.t e rP rF) := by
  obtain ⟨g, hg⟩ := grobnerV1_ok L lp (.exponent e) ht
  rw [isSecureV1_eq L lp _ hg, Except.ok.injEq, decide_eq_true_eq]
  simp only [roundMeasure, RoundNumbers.total]
  obtain ⟨s1, s2⟩ := statistical_near hL hM hlp0 hlp ht ht' he he'
  have hS := statistical_cases L input lp (.exponent e)
  have hc : ∀ ε, Spec.fullRoundsNeeded ε input.security lp input.t e = 6 ∨
      Spec.fullRoundsNeeded ε input.security lp input.t e = 10 := by
    intro ε; rw [Spec.fullRoundsNeeded]; split_ifs <;> simp
  have hc1 := hc 1e-6
  have hc2 := hc (-1e-6)
  constructor
  · rintro ⟨h1, h2, h3, h4⟩
    have hn : 0 < rP + rF := by omega
    refine ⟨by omega, ?_, ?_⟩
    · have := (interpolation_near hL hM hlp0 ht ht' he he' hn).1 h2
      exact this
    · have := (grobner_near hL hM hlp0 hlp ht ht' he he' hn hg).1 h3 h4
      exact this
  · rintro ⟨h1, h2, h3⟩
    have hn : 0 < rP + rF := by omega
    obtain ⟨k1, k2⟩ := (grobner_near hL hM hlp0 hlp ht ht' he he' hn hg).2 h3
    exact ⟨by omega, (interpolation_near hL hM hlp0 ht ht' he he' hn).2 h2, k1, k2⟩

/-- A choice that meets the inequalities with slack: width 3, `x ↦ x^17`, 128 bits, 40 partial and 8 full rounds. -/
theorem securePower_example : Spec.SecurePower 1e-6 128 252 3 17 40 8 := by
  have h0 : 0 ≤ Real.logb 17 2 := Real.logb_nonneg (by norm_num) (by norm_num)
  have h1 : Real.logb 17 2 ≤ 1 / 2 := by
    rw [Real.logb_le_iff_le_rpow (by norm_num) (by norm_num), ← Real.sqrt_eq_rpow]
    exact Real.le_sqrt_of_sq_le (by norm_num)
  have h1' : Real.logb 17 2 ≤ 1 / 4 := by
    rw [Real.logb_le_iff_le_rpow (by norm_num) (by norm_num)]
    have := Real.rpow_le_rpow (z := 1 / 4) (by positivity) (show (2 : ℝ) ^ (4 : ℝ) ≤ 17 by norm_num) (by norm_num)
    rw [← Real.rpow_mul (by norm_num)] at this
    norm_num at this ⊢; exact this
  have h2 : Real.logb 17 3 ≤ 1 / 2 := by
    rw [Real.logb_le_iff_le_rpow (by norm_num) (by norm_num), ← Real.sqrt_eq_rpow]
    exact Real.le_sqrt_of_sq_le (by norm_num)
  refine ⟨?_, ?_, ?_, ?_⟩
  · rw [Spec.fullRoundsNeeded, if_pos]
    · norm_num
    · have : Real.logb 2 (((17 : ℕ) : ℝ) - 1) = 4 := by
        rw [show ((17 : ℕ) : ℝ) - 1 = 2 ^ (4 : ℝ) by norm_num]; exact Real.logb_rpow (by norm_num) (by norm_num)
      rw [this, show (252 : ℝ) = ((252 : ℤ) : ℝ) by norm_num, Int.floor_intCast]; norm_num
  · rw [Nat.cast_ofNat, Nat.cast_ofNat, Nat.cast_ofNat, min_eq_left (by norm_num)]
    have h3 : ⌈Real.logb 17 2 * 128 + 1e-6⌉ ≤ 33 := by rw [Int.ceil_le]; push_cast; linarith
    have h3' : (⌈Real.logb 17 2 * 128 + 1e-6⌉ : ℝ) ≤ 33 := by exact_mod_cast h3
    have h4 : ⌈(⌈Real.logb 17 2 * 128 + 1e-6⌉ : ℝ) + Real.logb 17 3 + 1e-6⌉ ≤ 34 := by
      rw [Int.ceil_le]; push_cast; norm_num at h2 ⊢; linarith
    omega
  · rw [Nat.cast_ofNat, Nat.cast_ofNat, min_eq_left (by norm_num)]
    push_cast; linarith
  · rw [Nat.cast_ofNat, Nat.cast_ofNat, Nat.cast_ofNat, min_eq_left (by norm_num)]
    push_cast; linarith

example : isSecureV1 roundedLibm ⟨false, 128, 3, q⟩ 252 (.exponent 17) ⟨40, 8⟩ = .ok true :=
  (C56_power _ roundedLibm_accurate ⟨false, 128, 3, q⟩ _ _ _ _ (by norm_num) (by norm_num) (by norm_num) (by norm_num)
    (by norm_num) (by norm_num) (by norm_num)).1 securePower_example

/-- And one that is refused: 5 full rounds never suffice. -/
example : isSecureV1 roundedLibm ⟨false, 128, 3, q⟩ 252 (.exponent 17) ⟨40, 5⟩ ≠ .ok true := fun h => by
  have := ((C56_power _ roundedLibm_accurate ⟨false, 128, 3, q⟩ _ _ _ _ (by norm_num) (by norm_num) (by norm_num) (by norm_num)
    (by norm_num) (by norm_num) (by norm_num)).2 h).statistical
  rw [Spec.fullRoundsNeeded] at this
  split_ifs at this <;> omega

/-- The second version adds the condition on binomial coefficients, exactly. -/
theorem C56_v2 (L : Libm) (input : GenInput) (lp : ℝ) (e rP rF : Nat) (ht : 1 ≤ input.t) (ht' : input.t < 2 ^ 50)
    (hF : 1 ≤ rF) :
    isSecureV2 L input lp (.exponent e) ⟨rP, rF⟩ = .ok true ↔
      isSecureV1 L input lp (.exponent e) ⟨rP, rF⟩ = .ok true ∧ Spec.BinomialLarge input.security input.t e rP rF := by
  obtain ⟨g, hg⟩ := grobnerV1_ok L lp (.exponent e) ht
  obtain ⟨b, hb, hb2⟩ := C40_binomial input e ⟨rP, rF⟩ ht' hF
  have hbl : b = false ↔ Spec.BinomialLarge input.security input.t e rP rF := by
    have := hb2 _ _ rfl rfl
    rw [Spec.BinomialLarge, ← Bool.not_eq_true, this]
    push Not
    exact ⟨fun ⟨i, b, h1, h2, h3, h4⟩ => ⟨i, b, h1, h2, h3, h4⟩, fun ⟨i, b, h1, h2, h3, h4⟩ => ⟨i, b, h1, h2, h3, h4⟩⟩
  rw [isSecureV1_eq L lp _ hg, Except.ok.injEq, decide_eq_true_eq, ← hbl]
  have e' : isSecureV2 L input lp (.exponent e) ⟨rP, rF⟩ =
      if rF < statisticalAttackFullRounds L input lp (.exponent e) then .ok false
      else if rP + rF ≤ algebraicAttackInterpolation L input lp (.exponent e) then .ok false
      else if rP + rF ≤ g then .ok false else if b then .ok false else .ok true := by
    unfold isSecureV2
    simp only [hg, hb]
    rfl
  rw [e']
  simp only [roundMeasure, RoundNumbers.total]
  split_ifs with h1 h2 h3 h4
  · simp; omega
  · simp; omega
  · simp; omega
  · simp [h4]
  · simp [h4]; omega

theorem binomialLarge_example : Spec.BinomialLarge 128 3 17 40 8 := by
  have c : Nat.choose 123 30 = 39585499239641143917433819976 := by
    rw [Nat.choose_eq_factorial_div_factorial (by norm_num)]
    decide +kernel
  exact ⟨30, 95, by norm_num, by norm_num, by norm_num [Spec.IsBitLength, c], by norm_num⟩

/-- Accepted by the second version too. -/
example : isSecureV2 roundedLibm ⟨false, 128, 3, q⟩ 252 (.exponent 17) ⟨40, 8⟩ = .ok true :=
  (C56_v2 _ ⟨false, 128, 3, q⟩ _ _ _ _ (by norm_num) (by norm_num) (by norm_num)).2
    ⟨(C56_power _ roundedLibm_accurate ⟨false, 128, 3, q⟩ _ _ _ _ (by norm_num) (by norm_num) (by norm_num) (by norm_num)
      (by norm_num) (by norm_num) (by norm_num)).1 securePower_example, binomialLarge_example⟩

/-- **C56.** Inverse S-box: the test is exactly the inequalities of the paper (for widths up to 64, a double `lp`, and a
library that is exact on powers of two). -/
theorem C56_inverse (L : Libm) (hL : L.Accurate) (hpow : ∀ k : Nat, L.log2 (2 ^ k) = k) (input : GenInput) (lp : ℝ)
    (rP rF : Nat) (hM : input.security ≤ 4096) (hlp0 : 0 ≤ lp) (hlp : lp ≤ 4096) (hlpd : rne lp = lp) (ht : 1 ≤ input.t)
    (ht' : input.t ≤ 64) (hF : rF ≤ 101) :
    isSecureV1 L input lp .inverse ⟨rP, rF⟩ = .ok true ↔ Spec.SecureInverse input.security lp input.t rP rF :=
  isSecureV1_inverse_iff hL hpow hM hlp0 hlp hlpd ht ht' ⟨rP, rF⟩ hF

/-- A case that meets the hypotheses and is accepted: width 4, 80 partial and 8 full rounds (`4^8 = 2^16`, 96 > 2 + 64). -/
example : isSecureV1 exactLibm ⟨true, 128, 4, q⟩ 252 .inverse ⟨80, 8⟩ = .ok true := by
  have h252 : (252 : ℝ) = ((252 : ℕ) : ℝ) := by norm_num
  refine (C56_inverse exactLibm exactLibm_accurate (fun k => ?_) ⟨true, 128, 4, q⟩ 252 80 8 (by norm_num) (by norm_num) (by norm_num)
    (by rw [h252]; exact rne_natCast (by norm_num)) (by norm_num) (by norm_num) (by norm_num)).2 ⟨Or.inl ⟨?_, by norm_num⟩, ?_, ?_⟩
  · show Real.logb 2 (2 ^ k) = k
    rw [Real.logb_pow, Real.logb_self_eq_one (by norm_num), mul_one]
  · rw [show (252 : ℝ) = ((252 : ℤ) : ℝ) by norm_num, Int.floor_intCast]; norm_num
  · have hc : Nat.clog 2 4 = 2 := by decide +kernel
    have hl : Nat.log 2 (4 ^ 8) = 16 := by decide +kernel
    show (Nat.clog 2 4 : ℤ) + ⌈min ((128 : ℕ) : ℝ) 252 / 2⌉ < ((Nat.log 2 (4 ^ 8) + 80 : ℕ) : ℤ)
    rw [hc, hl, min_eq_left (by norm_num), show ((128 : ℕ) : ℝ) / 2 = ((64 : ℤ) : ℝ) by norm_num, Int.ceil_intCast]
    norm_num
  · have hc : Nat.clog 2 4 = 2 := by decide +kernel
    have hl : Nat.log 2 (4 ^ 8) = 16 := by decide +kernel
    show ((4 : ℕ) : ℤ) - 1 + Nat.clog 2 4 + min ⌈((128 : ℕ) : ℝ) / ((4 : ℕ) + 1)⌉ ⌈(252 : ℝ) / 2⌉ < ((Nat.log 2 (4 ^ 8) + 80 : ℕ) : ℤ)
    have : ⌈((128 : ℕ) : ℝ) / ((4 : ℕ) + 1)⌉ ≤ 26 := by rw [Int.ceil_le]; norm_num
    rw [hc, hl]
    have := min_le_left ⌈((128 : ℕ) : ℝ) / ((4 : ℕ) + 1)⌉ ⌈(252 : ℝ) / 2⌉
    push_cast at *; omega

/-! ## C57 -/

theorem asUsize_mono {x y : ℝ} (h : x ≤ y) : asUsize x ≤ asUsize y := Nat.floor_mono h

theorem asUsize_floor_mono {x y : ℝ} (h : x ≤ y) : asUsize (⌊x⌋ : ℝ) ≤ asUsize (⌊y⌋ : ℝ) :=
  asUsize_mono (by exact_mod_cast Int.floor_mono h)

theorem asUsize_ceil_mono {x y : ℝ} (h : x ≤ y) : asUsize (⌈x⌉ : ℝ) ≤ asUsize (⌈y⌉ : ℝ) :=
  asUsize_mono (by exact_mod_cast Int.ceil_mono h)

/-- **C57.** Adding partial or full rounds to an accepted choice gives an accepted choice (first version, any S-box). -/
theorem C57_monotone_v1 (L : Libm) (hL : L.Accurate) (input : GenInput) (lp : ℝ) (alpha : Alpha) (ht : 1 ≤ input.t)
    (rP rF sP sF : Nat) (hP : rP ≤ sP) (hF : rF ≤ sF) (h : isSecureV1 L input lp alpha ⟨rP, rF⟩ = .ok true) :
    isSecureV1 L input lp alpha ⟨sP, sF⟩ = .ok true := by
  obtain ⟨g, hg⟩ := grobnerV1_ok L lp alpha ht
  rw [isSecureV1_eq L lp _ hg, Except.ok.injEq, decide_eq_true_eq] at h ⊢
  have hm : roundMeasure L input alpha ⟨rP, rF⟩ ≤ roundMeasure L input alpha ⟨sP, sF⟩ := by
    cases alpha with
    | exponent e => simp only [roundMeasure, RoundNumbers.total]; omega
    | inverse =>
      simp only [roundMeasure, inverseRounds, RoundNumbers.full, RoundNumbers.partialRounds]
      refine Nat.add_le_add (asUsize_floor_mono (rne_mono ?_)) hP
      have htR : (1 : ℝ) ≤ rne input.t := by
        rw [← rne_one]; exact rne_mono (by exact_mod_cast ht)
      have hl : 0 ≤ L.log2 (rne input.t) := by
        simpa using hL.le_log2 htR (Real.logb_nonneg (by norm_num) htR)
      exact mul_le_mul_of_nonneg_right (rne_mono (by exact_mod_cast hF)) hl
  obtain ⟨h1, h2, h3⟩ := h
  dsimp only at h1 ⊢
  omega

theorem choose_le_of_le {u v i : Nat} (h : u ≤ v) : Nat.choose u i ≤ Nat.choose v i := Nat.choose_le_choose i h

theorem isBitLength_numBits {x b : Nat} (h : Spec.IsBitLength x b) : b = numBits x := by
  obtain ⟨a1, a2, a3⟩ := h
  have hx : x ≠ 0 := by
    rintro rfl
    have : 0 < 2 ^ (b - 1) := by positivity
    omega
  obtain ⟨c1, c2, c3⟩ := numBits_spec hx
  have d1 := (Nat.pow_lt_pow_iff_right (a := 2) (by norm_num)).1 (a1.trans_lt c2)
  have d2 := (Nat.pow_lt_pow_iff_right (a := 2) (by norm_num)).1 (c1.trans_lt a2)
  omega

theorem binomialLarge_mono {M t e rP rF sP sF : Nat} (hP : rP ≤ sP) (hF : rF ≤ sF)
    (h : Spec.BinomialLarge M t e rP rF) : Spec.BinomialLarge M t e sP sF := by
  obtain ⟨i, b, h1, h2, h3, h4⟩ := h
  have e1 : t / 3 * (rF / 2) ≤ t / 3 * (sF / 2) := Nat.mul_le_mul_left _ (by omega)
  have e2 : (rF - 1) * t ≤ (sF - 1) * t := Nat.mul_le_mul_right _ (by omega)
  have hc : Nat.choose ((rF - 1) * t + rP + t / 3 + (t / 3 * (rF / 2) + rP + e)) i ≤
      Nat.choose ((sF - 1) * t + sP + t / 3 + (t / 3 * (sF / 2) + sP + e)) i := choose_le_of_le (by omega)
  have hpos : Nat.choose ((rF - 1) * t + rP + t / 3 + (t / 3 * (rF / 2) + rP + e)) i ≠ 0 :=
    (Nat.choose_pos (by omega)).ne'
  refine ⟨i, _, h1, by omega, numBits_spec ?_, ?_⟩
  · omega
  · have := numBits_mono hpos hc
    rw [isBitLength_numBits h3] at h4
    omega

/-- **C57.** The same for the second version. -/
theorem C57_monotone_v2 (L : Libm) (hL : L.Accurate) (input : GenInput) (lp : ℝ) (e : Nat) (ht : 1 ≤ input.t)
    (ht' : input.t < 2 ^ 50) (rP rF sP sF : Nat) (hP : rP ≤ sP) (hF : rF ≤ sF) (hF1 : 1 ≤ rF)
    (h : isSecureV2 L input lp (.exponent e) ⟨rP, rF⟩ = .ok true) :
    isSecureV2 L input lp (.exponent e) ⟨sP, sF⟩ = .ok true := by
  rw [C56_v2 L input lp e _ _ ht ht' (by omega)] at h ⊢
  exact ⟨C57_monotone_v1 L hL input lp _ ht _ _ _ _ hP hF h.1, binomialLarge_mono hP hF h.2⟩

theorem le_margin (n : Nat) : n ≤ Spec.partialWithMargin n := by
  rw [ceil_margin]; omega

/-- **C57.** The numbers `v1_generate` returns, margin included, pass the test themselves. -/
theorem C57_result_v1 (L : Libm) (hL : L.Accurate) (input : GenInput) (lp : ℝ) (alpha : Alpha) (ht : 1 ≤ input.t)
    (ht' : input.t < 2 ^ 50) (r : RoundNumbers) (h : roundsV1Generate L input lp alpha = .ok r) :
    isSecureV1 L input lp alpha r = .ok true := by
  have hM : input.security ≤ 256 := by
    by_contra hc
    rw [C37_v1_refused L input lp alpha (by omega)] at h
    cases h
  rcases C37_v1 L input lp alpha hM ht ht' with ⟨-, h2⟩ | ⟨rP, rF, hb, h2⟩
  · rw [h2] at h; cases h
  · rw [h2] at h
    obtain rfl := Except.ok.inj h
    exact C57_monotone_v1 L hL input lp alpha ht rP rF _ _ (le_margin rP) (by omega) hb.2.1

example : isSecureV1 roundedLibm ⟨false, 128, 3, q⟩ (log2Big roundedLibm q) (.exponent 17) ⟨31, 8⟩ = .ok true :=
  C57_result_v1 _ roundedLibm_accurate ⟨false, 128, 3, q⟩ _ _ (by norm_num) (by norm_num) _
    (C39_rounds _ roundedLibm_accurate _ _ (by norm_num) (by norm_num))

/-- And so do all larger ones. -/
example (m n : Nat) : isSecureV1 roundedLibm ⟨false, 128, 3, q⟩ (log2Big roundedLibm q) (.exponent 17) ⟨31 + m, 8 + n⟩ = .ok true :=
  C57_monotone_v1 _ roundedLibm_accurate ⟨false, 128, 3, q⟩ _ _ (by norm_num) 31 8 _ _ (by omega) (by omega)
    (C57_result_v1 _ roundedLibm_accurate ⟨false, 128, 3, q⟩ _ _ (by norm_num) (by norm_num) _
      (C39_rounds _ roundedLibm_accurate _ _ (by norm_num) (by norm_num)))

/-- **C57.** The same for `v2_generate`. -/
theorem C57_result_v2 (L : Libm) (hL : L.Accurate) (input : GenInput) (lp : ℝ) (alpha : Alpha) (ht : 1 ≤ input.t)
    (ht' : input.t < 2 ^ 50) (r : RoundNumbers) (h : roundsV2Generate L input lp alpha = .ok r) :
    isSecureV2 L input lp alpha r = .ok true := by
  cases alpha with
  | inverse => rw [C37_v2_inverse] at h; cases h
  | exponent e =>
    rcases C37_v2 L input lp e ht ht' with ⟨-, h2⟩ | ⟨rP, rF, hb, h2⟩
    · rw [h2] at h; cases h
    · rw [h2] at h
      obtain rfl := Except.ok.inj h
      exact C57_monotone_v2 L hL input lp e ht ht' rP rF _ _ (le_margin rP) (by omega)
        (by have := hb.1.2.2.1; omega) hb.2.1

/-- C56 and C57 together: what `v1_generate` returns satisfies the inequalities of the paper (up to `10⁻⁶`), and no candidate that
is cheaper satisfies them with slack `10⁻⁶`. -/
theorem C56_result (L : Libm) (hL : L.Accurate) (input : GenInput) (lp : ℝ) (e : Nat)
    (hlp0 : 0 ≤ lp) (hlp : lp ≤ 4096) (ht : 1 ≤ input.t) (ht' : input.t ≤ 4096)
    (he : 3 ≤ e) (he' : e < 2 ^ 32) (outP outF : Nat) (h : roundsV1Generate L input lp (.exponent e) = .ok ⟨outP, outF⟩) :
    Spec.SecurePower (-1e-6) input.security lp input.t e outP outF ∧
    ∀ sP sF, Spec.InRange sP sF → Spec.SecurePower 1e-6 input.security lp input.t e sP sF →
      input.t * outF + outP ≤ Spec.cost input.t sP sF := by
  have hM : input.security ≤ 256 := by
    by_contra hc
    rw [C37_v1_refused L input lp _ (by omega)] at h
    cases h
  refine ⟨(C56_power L hL input lp e outP outF (by omega) hlp0 hlp ht ht' he he').2
    (C57_result_v1 L hL input lp _ ht (by omega) _ h), fun sP sF hS hs => ?_⟩
  rcases C37_v1 L input lp (.exponent e) hM ht (by omega) with ⟨-, h2⟩ | ⟨rP, rF, hb, h2⟩
  · rw [h2] at h; cases h
  · rw [h2] at h
    obtain ⟨rfl, rfl⟩ := RoundNumbers.mk.inj (Except.ok.inj h)
    have := hb.2.2 sP sF hS ((C56_power L hL input lp e sP sF (by omega) hlp0 hlp ht ht' he he').1 hs)
    have hc : Spec.cost input.t rP rF = input.t * (rF + 2) + Spec.partialWithMargin rP := rfl
    rcases this with h3 | h3 <;> omega

/-! ## C58 -/

theorem statistical_mono {L : Libm} {a b : GenInput} {lp : ℝ} {alpha : Alpha} (ht : a.t = b.t) (h : a.security ≤ b.security) :
    statisticalAttackFullRounds L a lp alpha ≤ statisticalAttackFullRounds L b lp alpha := by
  unfold statisticalAttackFullRounds
  dsimp only
  rw [ht]
  have hm : rne (a.security : ℝ) ≤ rne b.security := rne_mono (by exact_mod_cast h)
  split_ifs with h1 h2
  · exact le_rfl
  · norm_num
  · exact absurd (hm.trans (by assumption)) h1
  · exact le_rfl

theorem interpolation_mono {L : Libm} (hL : L.Accurate) {a b : GenInput} {lp : ℝ} {alpha : Alpha}
    (ha : ∀ e, alpha = .exponent e → 1 ≤ e) (ht : a.t = b.t) (h : a.security ≤ b.security) :
    algebraicAttackInterpolation L a lp alpha ≤ algebraicAttackInterpolation L b lp alpha := by
  unfold algebraicAttackInterpolation
  dsimp only
  rw [ht]
  have hm : rne (a.security : ℝ) ≤ rne b.security := rne_mono (by exact_mod_cast h)
  have hmin : min (rne (a.security : ℝ)) lp ≤ min (rne (b.security : ℝ)) lp := min_le_min_right _ hm
  cases alpha with
  | inverse =>
    refine asUsize_mono (rne_mono (add_le_add_right ?_ _))
    exact_mod_cast Int.ceil_mono (rne_mono (by linarith))
  | exponent e =>
    have heR : (1 : ℝ) ≤ rne e := by rw [← rne_one]; exact rne_mono (by exact_mod_cast ha e rfl)
    have hc : 0 ≤ L.log 2 (rne e) := hL.log_nonneg (by norm_num) heR
    refine asUsize_ceil_mono (rne_mono (add_le_add_left ?_ _))
    exact_mod_cast Int.ceil_mono (rne_mono (mul_le_mul_of_nonneg_left hmin hc))

theorem grobner_mono {L : Libm} (hL : L.Accurate) {a b : GenInput} {lp : ℝ} {alpha : Alpha}
    (ha : ∀ e, alpha = .exponent e → 1 ≤ e) (ht : a.t = b.t) (h1 : 1 ≤ b.t) (h : a.security ≤ b.security) {x y : Nat}
    (hx : algebraicAttackGrobnerBasisV1 L a lp alpha = .ok x) (hy : algebraicAttackGrobnerBasisV1 L b lp alpha = .ok y) :
    x ≤ y := by
  rw [algebraicAttackGrobnerBasisV1, usub, if_pos (by omega)] at hx hy
  have hm : rne (a.security : ℝ) ≤ rne b.security := rne_mono (by exact_mod_cast h)
  have ht0 : 0 ≤ rne (rne (b.t : ℝ) + 1) :=
    rne_nonneg (add_nonneg (rne_nonneg (Nat.cast_nonneg _)) (by norm_num))
  cases alpha with
  | inverse =>
    obtain rfl := Except.ok.inj hx
    obtain rfl := Except.ok.inj hy
    rw [ht]
    refine asUsize_floor_mono (max_le_max (rne_mono (add_le_add_left ?_ _)) (rne_mono (add_le_add_right (min_le_min_right _ ?_) _)))
    · exact_mod_cast Int.ceil_mono (rne_mono (mul_le_mul_of_nonneg_left (min_le_min_right lp hm) (by norm_num)))
    · exact_mod_cast Int.ceil_mono (rne_mono (div_le_div_of_nonneg_right hm ht0))
  | exponent e =>
    have heR : (1 : ℝ) ≤ rne e := by rw [← rne_one]; exact rne_mono (by exact_mod_cast ha e rfl)
    have hc : 0 ≤ L.log 2 (rne e) := hL.log_nonneg (by norm_num) heR
    obtain rfl := Except.ok.inj hx
    obtain rfl := Except.ok.inj hy
    rw [ht]
    refine asUsize_floor_mono (max_le_max (rne_mono (mul_le_mul_of_nonneg_left (min_le_min_right _ ?_) hc))
      (rne_mono (add_le_add_right (min_le_min_right _ ?_) _)))
    · exact rne_mono (div_le_div_of_nonneg_right hm (by norm_num))
    · exact rne_mono (div_le_div_of_nonneg_right (rne_mono (mul_le_mul_of_nonneg_left hm hc)) ht0)

/-- A choice accepted at a higher security level is accepted at a lower one. -/
theorem isSecureV1_antitone {L : Libm} (hL : L.Accurate) {a b : GenInput} {lp : ℝ} {alpha : Alpha}
    (ha : ∀ e, alpha = .exponent e → 1 ≤ e) (ht : a.t = b.t) (h1 : 1 ≤ b.t) (h : a.security ≤ b.security) (r : RoundNumbers)
    (hs : isSecureV1 L b lp alpha r = .ok true) : isSecureV1 L a lp alpha r = .ok true := by
  obtain ⟨x, hx⟩ := grobnerV1_ok L lp alpha (input := a) (by omega)
  obtain ⟨y, hy⟩ := grobnerV1_ok L lp alpha h1
  rw [isSecureV1_eq L lp _ hx, Except.ok.injEq, decide_eq_true_eq]
  rw [isSecureV1_eq L lp _ hy, Except.ok.injEq, decide_eq_true_eq] at hs
  have e1 := statistical_mono (L := L) (lp := lp) (alpha := alpha) ht h
  have e2 := interpolation_mono hL (lp := lp) ha ht h
  have e3 := grobner_mono hL ha ht h1 h hx hy
  have e4 : roundMeasure L a alpha r = roundMeasure L b alpha r := by
    unfold roundMeasure inverseRounds
    rw [ht]
  omega

/-- **C58.** Lowering the security level (same field, width and S-box) never makes the generated instance more expensive, and never makes
the search fail: the number of S-boxes is monotone in the security level. -/
theorem C58_monotone_v1 (L : Libm) (hL : L.Accurate) (a b : GenInput) (lp : ℝ) (alpha : Alpha)
    (ha : ∀ e, alpha = .exponent e → 1 ≤ e) (ht : a.t = b.t) (h1 : 1 ≤ b.t) (h1' : b.t < 2 ^ 50)
    (h : a.security ≤ b.security) (bP bF : Nat) (hb : roundsV1Generate L b lp alpha = .ok ⟨bP, bF⟩) :
    ∃ aP aF, roundsV1Generate L a lp alpha = .ok ⟨aP, aF⟩ ∧ a.t * aF + aP ≤ b.t * bF + bP := by
  have hM : b.security ≤ 256 := by
    by_contra hc
    rw [C37_v1_refused L b lp alpha (by omega)] at hb
    cases hb
  rcases C37_v1 L b lp alpha hM h1 h1' with ⟨-, h2⟩ | ⟨rP, rF, hbest, h2⟩
  · rw [h2] at hb; cases hb
  · rw [h2] at hb
    obtain ⟨rfl, rfl⟩ := RoundNumbers.mk.inj (Except.ok.inj hb)
    have hsa := isSecureV1_antitone hL ha ht h1 h _ hbest.2.1
    rcases C37_v1 L a lp alpha (by omega) (by omega) (by omega) with ⟨h3, -⟩ | ⟨sP, sF, hbest', h3⟩
    · rw [h3 rP rF hbest.1] at hsa; cases hsa
    · refine ⟨_, _, h3, ?_⟩
      have := hbest'.2.2 rP rF hbest.1 hsa
      simp only [Spec.Preferred, Spec.cost, ht] at this
      rw [ht]
      omega

/-- At most 128 bits of security with width 3 over the field of this repository: at most `3 · 8 + 31` S-boxes. -/
example (M : Nat) (hM : M ≤ 128) : ∃ aP aF,
    roundsV1Generate roundedLibm ⟨false, M, 3, q⟩ (log2Big roundedLibm q) (.exponent 17) = .ok ⟨aP, aF⟩ ∧ 3 * aF + aP ≤ 3 * 8 + 31 :=
  C58_monotone_v1 _ roundedLibm_accurate ⟨false, M, 3, q⟩ ⟨false, 128, 3, q⟩ _ _ (fun e h => by cases h; norm_num) rfl (by norm_num)
    (by norm_num) hM _ _ (C39_rounds _ roundedLibm_accurate _ _ (by norm_num) (by norm_num))

/-- **C58.** The same for the second version. -/
theorem C58_monotone_v2 (L : Libm) (hL : L.Accurate) (a b : GenInput) (lp : ℝ) (e : Nat)
    (he : 1 ≤ e) (ht : a.t = b.t) (h1 : 1 ≤ b.t) (h1' : b.t < 2 ^ 50)
    (h : a.security ≤ b.security) (bP bF : Nat) (hb : roundsV2Generate L b lp (.exponent e) = .ok ⟨bP, bF⟩) :
    ∃ aP aF, roundsV2Generate L a lp (.exponent e) = .ok ⟨aP, aF⟩ ∧ a.t * aF + aP ≤ b.t * bF + bP := by
  rcases C37_v2 L b lp e h1 h1' with ⟨-, h2⟩ | ⟨rP, rF, hbest, h2⟩
  · rw [h2] at hb; cases hb
  · rw [h2] at hb
    obtain ⟨rfl, rfl⟩ := RoundNumbers.mk.inj (Except.ok.inj hb)
    have hF : 1 ≤ rF := by have := hbest.1.2.2.1; omega
    have hsa : isSecureV2 L a lp (.exponent e) ⟨rP, rF⟩ = .ok true := by
      obtain ⟨k1, i, b', k2, k3, k4, k5⟩ := (C56_v2 L b lp e rP rF h1 h1' hF).1 hbest.2.1
      rw [C56_v2 L a lp e rP rF (by omega) (by omega) hF]
      refine ⟨isSecureV1_antitone hL (fun e' h' => by cases h'; exact he) ht h1 h _ k1, i, b', k2, ?_, ?_, by omega⟩
      · rw [ht]; exact k3
      · rw [ht]; exact k4
    rcases C37_v2 L a lp e (by omega) (by omega) with ⟨h3, -⟩ | ⟨sP, sF, hbest', h3⟩
    · rw [h3 rP rF hbest.1] at hsa; cases hsa
    · refine ⟨_, _, h3, ?_⟩
      have := hbest'.2.2 rP rF hbest.1 hsa
      simp only [Spec.Preferred, Spec.cost, ht] at this
      rw [ht]
      omega

/-- **C58.** For the same instance Poseidon2 never gets fewer S-boxes than Poseidon. -/
theorem C58_v2_not_cheaper (L : Libm) (input : GenInput) (lp : ℝ) (e : Nat) (hM : input.security ≤ 256)
    (ht : 1 ≤ input.t) (ht' : input.t < 2 ^ 50) (bP bF : Nat) (hb : roundsV2Generate L input lp (.exponent e) = .ok ⟨bP, bF⟩) :
    ∃ aP aF, roundsV1Generate L input lp (.exponent e) = .ok ⟨aP, aF⟩ ∧ input.t * aF + aP ≤ input.t * bF + bP := by
  rcases C37_v2 L input lp e ht ht' with ⟨-, h2⟩ | ⟨rP, rF, hbest, h2⟩
  · rw [h2] at hb; cases hb
  · rw [h2] at hb
    obtain ⟨rfl, rfl⟩ := RoundNumbers.mk.inj (Except.ok.inj hb)
    have hF : 1 ≤ rF := by have := hbest.1.2.2.1; omega
    have hs1 := ((C56_v2 L input lp e rP rF ht ht' hF).1 hbest.2.1).1
    rcases C37_v1 L input lp (.exponent e) hM ht ht' with ⟨h3, -⟩ | ⟨sP, sF, hbest', h3⟩
    · rw [h3 rP rF hbest.1] at hs1; cases hs1
    · refine ⟨_, _, h3, ?_⟩
      have := hbest'.2.2 rP rF hbest.1 hs1
      simp only [Spec.Preferred, Spec.cost] at this
      omega

end Poseidon
