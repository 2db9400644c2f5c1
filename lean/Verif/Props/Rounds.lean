import Verif.Proofs.GenLog2
import Verif.Spec.Rounds
import Verif.Model.Field

/-!
# Properties of the choice of round numbers (C37, C38, C39, C40, C43, C49)

`L : Libm` stands for the platform's logarithms; see `Model/GenFloat.lean`.
-/

set_option linter.unusedSectionVars false

namespace Poseidon

/-- The exact logarithms. -/
noncomputable def exactLibm : Libm := ⟨Real.log, Real.logb 2⟩

/-- Correctly rounded logarithms. -/
noncomputable def roundedLibm : Libm := ⟨fun x => rne (Real.log x), fun x => rne (Real.logb 2 x)⟩

theorem exactLibm_accurate : exactLibm.Accurate where
  ln x hx := by
    have := Real.log_nonneg hx
    simp only [exactLibm, sub_self, abs_zero]; positivity
  log2 x hx := by
    have := Real.logb_nonneg (b := 2) (by norm_num) hx
    simp only [exactLibm, sub_self, abs_zero]; positivity

theorem roundedLibm_accurate : roundedLibm.Accurate where
  ln x hx := by
    have h0 := Real.log_nonneg hx
    refine (rne_err _).trans ?_
    rw [abs_of_nonneg h0]
    apply mul_le_mul_of_nonneg_right _ h0; norm_num
  log2 x hx := by
    have h0 := Real.logb_nonneg (b := 2) (by norm_num) hx
    refine (rne_err _).trans ?_
    rw [abs_of_nonneg h0]
    apply mul_le_mul_of_nonneg_right _ h0; norm_num

/-! ## C38 -/

theorem ceil_margin (n : Nat) : Spec.partialWithMargin n = (43 * n + 39) / 40 := by
  have h : (1075 / 1000 : ℚ) * n = ((43 * n : ℕ) : ℚ) / 40 := by push_cast; ring
  rw [Spec.partialWithMargin, h]
  have h1 := Nat.div_mul_le_self (43 * n + 39) 40
  have h2 := Nat.lt_div_mul_add (a := 43 * n + 39) (b := 40) (by norm_num)
  set d := (43 * n + 39) / 40
  apply le_antisymm
  · rw [Nat.ceil_le, div_le_iff₀ (by norm_num)]
    have : 43 * n ≤ d * 40 := by omega
    exact_mod_cast this
  · by_contra hlt
    push Not at hlt
    have h3 : ⌈((43 * n : ℕ) : ℚ) / 40⌉₊ ≤ d - 1 := by omega
    rw [Nat.ceil_le, div_le_iff₀ (by norm_num)] at h3
    have h4 : 43 * n ≤ (d - 1) * 40 := by exact_mod_cast h3
    omega

/-- **C38.** In IEEE-754 double arithmetic `apply_security_margin` adds two full rounds and exactly 7.5 %
(rounded up) partial rounds, for all numbers of partial rounds of the search. -/
theorem C38_margin (r : RoundNumbers) (h1 : 1 ≤ r.rP) (h2 : r.rP ≤ 399) :
    applySecurityMargin r = ⟨Spec.partialWithMargin r.rP, r.rF + 2⟩ := by
  have := margin_exact h1 (by omega : r.rP < 400)
  rw [ceil_margin]
  simp only [applySecurityMargin, RoundNumbers.partialRounds, RoundNumbers.full, asUsize, this]
  rw [Int.cast_natCast, Nat.floor_natCast]

/-- The exact multiples are the delicate cases: 40 partial rounds become 43, not 44. -/
example : applySecurityMargin ⟨40, 6⟩ = ⟨43, 8⟩ := by
  rw [C38_margin _ (by norm_num) (by norm_num), ceil_margin]
  rfl

/-! ## C37 -/

theorem candidate_iff {rP rF : Nat} : Candidate ⟨rP, rF⟩ ↔ Spec.InRange rP rF := by
  unfold Candidate Spec.InRange; dsimp only; omega

theorem asGood_iff {t rP rF sP sF : Nat} (h1 : Spec.InRange rP rF) (h2 : Spec.InRange sP sF) :
    AsGood t ⟨rP, rF⟩ ⟨sP, sF⟩ ↔ Spec.Preferred t rP rF sP sF := by
  unfold AsGood Spec.Preferred Spec.cost
  rw [candCost_eq (candidate_iff.2 h1), candCost_eq (candidate_iff.2 h2), ceil_margin, ceil_margin]

/-- Two best candidates give the same result. -/
theorem best_unique {secure : Nat → Nat → Prop} {t rP rF sP sF : Nat} (h1 : Spec.IsBest secure t rP rF)
    (h2 : Spec.IsBest secure t sP sF) : rP = sP ∧ rF = sF := by
  have a := h1.2.2 _ _ h2.1 h2.2.1
  have b := h2.2.2 _ _ h1.1 h1.2.1
  unfold Spec.Preferred at a b
  have hf : rF = sF := by omega
  subst hf
  have hc : Spec.cost t rP rF = Spec.cost t sP rF := by omega
  unfold Spec.cost at hc
  rw [ceil_margin, ceil_margin] at hc
  exact ⟨by omega, rfl⟩

/-- **C37.** For every security test that returns (`secure` is what it returns): the search panics iff no candidate
is secure, and it returns `(out_P, out_F)` iff these are a best secure candidate with the security margin
applied.  (`t < 2^50` excludes overflow of the cost.) -/
theorem C37_search (isSecure : RoundNumbers → R Bool) (secure : Nat → Nat → Bool) (t : Nat) (ht : t < 2 ^ 50)
    (hs : ∀ rP rF, Spec.InRange rP rF → isSecure ⟨rP, rF⟩ = .ok (secure rP rF)) :
    ((∀ rP rF, Spec.InRange rP rF → secure rP rF = false) ∧ roundSearch isSecure t = .error .unwrapNone) ∨
    (∃ rP rF, Spec.IsBest (fun rP rF => secure rP rF = true) t rP rF ∧
      roundSearch isSecure t = .ok ⟨Spec.partialWithMargin rP, rF + 2⟩) := by
  have hlt : 101 * t + 429 < usizeMax := by unfold usizeMax; omega
  rcases roundSearch_spec (secure := fun r => secure r.rP r.rF)
      (fun r hr => hs r.rP r.rF (candidate_iff.1 hr)) hlt with ⟨h1, h2⟩ | ⟨r, h1, h2, h3, h4⟩
  · exact Or.inl ⟨fun rP rF h => h2 ⟨rP, rF⟩ (candidate_iff.2 h), h1⟩
  · obtain ⟨rP, rF⟩ := r
    have hr := candidate_iff.1 h1
    refine Or.inr ⟨rP, rF, ⟨hr, h2, fun sP sF hS hs' => ?_⟩, ?_⟩
    · exact (asGood_iff hr hS).1 (h4 ⟨sP, sF⟩ (candidate_iff.2 hS) hs')
    · rw [h3, C38_margin _ hr.1 hr.2.1]

/-- Consequence: the output is characterised by being best. -/
theorem C37_unique (isSecure : RoundNumbers → R Bool) (secure : Nat → Nat → Bool) (t : Nat) (ht : t < 2 ^ 50)
    (hs : ∀ rP rF, Spec.InRange rP rF → isSecure ⟨rP, rF⟩ = .ok (secure rP rF)) (rP rF : Nat)
    (hb : Spec.IsBest (fun rP rF => secure rP rF = true) t rP rF) :
    roundSearch isSecure t = .ok ⟨Spec.partialWithMargin rP, rF + 2⟩ := by
  rcases C37_search isSecure secure t ht hs with ⟨h1, _⟩ | ⟨sP, sF, h1, h2⟩
  · exact absurd hb.2.1 (by simp [h1 rP rF hb.1])
  · obtain ⟨rfl, rfl⟩ := best_unique hb h1
    exact h2

/-- **C37** for `v1_generate` (any field, width, S-box; security level at most 256). -/
theorem C37_v1 (L : Libm) (input : GenInput) (lp : ℝ) (alpha : Alpha) (hM : input.security ≤ 256)
    (ht : 1 ≤ input.t) (ht' : input.t < 2 ^ 50) :
    ((∀ rP rF, Spec.InRange rP rF → isSecureV1 L input lp alpha ⟨rP, rF⟩ = .ok false) ∧
      roundsV1Generate L input lp alpha = .error .unwrapNone) ∨
    (∃ rP rF, Spec.IsBest (fun rP rF => isSecureV1 L input lp alpha ⟨rP, rF⟩ = .ok true) input.t rP rF ∧
      roundsV1Generate L input lp alpha = .ok ⟨Spec.partialWithMargin rP, rF + 2⟩) := by
  obtain ⟨g, hg⟩ := grobnerV1_ok L lp alpha ht
  have hs := fun r => isSecureV1_eq L lp alpha hg r
  rw [roundsV1Generate, if_neg (by omega)]
  rcases C37_search (isSecureV1 L input lp alpha) (fun rP rF => decide (statisticalAttackFullRounds L input lp alpha ≤ rF ∧
      algebraicAttackInterpolation L input lp alpha < roundMeasure L input alpha ⟨rP, rF⟩ ∧
      g < roundMeasure L input alpha ⟨rP, rF⟩)) input.t ht' (fun rP rF _ => hs ⟨rP, rF⟩) with ⟨h1, h2⟩ | ⟨rP, rF, h1, h2⟩
  · exact Or.inl ⟨fun rP rF h => by rw [hs]; exact congrArg _ (h1 rP rF h), h2⟩
  · refine Or.inr ⟨rP, rF, ?_, h2⟩
    have e : (fun rP rF => isSecureV1 L input lp alpha ⟨rP, rF⟩ = .ok true) = (fun rP rF =>
        decide (statisticalAttackFullRounds L input lp alpha ≤ rF ∧
          algebraicAttackInterpolation L input lp alpha < roundMeasure L input alpha ⟨rP, rF⟩ ∧
          g < roundMeasure L input alpha ⟨rP, rF⟩) = true) := by
      funext rP rF
      rw [hs]
      exact propext ⟨fun h => Except.ok.inj h, fun h => congrArg _ h⟩
    rw [e]; exact h1

/-- Security levels above 256 are refused by the first version. -/
theorem C37_v1_refused (L : Libm) (input : GenInput) (lp : ℝ) (alpha : Alpha) (hM : 256 < input.security) :
    roundsV1Generate L input lp alpha = .error .explicit := by
  rw [roundsV1Generate, if_pos hM]

/-! ## C40 -/

theorem rne_third {t : Nat} (ht : t < 2 ^ 50) : asUsize ⌊rne (rne (t : ℝ) / 3)⌋ = t / 3 := by
  rw [rne_natCast (by omega)]
  have hd : (t : ℝ) = 3 * ((t / 3 : ℕ) : ℝ) + ((t % 3 : ℕ) : ℝ) := by exact_mod_cast (Nat.div_add_mod t 3).symm
  have hq : t / 3 < 2 ^ 50 := by omega
  have hqR : ((t / 3 : ℕ) : ℝ) < 2 ^ 50 := by exact_mod_cast hq
  have hm : t % 3 < 3 := Nat.mod_lt _ (by norm_num)
  have hfl : ⌊rne ((t : ℝ) / 3)⌋ = ((t / 3 : ℕ) : ℤ) := by
    by_cases h0 : t % 3 = 0
    · have : (t : ℝ) / 3 = ((t / 3 : ℕ) : ℝ) := by
        rw [h0] at hd; push_cast at hd ⊢; linarith
      rw [this, rne_natCast (by omega), Int.floor_natCast]
    · rw [Int.floor_eq_iff, Int.cast_natCast]
      have hm1 : (1 : ℝ) ≤ ((t % 3 : ℕ) : ℝ) := by exact_mod_cast (by omega : 1 ≤ t % 3)
      have hm2 : ((t % 3 : ℕ) : ℝ) ≤ 2 := by exact_mod_cast (by omega : t % 3 ≤ 2)
      have ht0 : (0 : ℝ) ≤ (t : ℝ) / 3 := by positivity
      have herr := abs_le.1 (rne_err ((t : ℝ) / 3))
      rw [abs_of_nonneg ht0] at herr
      have hsmall : (2⁻¹ : ℝ) ^ 53 * ((t : ℝ) / 3) ≤ 1 / 4 := by
        have : (t : ℝ) / 3 ≤ 2 ^ 50 + 1 := by linarith
        calc (2⁻¹ : ℝ) ^ 53 * ((t : ℝ) / 3) ≤ 2⁻¹ ^ 53 * (2 ^ 50 + 1) := by gcongr
          _ ≤ 1 / 4 := by norm_num
      constructor <;> linarith [herr.1, herr.2]
  rw [hfl, asUsize, Int.cast_natCast, Nat.floor_natCast]

theorem numBits_spec {x : Nat} (hx : x ≠ 0) : Spec.IsBitLength x (numBits x) := by
  rw [numBits, if_neg hx]
  refine ⟨?_, Nat.lt_log2_self, by omega⟩
  simpa using Nat.log2_self_le hx

/-- **C40.** The Poseidon2 Gröbner check never truncates in its divisions: it reports the attack as possible iff twice
the bit length of every binomial coefficient `C(upper, i)`, `1 ≤ i ≤ lower`, is below the security level. -/
theorem C40_binomial (input : GenInput) (e : Nat) (r : RoundNumbers) (ht : input.t < 2 ^ 50) (hf : 1 ≤ r.rF) :
    ∃ possible, algebraicAttackGrobnerBasisV2Possible input (.exponent e) r = .ok possible ∧
      ∀ upper lower, lower = input.t / 3 * (r.rF / 2) + r.rP + e →
        upper = (r.rF - 1) * input.t + r.rP + input.t / 3 + lower →
        (possible = true ↔ ∀ i b, 1 ≤ i → i ≤ lower → Spec.IsBitLength (Nat.choose upper i) b → 2 * b < input.security) := by
  set lower := input.t / 3 * (r.rF / 2) + r.rP + e with hl
  set upper := (r.rF - 1) * input.t + r.rP + input.t / 3 + lower with hu
  obtain ⟨b, h1, h2⟩ := binomialLoop_eq input.security upper lower 0 (by omega)
  refine ⟨b, ?_, ?_⟩
  · rw [algebraicAttackGrobnerBasisV2Possible]
    simp only [rne_third ht, RoundNumbers.full, RoundNumbers.partialRounds]
    rw [usub, if_pos hf]
    refine Eq.trans ?_ h1
    show binomialLoop _ _ _ _ _ = _
    rw [Nat.choose_zero_right]
    congr 1
    rw [hu, hl]; ring
  · rintro _ _ rfl rfl
    rw [h2]
    have hbit : ∀ i, i ≤ lower → Nat.choose upper i ≠ 0 := fun i hi =>
      (Nat.choose_pos (by omega)).ne'
    constructor
    · intro h i b' hi1 hi2 hb
      have h3 := h i (by omega) (by omega)
      have h4 := numBits_spec (hbit i hi2)
      have : b' = numBits (Nat.choose upper i) := by
        obtain ⟨a1, a2, a3⟩ := hb
        obtain ⟨c1, c2, c3⟩ := h4
        have d1 := (Nat.pow_lt_pow_iff_right (a := 2) (by norm_num)).1 (a1.trans_lt c2)
        have d2 := (Nat.pow_lt_pow_iff_right (a := 2) (by norm_num)).1 (c1.trans_lt a2)
        omega
      omega
    · intro h i hi1 hi2
      exact h i _ (by omega) (by omega) (numBits_spec (hbit i (by omega)))

theorem numBits_mono {x y : Nat} (hx : x ≠ 0) (h : x ≤ y) : numBits x ≤ numBits y := by
  rw [numBits, if_neg hx, numBits, if_neg (by omega)]
  have := (Nat.le_log2 (n := y) (k := x.log2) (by omega)).2 ((Nat.log2_self_le hx).trans h)
  omega

/-- If `lower ≤ upper / 2` the early exit is harmless: the result only depends on `C(upper, lower)`, as in the paper. -/
theorem C40_final (input : GenInput) (e : Nat) (r : RoundNumbers) (ht : input.t < 2 ^ 50) (hf : 1 ≤ r.rF) (upper lower b : Nat)
    (hl : lower = input.t / 3 * (r.rF / 2) + r.rP + e) (hu : upper = (r.rF - 1) * input.t + r.rP + input.t / 3 + lower)
    (h1 : 1 ≤ lower) (h2 : 2 * lower ≤ upper) (hb : Spec.IsBitLength (Nat.choose upper lower) b) :
    algebraicAttackGrobnerBasisV2Possible input (.exponent e) r = .ok (decide (2 * b < input.security)) := by
  obtain ⟨possible, h3, h4⟩ := C40_binomial input e r ht hf
  rw [h3]
  congr 1
  rw [Bool.eq_iff_iff, h4 upper lower hl hu, decide_eq_true_iff]
  refine ⟨fun h => h lower b h1 le_rfl hb, fun h i b' hi1 hi2 hb' => ?_⟩
  have hle : Nat.choose upper i ≤ Nat.choose upper lower := by
    have key : ∀ d, i + d ≤ lower → Nat.choose upper i ≤ Nat.choose upper (i + d) := by
      intro d
      induction d with
      | zero => intro _; exact le_rfl
      | succ d ih =>
        intro hd
        exact (ih (by omega)).trans (Nat.choose_le_succ_of_lt_half_left (by omega))
    simpa [show i + (lower - i) = lower by omega] using key (lower - i) (by omega)
  obtain ⟨a1, a2, a3⟩ := hb
  obtain ⟨c1, c2, c3⟩ := hb'
  have := (Nat.pow_lt_pow_iff_right (a := 2) (by norm_num)).1 (c1.trans_lt (hle.trans_lt a2))
  omega

/-- The widest shipped instance is of this kind. -/
example : ∃ upper lower, lower = 8 / 3 * (8 / 2) + 31 + 17 ∧ upper = (8 - 1) * 8 + 31 + 8 / 3 + lower ∧ 1 ≤ lower ∧ 2 * lower ≤ upper :=
  ⟨_, _, rfl, rfl, by norm_num, by norm_num⟩

/-- Finding: otherwise the early exit can declare a choice safe although `C(upper, lower)` is below the security level.
Here `t = 2`, `alpha = 17`, `r_F = 5`, `r_P = 21`, `M = 128`. -/
theorem C40_early_exit : ∃ (input : GenInput) (r : RoundNumbers) (upper lower : Nat),
    lower = input.t / 3 * (r.rF / 2) + r.rP + 17 ∧
    upper = (r.rF - 1) * input.t + r.rP + input.t / 3 + lower ∧
    algebraicAttackGrobnerBasisV2Possible input (.exponent 17) r = .ok false ∧
    ∃ b, Spec.IsBitLength (Nat.choose upper lower) b ∧ 2 * b < input.security := by
  have c1 : Nat.choose 67 38 = 7886597962249166160 := by
    rw [Nat.choose_eq_factorial_div_factorial (by norm_num)]
    decide +kernel
  have c2 : Nat.choose 67 33 = 14226520737620288370 := by
    rw [Nat.choose_eq_factorial_div_factorial (by norm_num)]
    decide +kernel
  refine ⟨⟨false, 128, 2, 0⟩, ⟨21, 5⟩, 67, 38, rfl, rfl, ?_, ?_⟩
  · obtain ⟨b, h1, h2⟩ := C40_binomial ⟨false, 128, 2, 0⟩ 17 ⟨21, 5⟩ (by norm_num) (by norm_num)
    rw [h1]
    cases b
    · rfl
    · have h3 := (h2 67 38 (by norm_num) (by norm_num)).1 rfl 33 64 (by norm_num) (by norm_num) (by
        rw [c2]; refine ⟨?_, ?_, ?_⟩ <;> norm_num)
      exact absurd h3 (by norm_num)
  · rw [c1]
    exact ⟨63, ⟨by norm_num, by norm_num, by norm_num⟩, by norm_num⟩

/-! ## C37 for Poseidon2 -/

/-- **C37** for `v2_generate` (positive exponents; any field and security level). -/
theorem C37_v2 (L : Libm) (input : GenInput) (lp : ℝ) (e : Nat) (ht : 1 ≤ input.t) (ht' : input.t < 2 ^ 50) :
    ((∀ rP rF, Spec.InRange rP rF → isSecureV2 L input lp (.exponent e) ⟨rP, rF⟩ = .ok false) ∧
      roundsV2Generate L input lp (.exponent e) = .error .unwrapNone) ∨
    (∃ rP rF, Spec.IsBest (fun rP rF => isSecureV2 L input lp (.exponent e) ⟨rP, rF⟩ = .ok true) input.t rP rF ∧
      roundsV2Generate L input lp (.exponent e) = .ok ⟨Spec.partialWithMargin rP, rF + 2⟩) := by
  classical
  have tot : ∀ rP rF, Spec.InRange rP rF → isSecureV2 L input lp (.exponent e) ⟨rP, rF⟩ =
      .ok (decide (isSecureV2 L input lp (.exponent e) ⟨rP, rF⟩ = .ok true)) := by
    intro rP rF hr
    suffices h : ∃ b, isSecureV2 L input lp (.exponent e) ⟨rP, rF⟩ = .ok b by
      obtain ⟨b, h⟩ := h
      rw [h]
      cases b
      · rw [decide_eq_false (fun h => by injection h with h; exact absurd h (by simp))]
      · rw [decide_eq_true rfl]
    obtain ⟨g, hg⟩ := grobnerV1_ok L lp (.exponent e) ht
    obtain ⟨b, hb, _⟩ := C40_binomial input e ⟨rP, rF⟩ ht' (by have := hr.2.2.1; dsimp only; omega)
    unfold isSecureV2
    simp only [hg, hb]
    split_ifs
    · exact ⟨_, rfl⟩
    · exact ⟨_, rfl⟩
    · show ∃ b', (if _ ≤ g then _ else (if b = true then _ else _)) = _
      split_ifs <;> exact ⟨_, rfl⟩
  rw [roundsV2Generate]
  rcases C37_search _ _ input.t ht' tot with ⟨h1, h2⟩ | ⟨rP, rF, h1, h2⟩
  · exact Or.inl ⟨fun rP rF h => by rw [tot rP rF h, h1 rP rF h], h2⟩
  · refine Or.inr ⟨rP, rF, ?_, h2⟩
    have e' : (fun rP rF => decide (isSecureV2 L input lp (.exponent e) ⟨rP, rF⟩ = .ok true) = true) =
        (fun rP rF => isSecureV2 L input lp (.exponent e) ⟨rP, rF⟩ = .ok true) := by
      funext a b; simp
    rwa [e'] at h1

theorem loopN_error {σ : Type _} {body : Nat → σ → R σ} {s : σ} {e : Panic} : ∀ (m n i : Nat), m < n →
    (∀ j, j < m → body (i + j) s = .ok s) → body (i + m) s = .error e → loopN body n i s = .error e := by
  intro m
  induction m with
  | zero =>
    intro n i hn _ h2
    obtain ⟨n, rfl⟩ := Nat.exists_eq_add_of_lt hn
    rw [show 0 + n + 1 = n + 1 by omega, loopN, show body i s = .error e from h2]; rfl
  | succ m ih =>
    intro n i hn h1 h2
    obtain ⟨n, rfl⟩ : ∃ k, n = k + 1 := ⟨n - 1, by omega⟩
    rw [loopN, show body i s = .ok s from h1 0 (by omega)]
    refine ih n (i + 1) (by omega) (fun j hj => ?_) ?_
    · have := h1 (j + 1) (by omega); rwa [show i + (j + 1) = i + 1 + j by omega] at this
    · rwa [show i + (m + 1) = i + 1 + m by omega] at h2

/-- The second version never supports the inverse S-box. -/
theorem C37_v2_inverse (L : Libm) (input : GenInput) (lp : ℝ) :
    roundsV2Generate L input lp .inverse = .error .unimplemented := by
  have hS := statistical_cases L input lp .inverse
  rw [roundsV2Generate, roundSearch, forRange, loopN_error (e := .unimplemented) 0 _ _ (by norm_num) (by simp)]
  · rfl
  · rw [forRange]
    refine loopN_error (statisticalAttackFullRounds L input lp .inverse - 4) _ _ (by omega) ?_ ?_
    · intro j hj
      rw [isSecureV2, if_pos (by simp only [RoundNumbers.full]; omega)]
      rfl
    · rw [isSecureV2, if_neg (by simp only [RoundNumbers.full]; omega)]
      rfl

/-! ## C49 -/

/-- **C49.** For every field (any value of `log_2_p`), width 2 to 8, security level up to 256 and S-box the generator can choose,
`v1_generate` returns, and the number of full rounds is 8 or 12, in particular even. -/
theorem C49_full_rounds (L : Libm) (hL : L.Accurate) (hl2 : L.log2 2 = 1) (input : GenInput) (lp : ℝ) (alpha : Alpha)
    (hM : input.security ≤ 256) (ht : 2 ≤ input.t) (ht8 : input.t ≤ 8)
    (ha : ∀ e, alpha = .exponent e → 3 ≤ e ∧ e < 2 ^ 32) :
    ∃ rP rF, roundsV1Generate L input lp alpha = .ok ⟨rP, rF⟩ ∧ (rF = 8 ∨ rF = 12) ∧ 1 ≤ rP := by
  have hlt : 101 * input.t + 429 < usizeMax := by unfold usizeMax; omega
  have hS := statistical_cases L input lp alpha
  cases alpha with
  | exponent e =>
    obtain ⟨h3, he⟩ := ha e rfl
    obtain ⟨g, hg, hg2, hI⟩ := bounds_exponent hL (lp := lp) hM (by omega) (by omega) h3 (by omega)
    exact ⟨_, _, roundsV1_exponent hM ht hlt hg (by omega), by omega, by omega⟩
  | inverse =>
    obtain ⟨g, hg, hg2, hI⟩ := bounds_inverse hL (lp := lp) hM (by omega) ht8
    obtain ⟨rP, h1, h2⟩ := roundsV1_inverse hM hlt _ (fun k => rfl)
      (fun S k _ hk hk' => inverse_fl hL ht ht8 hl2 S k hk hk') hg (by omega)
    exact ⟨_, _, h2, by omega, h1⟩

/-- The correctly rounded library meets the hypotheses. -/
example : roundedLibm.Accurate ∧ roundedLibm.log2 2 = 1 :=
  ⟨roundedLibm_accurate, by simp [roundedLibm, rne_one]⟩

/-- Without the accuracy of `log2 2` nothing changes for positive exponents: the closed form of the result. -/
theorem C49_closed_form (L : Libm) (hL : L.Accurate) (input : GenInput) (lp : ℝ) (e : Nat) (hM : input.security ≤ 256)
    (ht : 2 ≤ input.t) (ht64 : input.t ≤ 64) (he : 3 ≤ e) (he' : e < 2 ^ 32) :
    ∃ g, algebraicAttackGrobnerBasisV1 L input lp (.exponent e) = .ok g ∧
      ∀ S B, S = statisticalAttackFullRounds L input lp (.exponent e) →
        B = max (algebraicAttackInterpolation L input lp (.exponent e)) g →
        (S = 6 ∨ S = 10) ∧
        roundsV1Generate L input lp (.exponent e) = .ok ⟨Spec.partialWithMargin (max 1 (B + 1 - S)), S + 2⟩ := by
  have hlt : 101 * input.t + 429 < usizeMax := by unfold usizeMax; omega
  obtain ⟨g, hg, hg2, hI⟩ := bounds_exponent hL (lp := lp) hM (by omega) ht64 he (by omega)
  refine ⟨g, hg, ?_⟩
  rintro _ _ rfl rfl
  refine ⟨statistical_cases L input lp (.exponent e), ?_⟩
  rw [roundsV1_exponent hM ht hlt hg (by omega), ceil_margin]

/-! ## C39 -/

/-- The blocks of the modulus. -/
theorem log2Loop_q : log2Loop q 0 = (4779, 240) := by
  obtain ⟨k, h1, h2, h3⟩ := log2Loop_spec q 0
  have hk : k = 5 := by
    by_contra hne
    rcases Nat.lt_or_ge k 5 with h | h
    · have hk4 : k ≤ 4 := by omega
      interval_cases k <;> revert h2 <;> decide +kernel
    · have := h3 5 (by omega)
      revert this; decide +kernel
  subst hk
  rw [h1]
  decide +kernel

theorem lp_q {L : Libm} (hL : L.Accurate) : 251 ≤ log2Big L q ∧ log2Big L q ≤ 254 := by
  unfold log2Big
  rw [log2Loop_q]
  dsimp only
  rw [rne_natCast (n := 240) (by norm_num), rne_natCast (n := 4779) (by norm_num)]
  have h1 := hL.log2_le (x := ((4779 : ℕ) : ℝ)) (by norm_num) (logb2_le (n := 13) (by norm_num) (by norm_num))
  have h2 := hL.le_log2 (x := ((4779 : ℕ) : ℝ)) (by norm_num) (le_logb2 (n := 12) (by norm_num) (by norm_num))
  norm_num at h1 h2 ⊢
  constructor
  · exact le_rne_of (a := 251.9) (by linarith) (by norm_num) (by norm_num)
  · exact rne_le_of (b := 253.1) (by linarith) (by norm_num) (by norm_num)

/-- **C39.** For 128 bits of security, the scalar field of the shipped curve, `alpha = 17` and widths 2 to 8, the search
returns 8 full and 31 partial rounds, with IEEE-754 arithmetic and any logarithms of relative error at most `2⁻⁴⁰`. -/
theorem C39_rounds (L : Libm) (hL : L.Accurate) (allow : Bool) (t : Nat) (ht : 2 ≤ t) (ht8 : t ≤ 8) :
    roundsV1Generate L ⟨allow, 128, t, q⟩ (log2Big L q) (.exponent 17) = .ok ⟨31, 8⟩ := by
  obtain ⟨hlp1, hlp2⟩ := lp_q hL
  generalize log2Big L q = lp at hlp1 hlp2
  set input : GenInput := ⟨allow, 128, t, q⟩
  have hlt : 101 * input.t + 429 < usizeMax := by unfold usizeMax; simp only [input]; omega
  have htR : (2 : ℝ) ≤ t := by exact_mod_cast ht
  have ht8R : (t : ℝ) ≤ 8 := by exact_mod_cast ht8
  have r17 : rne ((17 : ℕ) : ℝ) = 17 := by rw [rne_natCast (by norm_num)]; norm_num
  have r128 : rne ((128 : ℕ) : ℝ) = 128 := by rw [rne_natCast (by norm_num)]; norm_num
  have rt : rne (t : ℝ) = t := rne_natCast (by omega)
  have rt1 : rne ((t : ℝ) + 1) = t + 1 := by
    have := rne_natCast (n := t + 1) (by omega)
    push_cast at this; exact this
  have c1 : L.log 2 17 ≤ 0.2455 := hL.log_le (by norm_num) (by norm_num) Real.log_two_lt_d9.le log_17_gt.le
    (by norm_num) (by norm_num)
  have c2 : 0.2440 ≤ L.log 2 17 := hL.le_log (by norm_num) (by norm_num) Real.log_two_gt_d9.le log_17_lt.le
    (by norm_num) (by norm_num)
  have d1 : L.log t 17 ≤ 0.8 := hL.log_le (by linarith) (by norm_num)
    ((Real.log_le_log (by linarith) ht8R).trans log_8_lt.le) log_17_gt.le (by norm_num) (by norm_num)
  have d2 : 0.2 ≤ L.log t 17 := hL.le_log (by linarith) (by norm_num)
    (Real.log_two_gt_d9.le.trans (Real.log_le_log (by norm_num) htR)) log_17_lt.le (by norm_num) (by norm_num)
  -- statistical attacks
  have hS : statisticalAttackFullRounds L input lp (.exponent 17) = 6 := by
    unfold statisticalAttackFullRounds
    dsimp only
    rw [if_pos]
    simp only [input]
    rw [r17, r128, rt, rt1]
    have r16 : rne ((17 : ℝ) - 1) = 16 := by
      have := rne_natCast (n := 16) (by norm_num)
      norm_num at this ⊢; exact this
    rw [r16]
    have h16 : L.log2 16 ≤ 5 :=
      (hL.log2_le (by norm_num) (logb2_le (n := 4) (by norm_num) (by norm_num))).trans (by norm_num)
    have hfl : (251 : ℝ) ≤ ((⌊lp⌋ : ℤ) : ℝ) := by exact_mod_cast Int.le_floor.2 (by exact_mod_cast hlp1)
    have h1 : 245 ≤ rne (((⌊lp⌋ : ℤ) : ℝ) - L.log2 16) :=
      le_rne_of (a := 246) (by linarith) (by norm_num) (by norm_num)
    refine le_rne_of (a := 245 * 1) ?_ (by norm_num) (by norm_num)
    exact mul_le_mul h1 (by linarith) (by norm_num) (by linarith)
  -- interpolation attack
  have hI : algebraicAttackInterpolation L input lp (.exponent 17) = 33 := by
    unfold algebraicAttackInterpolation
    dsimp only
    simp only [input]
    rw [r17, r128, rt, min_eq_left (by linarith)]
    have e1 : ⌈rne (L.log 2 17 * 128)⌉ = 32 := by
      rw [Int.ceil_eq_iff]
      constructor
      · exact lt_of_lt_of_le (by norm_num : ((32 : ℤ) : ℝ) - 1 < 31.2)
          (le_rne_of (a := 31.232) (by linarith) (by norm_num) (by norm_num))
      · exact rne_le_of (b := 31.5) (by linarith) (by norm_num) (by norm_num)
    rw [e1]
    have e2 : ⌈rne (((32 : ℤ) : ℝ) + L.log t 17)⌉ = 33 := by
      rw [Int.ceil_eq_iff]
      constructor
      · exact lt_of_lt_of_le (by norm_num : ((33 : ℤ) : ℝ) - 1 < 32.1)
          (le_rne_of (a := 32.2) (by push_cast; linarith) (by norm_num) (by norm_num))
      · exact rne_le_of (b := 32.8) (by push_cast; linarith) (by norm_num) (by norm_num)
    rw [e2, asUsize]
    norm_num
  -- Groebner basis attacks
  obtain ⟨g, hg⟩ := grobnerV1_ok L lp (.exponent 17) (show 1 ≤ input.t by simp only [input]; omega)
  have hG : g ≤ 33 := by
    have hg' := hg
    rw [algebraicAttackGrobnerBasisV1, usub, if_pos (show 1 ≤ input.t by simp only [input]; omega)] at hg'
    obtain rfl := Except.ok.inj hg'
    apply asUsize_floor_le
    simp only [input]
    rw [r17, r128, rt, rt1]
    have hp : rne (L.log 2 17 * 128) ≤ 31.5 := rne_le_of (b := 31.45) (by linarith) (by norm_num) (by norm_num)
    apply max_le
    · have h1 : rne ((128 : ℝ) / 3) ≤ 43 := rne_le_of (b := 42.7) (by norm_num) (by norm_num) (by norm_num)
      have h2 := min_le_left (rne ((128 : ℝ) / 3)) (rne (lp / 2))
      have h3 : L.log 2 17 * min (rne ((128 : ℝ) / 3)) (rne (lp / 2)) ≤ L.log 2 17 * 43 :=
        mul_le_mul_of_nonneg_left (h2.trans h1) (by linarith)
      exact rne_le_of (b := 11) (by linarith) (by norm_num) (by norm_num)
    · have h1 : rne ((t - 1 : ℕ) : ℝ) ≤ 7 := by
        rw [rne_natCast (by omega)]; exact_mod_cast (by omega : t - 1 ≤ 7)
      have h2 : rne (rne (L.log 2 17 * 128) / ((t : ℝ) + 1)) ≤ 11 := by
        refine rne_le_of (b := 10.5) ?_ (by norm_num) (by norm_num)
        rw [div_le_iff₀ (by linarith)]
        linarith
      have h3 := min_le_left (rne (rne (L.log 2 17 * 128) / ((t : ℝ) + 1))) (rne (rne (L.log 2 17 * lp) / 2))
      exact rne_le_of (b := 18) (by linarith) (by norm_num) (by norm_num)
  rw [roundsV1_exponent (show input.security ≤ 256 by simp [input]) ht hlt hg (by omega), hS, hI]
  rw [max_eq_left hG]
  rfl

/-- Non-vacuity: the exact and the correctly rounded logarithms. -/
example : roundsV1Generate roundedLibm ⟨false, 128, 3, q⟩ (log2Big roundedLibm q) (.exponent 17) = .ok ⟨31, 8⟩ :=
  C39_rounds _ roundedLibm_accurate _ _ (by norm_num) (by norm_num)
example : roundsV1Generate exactLibm ⟨true, 128, 8, q⟩ (log2Big exactLibm q) (.exponent 17) = .ok ⟨31, 8⟩ :=
  C39_rounds _ exactLibm_accurate _ _ (by norm_num) (by norm_num)

/-! ## C43 -/

/-- **C43**, the integer part: `log2` shifts away the least number `k` of 48-bit blocks that leaves at most `2^50`, and the
sum it forms (in exact arithmetic) has integer part `⌊log₂ p⌋` and lies between `log₂ p - log₂(5/4)` and `log₂ p`. -/
theorem C43_blocks (p : Nat) (hp : 1 ≤ p) :
    ∃ k x, log2Loop p 0 = (x, 48 * k) ∧ x = p / 2 ^ (48 * k) ∧ 1 ≤ x ∧ x ≤ 2 ^ 50 ∧
      (∀ j, j < k → 2 ^ 50 < p / 2 ^ (48 * j)) ∧
      ⌊((48 * k : ℕ) : ℝ) + Real.logb 2 x⌋ = (Nat.log 2 p : ℤ) ∧
      Real.logb 2 p - Real.logb 2 (5 / 4) ≤ ((48 * k : ℕ) : ℝ) + Real.logb 2 x ∧
      ((48 * k : ℕ) : ℝ) + Real.logb 2 x ≤ Real.logb 2 p := by
  obtain ⟨k, h1, h2, h3⟩ := log2Loop_spec p 0
  obtain ⟨hx, ha, hb, hc⟩ := log2_block hp h3
  simp only [Nat.shiftRight_eq_div_pow] at *
  have e : ((48 * k : ℕ) : ℝ) + Real.logb 2 ((p / 2 ^ (48 * k) : ℕ) : ℝ) =
      Real.logb 2 ((p / 2 ^ (48 * k) * 2 ^ (48 * k) : ℕ) : ℝ) := by
    have hX : (0 : ℝ) < ((p / 2 ^ (48 * k) : ℕ) : ℝ) := by exact_mod_cast hx
    rw [Nat.cast_mul (p / 2 ^ (48 * k)) (2 ^ (48 * k)), Real.logb_mul hX.ne' (by positivity), Nat.cast_pow, Nat.cast_ofNat,
      Real.logb_pow, Real.logb_self_eq_one (by norm_num), mul_one, add_comm]
  have hx0 : (0 : ℝ) < ((p / 2 ^ (48 * k) * 2 ^ (48 * k) : ℕ) : ℝ) := by
    have : 0 < p / 2 ^ (48 * k) * 2 ^ (48 * k) := by positivity
    exact_mod_cast this
  have hp0 : (0 : ℝ) < p := by exact_mod_cast hp
  refine ⟨k, p / 2 ^ (48 * k), by rw [h1, Nat.zero_add], rfl, hx, h2, h3, ?_, ?_, ?_⟩
  · have hfl := Real.floor_logb_natCast (b := 2) (r := ((p / 2 ^ (48 * k) : ℕ) : ℝ)) (Nat.cast_nonneg _)
    rw [Nat.cast_ofNat] at hfl
    rw [Int.floor_natCast_add, hfl, Int.log_natCast]
    have : Nat.log 2 p = 48 * k + Nat.log 2 (p / 2 ^ (48 * k)) := by
      apply Nat.log_eq_of_pow_le_of_lt_pow
      · rw [pow_add, mul_comm]
        exact (Nat.mul_le_mul_right _ (Nat.pow_log_le_self 2 (by omega))).trans ha
      · refine hc.trans_le ?_
        rw [show 48 * k + Nat.log 2 (p / 2 ^ (48 * k)) + 1 = (Nat.log 2 (p / 2 ^ (48 * k))).succ + 48 * k by
          simp only [Nat.succ_eq_add_one]; ring, pow_add]
        exact Nat.mul_le_mul_right _ (Nat.lt_pow_succ_log_self (by norm_num) _)
    rw [this]; push_cast; rfl
  · rw [e, ← Real.logb_div (by positivity) (by norm_num)]
    apply Real.logb_le_logb_of_le (by norm_num) (by positivity)
    have : (4 : ℝ) * p ≤ 5 * ((p / 2 ^ (48 * k) * 2 ^ (48 * k) : ℕ) : ℝ) := by exact_mod_cast hb
    linarith
  · rw [e]
    apply Real.logb_le_logb_of_le (by norm_num) hx0
    exact_mod_cast ha

/-- **C43**, the floating-point result: with accurate logarithms the computed value is within a relative error `2⁻³⁹` of a
number between `log₂ p - log₂(5/4)` and `log₂ p`. -/
theorem C43_float (L : Libm) (hL : L.Accurate) (p : Nat) (hp : 1 ≤ p) :
    ∃ l : ℝ, Real.logb 2 p - Real.logb 2 (5 / 4) ≤ l ∧ l ≤ Real.logb 2 p ∧ ⌊l⌋ = (Nat.log 2 p : ℤ) ∧
      |log2Big L p - l| ≤ 2⁻¹ ^ 39 * l := by
  obtain ⟨k, x, h1, h2, h3, h4, h5, h6, h7, h8⟩ := C43_blocks p hp
  refine ⟨_, h7, h8, h6, ?_⟩
  unfold log2Big
  rw [h1]
  dsimp only
  rw [rne_natCast (n := x) (by omega)]
  have hxR : (1 : ℝ) ≤ x := by exact_mod_cast h3
  have hl0 : 0 ≤ Real.logb 2 (x : ℝ) := Real.logb_nonneg (by norm_num) hxR
  have hk0 : (0 : ℝ) ≤ ((48 * k : ℕ) : ℝ) := Nat.cast_nonneg _
  have a1 := abs_le.1 (rne_err ((48 * k : ℕ) : ℝ))
  rw [abs_of_nonneg hk0] at a1
  have a2 := abs_le.1 (hL.log2 (x : ℝ) hxR)
  have a3 := abs_le.1 (rne_err (rne ((48 * k : ℕ) : ℝ) + L.log2 (x : ℝ)))
  generalize rne (rne ((48 * k : ℕ) : ℝ) + L.log2 (x : ℝ)) = z at *
  generalize hu : rne ((48 * k : ℕ) : ℝ) = u at *
  generalize L.log2 (x : ℝ) = v at *
  generalize ((48 * k : ℕ) : ℝ) = K at *
  generalize Real.logb 2 (x : ℝ) = l at *
  have e53 : (2⁻¹ : ℝ) ^ 53 = 1 / 9007199254740992 := by norm_num
  have e40 : (2⁻¹ : ℝ) ^ 40 = 1 / 1099511627776 := by norm_num
  have e39 : (2⁻¹ : ℝ) ^ 39 = 2 / 1099511627776 := by norm_num
  rw [e53] at a1 a3
  rw [e40] at a2
  rw [e39]
  have huv : 0 ≤ u + v := by linarith [a1.1, a2.1]
  rw [abs_of_nonneg huv] at a3
  rw [abs_le]
  constructor <;> linarith [a1.1, a1.2, a2.1, a2.2, a3.1, a3.2]

/-- The hypothesis and the delicate range: just above `2^50` the block that is left has 3 bits. -/
example : ∃ k, log2Loop (2 ^ 50 + 1) 0 = (4, 48 * k) := by
  obtain ⟨k, x, h1, h2, -, h4, h5, -⟩ := C43_blocks (2 ^ 50 + 1) (by norm_num)
  have hk : k = 1 := by
    by_contra hne
    rcases Nat.lt_or_ge k 1 with h | h
    · have : k = 0 := by omega
      subst this; norm_num at h2; omega
    · have := h5 1 (by omega); norm_num at this
  subst hk
  norm_num at h2
  exact ⟨1, by rw [h1, h2]⟩

/-- Finding: after rounding, the integer part can be one too large.  With correctly rounded logarithms the result for `2^98 - 1`
is exactly 98 although `⌊log₂ p⌋ = 97`. -/
theorem C43_rounds_up : log2Big roundedLibm (2 ^ 98 - 1) = 98 ∧ Nat.log 2 (2 ^ 98 - 1) = 97 := by
  constructor
  · have hl : log2Loop (2 ^ 98 - 1) 0 = (2 ^ 50 - 1, 48) := by
      obtain ⟨k, x, h1, h2, -, h4, h5, -⟩ := C43_blocks (2 ^ 98 - 1) (by norm_num)
      have hk : k = 1 := by
        by_contra hne
        rcases Nat.lt_or_ge k 1 with h | h
        · have : k = 0 := by omega
          subst this; norm_num at h2; omega
        · have := h5 1 (by omega); norm_num at this
      subst hk
      rw [h1, h2]
      norm_num
    have hlog : rne (Real.logb 2 (((2 ^ 50 - 1 : ℕ)) : ℝ)) = 50 := by
      set y := Real.logb 2 (((2 ^ 50 - 1 : ℕ)) : ℝ) with hy
      have e2 : (0 : ℝ) < Real.log 2 := Real.log_pos (by norm_num)
      -- `50 - y` is the logarithm of `2^50 / (2^50 - 1)`
      have hdiff : 50 - y = Real.log (2 ^ 50 / ((2 ^ 50 - 1 : ℕ) : ℝ)) / Real.log 2 := by
        have h50 : (50 : ℝ) = Real.logb 2 (2 ^ 50) := by rw [Real.logb_pow]; norm_num
        rw [hy, h50, ← Real.logb_div (by norm_num) (by norm_num)]
        rfl
      have hup : Real.log (2 ^ 50 / ((2 ^ 50 - 1 : ℕ) : ℝ)) ≤ 2 ^ 50 / ((2 ^ 50 - 1 : ℕ) : ℝ) - 1 :=
        Real.log_le_sub_one_of_pos (by norm_num)
      have hlo : 0 < Real.log (2 ^ 50 / ((2 ^ 50 - 1 : ℕ) : ℝ)) := Real.log_pos (by norm_num)
      have hd0 : 0 < 50 - y := by rw [hdiff]; positivity
      have hd1 : 50 - y ≤ 2⁻¹ ^ 49 := by
        rw [hdiff, div_le_iff₀ e2]
        refine hup.trans ?_
        have := Real.log_two_gt_d9
        calc (2 : ℝ) ^ 50 / ((2 ^ 50 - 1 : ℕ) : ℝ) - 1 ≤ 2⁻¹ ^ 49 * 0.6931471803 := by norm_num
          _ ≤ _ := by gcongr
      have hy32 : (32 : ℝ) ≤ y := by
        have : (2⁻¹ : ℝ) ^ 49 ≤ 1 := by norm_num
        linarith
      have hlogy : Int.log 2 |y| = 5 := by
        rw [abs_of_nonneg (by linarith)]
        apply le_antisymm
        · refine Int.lt_add_one_iff.1 ((Int.lt_zpow_iff_log_lt (b := 2) (by norm_num) (by linarith)).1 ?_)
          norm_num; linarith
        · refine (Int.zpow_le_iff_le_log (b := 2) (by norm_num) (by linarith)).1 ?_
          norm_num; linarith
      have hu : ulpExp y = -47 := by rw [ulpExp, hlogy]; norm_num
      have hz : (2 : ℝ) ^ (-47 : ℤ) = 2⁻¹ ^ 47 := by norm_num
      have hq : y / 2 ^ (-47 : ℤ) = 50 * 2 ^ 47 - (50 - y) * 2 ^ 47 := by rw [hz]; field_simp; ring
      have hs1 : (50 - y) * 2 ^ 47 ≤ 1 / 4 := by
        calc (50 - y) * 2 ^ 47 ≤ 2⁻¹ ^ 49 * 2 ^ 47 := by gcongr
          _ = 1 / 4 := by norm_num
      have hs0 : 0 < (50 - y) * 2 ^ 47 := by positivity
      have hfl : ⌊y / 2 ^ (-47 : ℤ)⌋ = 50 * 2 ^ 47 - 1 := by
        rw [Int.floor_eq_iff, hq]; push_cast; constructor <;> linarith
      rw [rne, hu, roundEven, hfl, if_neg, if_pos]
      · rw [hz]; norm_num
      · rw [hq]; push_cast; linarith
      · rw [hq]; push_cast; linarith
    unfold log2Big
    rw [hl]
    simp only [roundedLibm]
    rw [rne_natCast (n := 2 ^ 50 - 1) (by norm_num), hlog, rne_natCast (n := 48) (by norm_num)]
    have := rne_natCast (n := 98) (by norm_num)
    norm_num at this ⊢; exact this
  · rw [Nat.log_eq_iff (Or.inr ⟨by norm_num, by norm_num⟩)]; norm_num

end Poseidon
