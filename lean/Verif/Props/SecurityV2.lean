import Verif.Proofs.GenBinomial

/-!
# Property theorem C59: when Poseidon and Poseidon2 get the same round numbers

A comment in `poseidon-paramgen/src/appendix_g.rs` says that for at most 256 bits of security the second version of the search returns what
the first returns.
-/

namespace Poseidon

/-- **C59.** It does for every field with at least as many bits as the security level, every width from 2 to 64 and every exponent. -/
theorem C59_same (L : Libm) (hL : L.Accurate) (input : GenInput) (lp : ℝ) (e : Nat) (hM : input.security ≤ 256)
    (hlp : (input.security : ℝ) ≤ lp) (hlp' : lp ≤ 4096) (ht : 2 ≤ input.t) (ht' : input.t ≤ 64) (he : 3 ≤ e) (he' : e < 2 ^ 32) :
    roundsV2Generate L input lp (.exponent e) = roundsV1Generate L input lp (.exponent e) := by
  have hlp0 : 0 ≤ lp := le_trans (Nat.cast_nonneg _) hlp
  obtain ⟨g, hg, hcf⟩ := C49_closed_form L hL input lp e hM ht ht' he he'
  obtain ⟨hS, hv1⟩ := hcf _ _ rfl rfl
  rcases C37_v1 L input lp (.exponent e) hM (by omega) (by omega) with ⟨-, h2⟩ | ⟨rP, rF, hb, h2⟩
  · rw [h2] at hv1; cases hv1
  -- the best choice has 6 or 10 full rounds
  have hrF : rF = 6 ∨ rF = 10 := by
    have := h2.symm.trans hv1
    obtain ⟨-, h3⟩ := RoundNumbers.mk.inj (Except.ok.inj this)
    omega
  -- it has enough rounds for the binomial condition
  have hsec := (C56_power L hL input lp e rP rF (by omega) hlp0 hlp' (by omega) (by omega) he he').2 hb.2.1
  have hpow : 2 ^ input.security ≤ e ^ (rP + rF) := by
    have heR : (1 : ℝ) < e := by exact_mod_cast (by omega : 1 < e)
    have h3 := hsec.interpolation
    rw [min_eq_left hlp] at h3
    have ht0 : 0 ≤ Real.logb e input.t := Real.logb_nonneg heR (by exact_mod_cast (by omega : 1 ≤ input.t))
    have h4 := Int.le_ceil (Real.logb e 2 * (input.security : ℝ) + -1e-6)
    have h5 := Int.le_ceil ((⌈Real.logb e 2 * (input.security : ℝ) + -1e-6⌉ : ℝ) + Real.logb e input.t + -1e-6)
    have h6 : ((⌈(⌈Real.logb e 2 * (input.security : ℝ) + -1e-6⌉ : ℝ) + Real.logb e input.t + -1e-6⌉ : ℤ) : ℝ) ≤ ((rP + rF : ℕ) : ℝ) - 1 := by
      have : ⌈(⌈Real.logb e 2 * (input.security : ℝ) + -1e-6⌉ : ℝ) + Real.logb e input.t + -1e-6⌉ ≤ ((rP + rF : ℕ) : ℤ) - 1 := by omega
      have h7 : ((⌈(⌈Real.logb e 2 * (input.security : ℝ) + -1e-6⌉ : ℝ) + Real.logb e input.t + -1e-6⌉ : ℤ) : ℝ) ≤ (((rP + rF : ℕ) : ℤ) - 1 : ℤ) :=
        Int.cast_le.2 this
      simpa using h7
    have h8 : Real.logb e 2 * (input.security : ℝ) ≤ ((rP + rF : ℕ) : ℝ) := by linarith
    have h9 : Real.logb e ((2 : ℝ) ^ input.security) ≤ ((rP + rF : ℕ) : ℝ) := by
      rw [Real.logb_pow]; linarith
    rw [Real.logb_le_iff_le_rpow heR (by positivity), Real.rpow_natCast] at h9
    exact_mod_cast h9
  have hbin : Spec.BinomialLarge input.security input.t e rP rF :=
    binomialLarge_of_pow hM ht he hrF hb.1.1 le_rfl hpow
  have h1 : 1 ≤ rF := by omega
  have hbest : Spec.IsBest (fun rP rF => isSecureV2 L input lp (.exponent e) ⟨rP, rF⟩ = .ok true) input.t rP rF := by
    refine ⟨hb.1, (C56_v2 L input lp e rP rF (by omega) (by omega) h1).2 ⟨hb.2.1, hbin⟩, fun sP sF hs hs' => ?_⟩
    exact hb.2.2 sP sF hs ((C56_v2 L input lp e sP sF (by omega) (by omega) (by have := hs.2.2.1; omega)).1 hs').1
  rcases C37_v2 L input lp e (by omega) (by omega) with ⟨h3, -⟩ | ⟨sP, sF, hb', h3⟩
  · have : isSecureV2 L input lp (.exponent e) ⟨rP, rF⟩ = .ok true := hbest.2.1
    rw [h3 rP rF hb.1] at this; cases this
  · obtain ⟨rfl, rfl⟩ := best_unique hbest hb'
    rw [h3, h2]

/-- The hypotheses hold for the field of this repository at 128 bits and for every width and exponent the crate is used with. -/
example : roundsV2Generate roundedLibm ⟨false, 128, 3, q⟩ 252 (.exponent 17) =
    roundsV1Generate roundedLibm ⟨false, 128, 3, q⟩ 252 (.exponent 17) :=
  C59_same _ roundedLibm_accurate _ _ _ (by norm_num) (by norm_num) (by norm_num) (by norm_num) (by norm_num) (by norm_num) (by norm_num)

/-- So C39 holds for Poseidon2 as well: the parameters of this repository have 31 partial and 8 full rounds in both versions. -/
theorem C59_repository (L : Libm) (hL : L.Accurate) (allow : Bool) (t : Nat) (ht : 2 ≤ t) (ht8 : t ≤ 8) :
    roundsV2Generate L ⟨allow, 128, t, q⟩ (log2Big L q) (.exponent 17) = .ok ⟨31, 8⟩ := by
  obtain ⟨h1, h2⟩ := lp_q hL
  rw [C59_same L hL ⟨allow, 128, t, q⟩ _ 17 (by norm_num) (by push_cast; linarith) (by linarith) ht (by show t ≤ 64; omega) (by norm_num)
    (by norm_num)]
  exact C39_rounds L hL allow t ht ht8

/-- The hypotheses of C57 and C58 for the second version hold there. -/
example : isSecureV2 roundedLibm ⟨false, 128, 3, q⟩ (log2Big roundedLibm q) (.exponent 17) ⟨31, 8⟩ = .ok true :=
  C57_result_v2 _ roundedLibm_accurate ⟨false, 128, 3, q⟩ _ _ (by norm_num) (by norm_num) _
    (C59_repository _ roundedLibm_accurate _ _ (by norm_num) (by norm_num))
example (M : Nat) (hM : M ≤ 128) : ∃ aP aF,
    roundsV2Generate roundedLibm ⟨false, M, 3, q⟩ (log2Big roundedLibm q) (.exponent 17) = .ok ⟨aP, aF⟩ ∧ 3 * aF + aP ≤ 3 * 8 + 31 :=
  C58_monotone_v2 _ roundedLibm_accurate ⟨false, M, 3, q⟩ ⟨false, 128, 3, q⟩ _ _ (by norm_num) rfl (by norm_num)
    (by norm_num) hM _ _ (C59_repository _ roundedLibm_accurate _ _ (by norm_num) (by norm_num))

theorem logb_three_two_le : Real.logb 3 2 ≤ 2 / 3 := by
  rw [Real.logb_le_iff_le_rpow (by norm_num) (by norm_num)]
  have h : (2 : ℝ) ^ (3 : ℝ) ≤ (3 : ℝ) ^ (2 : ℝ) := by norm_num
  have h2 := Real.rpow_le_rpow (z := 1 / 3) (by positivity) h (by norm_num)
  rw [← Real.rpow_mul (by norm_num), ← Real.rpow_mul (by norm_num)] at h2
  norm_num at h2 ⊢
  exact h2

/-- **C59**, the limits of the comment: for smaller fields the two searches differ, even at 256 bits.  For a field whose
binary logarithm is between 6 and 7, width 2 and `x ↦ x^3`, the first search returns 2 partial and 12 full rounds; the second does not. -/
theorem C59_small_field (L : Libm) (hL : L.Accurate) (input : GenInput) (lp : ℝ) (hM : input.security = 256)
    (ht : input.t = 2) (h6 : 6 ≤ lp) (h7 : lp ≤ 7) :
    roundsV1Generate L input lp (.exponent 3) = .ok ⟨2, 12⟩ ∧ roundsV2Generate L input lp (.exponent 3) ≠ .ok ⟨2, 12⟩ := by
  have key := fun rP rF => C56_power L hL input lp 3 rP rF (by omega) (by linarith) (by linarith) (by omega) (by omega)
    (by norm_num) (by norm_num)
  have hlog0 : 0 ≤ Real.logb 3 2 := Real.logb_nonneg (by norm_num) (by norm_num)
  have hlog := logb_three_two_le
  have hfloor : (⌊lp⌋ : ℝ) ≤ 7 := (Int.floor_le lp).trans h7
  have hfull : ∀ ε : ℝ, -1 ≤ ε → Spec.fullRoundsNeeded ε input.security lp input.t 3 = 10 := by
    intro ε hε
    rw [Spec.fullRoundsNeeded, if_neg]
    rw [hM, ht]
    have : Real.logb 2 (((3 : ℕ) : ℝ) - 1) = 1 := by
      rw [show ((3 : ℕ) : ℝ) - 1 = 2 by norm_num]; exact Real.logb_self_eq_one (by norm_num)
    rw [this]; push_cast; nlinarith
  have hsec : isSecureV1 L input lp (.exponent 3) ⟨1, 10⟩ = .ok true := by
    refine (key 1 10).1 ⟨(hfull _ (by norm_num)).le, ?_, ?_, ?_⟩
    · rw [hM, ht, Nat.cast_ofNat, Nat.cast_ofNat, Nat.cast_ofNat, min_eq_right (by linarith)]
      have h1 : ⌈Real.logb 3 2 * lp + 1e-6⌉ ≤ 5 := by
        rw [Int.ceil_le]; push_cast; nlinarith
      have h1' : (⌈Real.logb 3 2 * lp + 1e-6⌉ : ℝ) ≤ 5 := by exact_mod_cast h1
      have h2 : ⌈(⌈Real.logb 3 2 * lp + 1e-6⌉ : ℝ) + Real.logb 3 2 + 1e-6⌉ ≤ 6 := by
        rw [Int.ceil_le]; push_cast; norm_num at hlog ⊢; linarith
      omega
    · rw [hM, Nat.cast_ofNat, Nat.cast_ofNat, min_eq_right (by linarith)]
      push_cast; nlinarith
    · rw [hM, ht, Nat.cast_ofNat, Nat.cast_ofNat, Nat.cast_ofNat, min_eq_right (by linarith)]
      push_cast; nlinarith
  have hmin : ∀ sP sF, isSecureV1 L input lp (.exponent 3) ⟨sP, sF⟩ = .ok true → 10 ≤ sF := fun sP sF h => by
    have := ((key sP sF).2 h).statistical
    rwa [hfull _ (by norm_num)] at this
  have hbest : Spec.IsBest (fun rP rF => isSecureV1 L input lp (.exponent 3) ⟨rP, rF⟩ = .ok true) input.t 1 10 := by
    refine ⟨by unfold Spec.InRange; omega, hsec, fun sP sF hr hs => ?_⟩
    have h10 := hmin sP sF hs
    have := hr.1
    unfold Spec.Preferred Spec.cost
    rw [ceil_margin, ceil_margin, ht]
    omega
  constructor
  · rcases C37_v1 L input lp (.exponent 3) (by omega) (by omega) (by omega) with ⟨h3, -⟩ | ⟨sP, sF, hb', h3⟩
    · rw [h3 1 10 hbest.1] at hsec; cases hsec
    · obtain ⟨rfl, rfl⟩ := best_unique hbest hb'
      rw [h3, ceil_margin]
  · intro hv2
    rcases C37_v2 L input lp 3 (by omega) (by omega) with ⟨-, h3⟩ | ⟨sP, sF, hb', h3⟩
    · rw [h3] at hv2; cases hv2
    · rw [h3, ceil_margin] at hv2
      obtain ⟨h4, h5⟩ := RoundNumbers.mk.inj (Except.ok.inj hv2)
      have hP : sP = 1 := by have := hb'.1.1; omega
      obtain rfl : sF = 10 := by omega
      subst hP
      obtain ⟨i, b, i1, i2, ⟨hb1, -, hb3⟩, hb4⟩ := ((C56_v2 L input lp 3 1 10 (by omega) (by omega) (by norm_num)).1 hb'.2.1).2
      rw [ht] at i2 hb1
      rw [hM] at hb4
      have hle : Nat.choose 23 i ≤ 2 ^ 23 := by
        rw [← Nat.sum_range_choose]
        exact Finset.single_le_sum (f := fun i => Nat.choose 23 i) (fun _ _ => Nat.zero_le _)
          (Finset.mem_range.2 (by norm_num at i2; omega))
      norm_num at hb1
      have : 2 ^ 127 ≤ 2 ^ (b - 1) := Nat.pow_le_pow_right (by norm_num) (by omega)
      have : (2 : ℕ) ^ 127 ≤ 2 ^ 23 := (this.trans hb1).trans hle
      norm_num at this

/-- The field with 101 elements at 256 bits: the logarithm the code computes is in the range. -/
example : roundsV1Generate roundedLibm ⟨false, 256, 2, 101⟩ (log2Big roundedLibm 101) (.exponent 3) ≠
    roundsV2Generate roundedLibm ⟨false, 256, 2, 101⟩ (log2Big roundedLibm 101) (.exponent 3) := by
  obtain ⟨l, h1, h2, h3, h4⟩ := C43_float roundedLibm roundedLibm_accurate 101 (by norm_num)
  have h6 : (6.5 : ℝ) ≤ Real.logb 2 101 := by
    rw [Real.le_logb_iff_rpow_le (by norm_num) (by norm_num)]
    rw [show (6.5 : ℝ) = 13 * (1 / 2) by norm_num, Real.rpow_mul (by norm_num), ← Real.sqrt_eq_rpow]
    rw [Real.sqrt_le_left (by norm_num)]; norm_num
  have h7 : Real.logb 2 101 ≤ 6.9 := by
    rw [Real.logb_le_iff_le_rpow (by norm_num) (by norm_num)]
    rw [show (6.9 : ℝ) = 69 * (1 / 10) by norm_num, Real.rpow_mul (by norm_num)]
    rw [show (101 : ℝ) = (101 ^ (10 : ℝ)) ^ ((1 : ℝ) / 10) by
      rw [← Real.rpow_mul (by norm_num)]; norm_num]
    exact Real.rpow_le_rpow (by positivity) (by norm_num) (by norm_num)
  have h8 : Real.logb 2 (5 / 4) ≤ 0.4 := by
    rw [Real.logb_le_iff_le_rpow (by norm_num) (by norm_num)]
    rw [show (0.4 : ℝ) = 2 * (1 / 5) by norm_num, Real.rpow_mul (by norm_num)]
    rw [show (5 / 4 : ℝ) = ((5 / 4) ^ (5 : ℝ)) ^ ((1 : ℝ) / 5) by
      rw [← Real.rpow_mul (by norm_num)]; norm_num]
    exact Real.rpow_le_rpow (by positivity) (by norm_num) (by norm_num)
  have h9 := abs_le.1 h4
  push_cast at h1 h2
  have e39 : (2⁻¹ : ℝ) ^ 39 ≤ 1 / 1000 := by norm_num
  have hl0 : 0 ≤ l := by linarith
  have := mul_le_mul_of_nonneg_right e39 hl0
  obtain ⟨a, b⟩ := C59_small_field roundedLibm roundedLibm_accurate ⟨false, 256, 2, 101⟩ (log2Big roundedLibm 101) rfl rfl
    (by linarith [h9.1]) (by linarith [h9.2])
  rw [a]; exact fun h => b h.symm

end Poseidon
