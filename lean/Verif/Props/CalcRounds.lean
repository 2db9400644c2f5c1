import Verif.Proofs.CalcRounds
import Verif.Props.PaperTables

/-!
# The generator and the script of the Poseidon authors (C70)

`vendor/hadeshash/code/calc_round_numbers.py` tries only even numbers of full rounds, up to 499 partial rounds, has a different Gröbner
basis condition, a different order of rounding, and overwrites its loop variable.  For moduli with more bits than the security level the
numbers are the same.
-/

set_option linter.unusedSectionVars false

namespace Poseidon

section
variable {L : Libm} {p t e M : Nat} {allow : Bool}

/-- The generator in terms of the two roundings of the interpolation bound. -/
theorem roundsV1_large (hL : L.Accurate) (hM : 80 ≤ M) (hM' : M ≤ 256) (ht : 2 ≤ t) (ht' : t ≤ 8) (he : 3 ≤ e)
    (he' : e ≤ 64) (hp : 2 ^ (M + 1) ≤ p) {A T : Nat} (hA : ⌈rne (L.log 2 e * M)⌉ = A) (hT : ⌈L.log t e⌉ = T) (hA0 : 14 ≤ A) (hA1 : A ≤ 172)
    (hT0 : 1 ≤ T) (hT1 : T ≤ 2) :
    roundsV1Generate L ⟨allow, M, t, p⟩ (log2Big L p) (.exponent e) = .ok ⟨(43 * (A + T - 5) + 39) / 40, 8⟩ := by
  have hlp := le_log2Big hL hM' hp
  generalize log2Big L p = lp at *
  obtain ⟨ha, hb⟩ := log_two_bounds hL he he'
  have hMR : (80 : ℝ) ≤ M := by exact_mod_cast hM
  have htR : (2 : ℝ) ≤ t := by exact_mod_cast ht
  have htR' : (t : ℝ) ≤ 8 := by exact_mod_cast ht'
  have hI : algebraicAttackInterpolation L ⟨allow, M, t, p⟩ lp (.exponent e) = A + T := by
    unfold algebraicAttackInterpolation
    dsimp only
    rw [rne_natCast (n := M) (by omega), rne_natCast (n := t) (by omega), rne_natCast (n := e) (by omega), min_eq_left hlp, hA,
      Int.cast_natCast, (ceil_add_log hL ht ht' he he' (by omega)).1, hT, asUsize_int]
    omega
  obtain ⟨g, hg⟩ := grobnerV1_ok L (input := ⟨allow, M, t, p⟩) lp (.exponent e) (show 1 ≤ t by omega)
  have hxA : rne (L.log 2 e * M) ≤ A := by
    have := Int.le_ceil (rne (L.log 2 e * M))
    rw [hA] at this
    exact_mod_cast this
  have hx : L.log 2 e * M * 0.9999 ≤ A := (le_rne_of (x := L.log 2 e * M) le_rfl (by positivity) le_rfl).trans hxA
  have hx2 : 13.28 ≤ L.log 2 e * M := by nlinarith
  have hT0R : (1 : ℝ) ≤ T := by exact_mod_cast hT0
  have hgB : g ≤ A + T := by
    refine grobner_exponent (b := L.log 2 e) hM' (by omega) (by omega) (by omega) (by linarith) le_rfl ?_ ?_ hg
    · push_cast
      linarith
    · have h3 : L.log 2 e * M / ((t : ℝ) + 1) ≤ L.log 2 e * M / 3 := div_le_div_of_nonneg_left (by linarith) (by norm_num) (by linarith)
      push_cast
      linarith
  rw [roundsV1_exponent (input := ⟨allow, M, t, p⟩) hM' ht (by unfold usizeMax; dsimp only; omega) hg (by omega), hI,
    statistical_large hL hM hM' (by omega) (by omega) (show AlphaOk (.exponent e) from ⟨by omega, by omega⟩) hlp]
  congr 2
  omega

/-- The rounded product is rounded up correctly unless it is very near an integer. -/
theorem ceil_exact (hL : L.Accurate) (hM' : M ≤ 256) (he : 3 ≤ e) (he' : e ≤ 64) (hfar : ∀ k : ℤ, 1e-6 < |M * Real.logb e 2 - k|) :
    ⌈rne (L.log 2 e * M)⌉ = ⌈M * Real.logb e 2⌉ := by
  have heR : (1 : ℝ) < e := by exact_mod_cast (by omega : 1 < e)
  have hn := abs_le.1 (hL.log_near (x := 2) (b := e) (by norm_num) heR)
  have h0 : 0 ≤ Real.logb e 2 := Real.logb_nonneg heR (by norm_num)
  have h1 : Real.logb e 2 ≤ 1 := by
    rw [Real.logb_le_iff_le_rpow heR (by norm_num), Real.rpow_one]
    exact_mod_cast (by omega : 2 ≤ e)
  have hM0 : (0 : ℝ) ≤ M := Nat.cast_nonneg _
  have hMR : (M : ℝ) ≤ 256 := by exact_mod_cast hM'
  have hd : |L.log 2 e * M - M * Real.logb e 2| ≤ 1e-8 := by
    have hdd : |L.log 2 e - Real.logb e 2| ≤ 1e-11 := by
      norm_num at hn ⊢
      rw [abs_le]; constructor <;> linarith
    rw [show L.log 2 e * M - M * Real.logb e 2 = (L.log 2 e - Real.logb e 2) * M by ring, abs_mul, abs_of_nonneg hM0]
    nlinarith
  have hB : |(M : ℝ) * Real.logb e 2| ≤ 256 := by
    rw [abs_of_nonneg (by positivity)]; nlinarith
  have hr := abs_le.1 (rne_near hd hB)
  generalize (M : ℝ) * Real.logb e 2 = y at *
  generalize rne (L.log 2 e * M) = x at *
  have h2 := Int.le_ceil y
  have h3 := Int.ceil_lt_add_one y
  have f1 := hfar ⌈y⌉
  have f2 := hfar (⌈y⌉ - 1)
  rw [abs_of_nonpos (by linarith)] at f1
  push_cast at f2
  rw [abs_of_nonneg (by linarith)] at f2
  norm_num at hr f1 f2
  rw [Int.ceil_eq_iff]
  constructor <;> linarith

end

/-- **C70**: at 80 to 256 bits of security, for widths 2 to 8, the S-boxes `x^3` to `x^64` and every modulus of at least `M + 2` bits, the
generator returns the numbers that the script of the Poseidon authors returns. -/
theorem C70_agree (L : Libm) (hL : L.Accurate) (M t e p : Nat) (allow : Bool) (hM : 80 ≤ M) (hM' : M ≤ 256) (ht : 2 ≤ t) (ht' : t ≤ 8)
    (he : 3 ≤ e) (he' : e ≤ 64) (hp : 2 ^ (M + 1) ≤ p) :
    roundsV1Generate L ⟨allow, M, t, p⟩ (log2Big L p) (.exponent e) =
      .ok ⟨(findFdRoundNumbers L p t e M).2, (findFdRoundNumbers L p t e M).1⟩ := by
  obtain ⟨A, T, hA, hT, h1, h2, h3, h4, h⟩ := findFd_eq hL hM hM' ht ht' he he' hp
  rw [h, roundsV1_large hL hM hM' ht ht' he he' hp hA hT h1 h2 h3 h4]

/-- **C70**, closed form: unless `M * log_e 2` is within `10⁻⁶` of an integer, the numbers are 8 full rounds and, before the margin,
`⌈M log_e 2⌉ + ⌈log_e t⌉ - 5` partial rounds. -/
theorem C70_value (L : Libm) (hL : L.Accurate) (M t e p : Nat) (hM : 80 ≤ M) (hM' : M ≤ 256) (ht : 2 ≤ t) (ht' : t ≤ 8)
    (he : 3 ≤ e) (he' : e ≤ 64) (hp : 2 ^ (M + 1) ≤ p) (hfar : ∀ k : ℤ, 1e-6 < |M * Real.logb e 2 - k|) :
    findFdRoundNumbers L p t e M =
      (8, Spec.partialWithMargin (⌈M * Real.logb e 2⌉ + (if t ≤ e then 1 else 2) - 5).toNat) := by
  obtain ⟨A, T, hA, hT, h1, h2, h3, h4, h⟩ := findFd_eq hL hM hM' ht ht' he he' hp
  rw [ceil_exact hL hM' he he' hfar] at hA
  rw [(ceil_add_log hL (A := 0) ht ht' he he' (by norm_num)).2] at hT
  rw [h, ceil_margin, hA, hT]
  congr 4
  omega

/-- **C70**, different mathematical libraries: under the same condition the two programs may use different ones. -/
theorem C70_libraries (L L' : Libm) (hL : L.Accurate) (hL' : L'.Accurate) (M t e p : Nat) (allow : Bool) (hM : 80 ≤ M) (hM' : M ≤ 256)
    (ht : 2 ≤ t) (ht' : t ≤ 8) (he : 3 ≤ e) (he' : e ≤ 64) (hp : 2 ^ (M + 1) ≤ p) (hfar : ∀ k : ℤ, 1e-6 < |M * Real.logb e 2 - k|) :
    roundsV1Generate L ⟨allow, M, t, p⟩ (log2Big L p) (.exponent e) =
      .ok ⟨(findFdRoundNumbers L' p t e M).2, (findFdRoundNumbers L' p t e M).1⟩ := by
  rw [C70_agree L hL M t e p allow hM hM' ht ht' he he' hp, C70_value L hL M t e p hM hM' ht ht' he he' hp hfar,
    C70_value L' hL' M t e p hM hM' ht ht' he he' hp hfar]

/-- **C70**, this repository: for the field of decaf377, 128 bits and `x^17` the script returns the shipped round numbers. -/
theorem C70_shipped (L : Libm) (hL : L.Accurate) (t : Nat) (ht : 2 ≤ t) (ht' : t ≤ 8) : findFdRoundNumbers L q t 17 128 = (8, 31) := by
  have h := C70_agree L hL 128 t 17 q true (by norm_num) (by norm_num) ht ht' (by norm_num) (by norm_num) (by norm_num [q])
  rw [C39_rounds L hL true t ht ht'] at h
  obtain ⟨h1, h2⟩ := RoundNumbers.mk.inj (Except.ok.inj h)
  exact Prod.ext h2.symm h1.symm

/-! ### Concrete cases -/

/-- The hypotheses are met by the correctly rounded library. -/
example : findFdRoundNumbers roundedLibm q 3 17 128 = (8, 31) := C70_shipped _ roundedLibm_accurate 3 (by norm_num) (by norm_num)

/-- The condition of the closed form is met at 128 bits for `x^17`. -/
theorem far_17 (k : ℤ) : 1e-6 < |((128 : ℕ) : ℝ) * Real.logb ((17 : ℕ) : ℝ) 2 - k| := by
  have g2 := Real.log_two_gt_d9
  have l2 := Real.log_two_lt_d9
  have hl := log_17_gt
  have hu := log_17_lt
  have h1 : (31.2 : ℝ) ≤ ((128 : ℕ) : ℝ) * Real.logb ((17 : ℕ) : ℝ) 2 := by
    push_cast
    rw [Real.logb, ← mul_div_assoc, le_div_iff₀ (by linarith)]
    norm_num at *; linarith
  have h2 : ((128 : ℕ) : ℝ) * Real.logb ((17 : ℕ) : ℝ) 2 ≤ 31.5 := by
    push_cast
    rw [Real.logb, ← mul_div_assoc, div_le_iff₀ (by linarith)]
    norm_num at *; linarith
  generalize ((128 : ℕ) : ℝ) * Real.logb ((17 : ℕ) : ℝ) 2 = x at *
  norm_num at h1 h2
  rcases le_or_gt k 31 with hk | hk
  · have : (k : ℝ) ≤ 31 := by exact_mod_cast hk
    rw [abs_of_nonneg (by linarith)]; norm_num; linarith
  · have : (32 : ℝ) ≤ k := by exact_mod_cast hk
    rw [abs_of_nonpos (by linarith)]; norm_num; linarith

example : roundsV1Generate exactLibm ⟨true, 128, 5, q⟩ (log2Big exactLibm q) (.exponent 17) =
    .ok ⟨(findFdRoundNumbers roundedLibm q 5 17 128).2, (findFdRoundNumbers roundedLibm q 5 17 128).1⟩ :=
  C70_libraries _ _ exactLibm_accurate roundedLibm_accurate 128 5 17 q true (by norm_num) (by norm_num) (by norm_num) (by norm_num)
    (by norm_num) (by norm_num) (by norm_num [q]) far_17

/-- A width larger than the exponent. -/
example (p : Nat) (hp : 2 ^ 255 ≤ p) : roundsV1Generate roundedLibm ⟨true, 128, 8, p⟩ (log2Big roundedLibm p) (.exponent 3) =
    .ok ⟨(findFdRoundNumbers roundedLibm p 8 3 128).2, (findFdRoundNumbers roundedLibm p 8 3 128).1⟩ :=
  C70_agree _ roundedLibm_accurate 128 8 3 p true (by norm_num) (by norm_num) (by norm_num) (by norm_num) (by norm_num) (by norm_num)
    (le_trans (Nat.pow_le_pow_right (by norm_num) (by norm_num)) hp)

end Poseidon
