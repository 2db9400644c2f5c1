import Verif.Props.Rounds
import Verif.Proofs.GenFloatMono
import Verif.Spec.PaperTables

/-!
# Interval arithmetic for the tables of the paper (C69)
-/

set_option linter.unusedSectionVars false

namespace Poseidon

/-- `f64::log2` is monotone and exact on the powers of two it is given (implied by correct rounding). -/
structure Libm.Regular (L : Libm) : Prop where
  mono : ∀ x y, 1 ≤ x → x ≤ y → L.log2 x ≤ L.log2 y
  pow : ∀ k : Nat, k ≤ 50 → L.log2 (2 ^ k) = k

theorem roundedLibm_regular : roundedLibm.Regular where
  mono x y hx h := rne_mono (Real.logb_le_logb_of_le (by norm_num) (by linarith) h)
  pow k hk := by
    show rne (Real.logb 2 (2 ^ k)) = k
    rw [Real.logb_pow, Real.logb_self_eq_one (by norm_num), mul_one]
    exact rne_natCast (by omega)

theorem exactLibm_regular : exactLibm.Regular where
  mono x y hx h := Real.logb_le_logb_of_le (by norm_num) (by linarith) h
  pow k hk := by
    show Real.logb 2 (2 ^ k) = k
    rw [Real.logb_pow, Real.logb_self_eq_one (by norm_num), mul_one]

/-- The computed `log_2_p` of an `n`-bit number is between `n - 1` and `n`. -/
theorem Libm.Regular.log2Big_bounds {L : Libm} (hL : L.Regular) {p n : Nat} (hn : 1 ≤ n) (hn' : n ≤ 2 ^ 53) (h1 : 2 ^ (n - 1) ≤ p)
    (h2 : p < 2 ^ n) : ((n - 1 : ℕ) : ℝ) ≤ log2Big L p ∧ log2Big L p ≤ n := by
  have hp : 1 ≤ p := le_trans Nat.one_le_two_pow h1
  obtain ⟨k, x, e1, e2, e3, e4, -⟩ := C43_blocks p hp
  have hk : 48 * k ≤ n - 1 := by
    by_contra hlt
    have : x = 0 := by
      rw [e2]
      exact Nat.div_eq_of_lt (h2.trans_le (Nat.pow_le_pow_right (by norm_num) (by omega)))
    omega
  have hx1 : 2 ^ (n - 1 - 48 * k) ≤ x := by
    rw [e2, Nat.le_div_iff_mul_le (by positivity), ← pow_add]
    rwa [Nat.sub_add_cancel hk]
  have hx2 : x ≤ 2 ^ (n - 48 * k) := by
    rw [e2]
    apply Nat.le_of_lt
    rw [Nat.div_lt_iff_lt_mul (by positivity), ← pow_add, Nat.sub_add_cancel (by omega)]
    exact h2
  have hsz : n - 1 - 48 * k ≤ 50 := by
    have := hx1.trans e4
    exact (Nat.pow_le_pow_iff_right (by norm_num)).1 this
  unfold log2Big
  rw [e1]
  dsimp only
  rw [rne_natCast (n := x) (by omega), rne_natCast (n := 48 * k) (by omega)]
  have hx1R : (2 : ℝ) ^ (n - 1 - 48 * k) ≤ x := by exact_mod_cast hx1
  have hx2R : (x : ℝ) ≤ 2 ^ (n - 48 * k) := by exact_mod_cast hx2
  have hx3R : (1 : ℝ) ≤ x := by exact_mod_cast e3
  have hlo : ((n - 1 - 48 * k : ℕ) : ℝ) ≤ L.log2 x := by
    rw [← hL.pow _ hsz]
    exact hL.mono _ _ (one_le_pow₀ (by norm_num)) hx1R
  have hhi : L.log2 x ≤ ((n - 48 * k : ℕ) : ℝ) := by
    by_cases h50 : n - 48 * k ≤ 50
    · rw [← hL.pow _ h50]
      exact hL.mono _ _ hx3R hx2R
    · have e51 : n - 48 * k = 51 := by omega
      have : L.log2 x ≤ L.log2 (2 ^ 50) := hL.mono _ _ hx3R (by exact_mod_cast e4)
      rw [hL.pow 50 le_rfl] at this
      rw [e51]
      push_cast at this ⊢
      linarith
  constructor
  · have := rne_mono (x := ((n - 1 : ℕ) : ℝ)) (y := ((48 * k : ℕ) : ℝ) + L.log2 x) (by
      have : ((n - 1 : ℕ) : ℝ) = ((48 * k : ℕ) : ℝ) + ((n - 1 - 48 * k : ℕ) : ℝ) := by
        rw [← Nat.cast_add]; congr 1; omega
      linarith)
    rwa [rne_natCast (by omega)] at this
  · have := rne_mono (y := (n : ℝ)) (x := ((48 * k : ℕ) : ℝ) + L.log2 x) (by
      have : (n : ℝ) = ((48 * k : ℕ) : ℝ) + ((n - 48 * k : ℕ) : ℝ) := by
        rw [← Nat.cast_add]; congr 1; omega
      linarith)
    rwa [rne_natCast hn'] at this

/-! ### Logarithms -/

theorem log_3_gt : (1.0985 : ℝ) < Real.log 3 := by
  have h : Real.log (2 ^ 19) + Real.log (531441 / 524288) = 12 * Real.log 3 := by
    rw [← Real.log_mul (by norm_num) (by norm_num), show (2 ^ 19 * (531441 / 524288) : ℝ) = 3 ^ 12 by norm_num, Real.log_pow]
    norm_num
  have h2 : Real.log (2 ^ 19) = 19 * Real.log 2 := by rw [Real.log_pow]; norm_num
  have h3 := Real.one_sub_inv_le_log_of_pos (x := 531441 / 524288) (by norm_num)
  have h4 := Real.log_two_gt_d9
  norm_num at h3 h2 h h4 ⊢
  linarith

theorem log_3_lt : Real.log 3 < 1.0987 := by
  have h : Real.log (2 ^ 19) + Real.log (531441 / 524288) = 12 * Real.log 3 := by
    rw [← Real.log_mul (by norm_num) (by norm_num), show (2 ^ 19 * (531441 / 524288) : ℝ) = 3 ^ 12 by norm_num, Real.log_pow]
    norm_num
  have h2 : Real.log (2 ^ 19) = 19 * Real.log 2 := by rw [Real.log_pow]; norm_num
  have h3 := Real.log_le_sub_one_of_pos (x := 531441 / 524288) (by norm_num)
  have h4 := Real.log_two_lt_d9
  norm_num at h3 h2 h h4 ⊢
  linarith

theorem log_5_gt : (1.6093 : ℝ) < Real.log 5 := by
  have h : Real.log (2 ^ 7) + Real.log (125 / 128) = 3 * Real.log 5 := by
    rw [← Real.log_mul (by norm_num) (by norm_num), show (2 ^ 7 * (125 / 128) : ℝ) = 5 ^ 3 by norm_num, Real.log_pow]
    norm_num
  have h2 : Real.log (2 ^ 7) = 7 * Real.log 2 := by rw [Real.log_pow]; norm_num
  have h3 := Real.one_sub_inv_le_log_of_pos (x := 125 / 128) (by norm_num)
  have h4 := Real.log_two_gt_d9
  norm_num at h3 h2 h h4 ⊢
  linarith

theorem log_5_lt : Real.log 5 < 1.6096 := by
  have h : Real.log (2 ^ 7) + Real.log (125 / 128) = 3 * Real.log 5 := by
    rw [← Real.log_mul (by norm_num) (by norm_num), show (2 ^ 7 * (125 / 128) : ℝ) = 5 ^ 3 by norm_num, Real.log_pow]
    norm_num
  have h2 : Real.log (2 ^ 7) = 7 * Real.log 2 := by rw [Real.log_pow]; norm_num
  have h3 := Real.log_le_sub_one_of_pos (x := 125 / 128) (by norm_num)
  have h4 := Real.log_two_lt_d9
  norm_num at h3 h2 h h4 ⊢
  linarith

/-! Bounds for the logarithms of the widths of the tables. -/

theorem log_width_2 : (0.693 : ℝ) ≤ Real.log 2 ∧ Real.log 2 ≤ 0.694 := by
  have g := Real.log_two_gt_d9
  have l := Real.log_two_lt_d9
  norm_num at g l ⊢
  constructor <;> linarith

theorem log_two_pow (k : Nat) : Real.log (2 ^ k) = k * Real.log 2 := Real.log_pow _ _

theorem log_width_4 : (1.386 : ℝ) ≤ Real.log 4 ∧ Real.log 4 ≤ 1.387 := by
  have g := Real.log_two_gt_d9
  have l := Real.log_two_lt_d9
  have e := log_two_pow 2
  norm_num at g l e ⊢
  constructor <;> linarith

theorem log_width_6 : (1.791 : ℝ) ≤ Real.log 6 ∧ Real.log 6 ≤ 1.792 := by
  have g := Real.log_two_gt_d9
  have l := Real.log_two_lt_d9
  have g3 := log_3_gt
  have l3 := log_3_lt
  have e : Real.log 6 = Real.log 2 + Real.log 3 := by rw [← Real.log_mul (by norm_num) (by norm_num)]; norm_num
  norm_num at g l g3 l3 ⊢
  constructor <;> linarith

theorem log_width_8 : (2.079 : ℝ) ≤ Real.log 8 ∧ Real.log 8 ≤ 2.080 := by
  have g := Real.log_two_gt_d9
  have l := Real.log_two_lt_d9
  have e := log_two_pow 3
  norm_num at g l e ⊢
  constructor <;> linarith

theorem log_width_16 : (2.772 : ℝ) ≤ Real.log 16 ∧ Real.log 16 ≤ 2.773 := by
  have g := Real.log_two_gt_d9
  have l := Real.log_two_lt_d9
  have e := log_two_pow 4
  norm_num at g l e ⊢
  constructor <;> linarith

/-! ### Exponents -/

section
variable {L : Libm} {M t p e : Nat} {allow : Bool} {lp : ℝ}

/-- The statistical bound is 6. -/
theorem statistical_six {C : ℝ} {n : Nat} (hM : M ≤ 256) (ht : 1 ≤ t) (ht' : t ≤ 2 ^ 50) (he : 2 ≤ e) (he' : e ≤ 2 ^ 32)
    (hC : L.log2 ((e - 1 : ℕ) : ℝ) ≤ C) (hlp : (n : ℝ) ≤ lp) (hn : C ≤ n) (h : (M : ℝ) ≤ (n - C) * (t + 1) * 0.99) :
    statisticalAttackFullRounds L ⟨allow, M, t, p⟩ lp (.exponent e) = 6 := by
  unfold statisticalAttackFullRounds
  dsimp only
  rw [if_pos]
  have re : rne (e : ℝ) = e := rne_natCast (by omega)
  have re1 : rne ((e : ℝ) - 1) = ((e - 1 : ℕ) : ℝ) := by
    rw [← rne_natCast (n := e - 1) (by omega)]
    congr 1
    rw [Nat.cast_sub (by omega)]; simp
  have rt1 : rne ((t : ℝ) + 1) = t + 1 := by
    have := rne_natCast (n := t + 1) (by omega)
    push_cast at this; exact this
  rw [rne_natCast (n := M) (by omega), rne_natCast (n := t) (by omega), re, re1, rt1]
  have hfl : (n : ℝ) ≤ ((⌊lp⌋ : ℤ) : ℝ) := by exact_mod_cast Int.le_floor.2 (by exact_mod_cast hlp)
  have h0 : 0 ≤ (n : ℝ) - C := by linarith
  have h1 : (n - C) * 0.9999 ≤ rne (((⌊lp⌋ : ℤ) : ℝ) - L.log2 ((e - 1 : ℕ) : ℝ)) := le_rne_of (a := n - C) (by linarith) h0 le_rfl
  have ht0 : (0 : ℝ) ≤ (t : ℝ) + 1 := by positivity
  have hp : 0 ≤ (n - C) * ((t : ℝ) + 1) := mul_nonneg h0 ht0
  refine le_rne_of (a := (n - C) * 0.9999 * (t + 1)) (mul_le_mul_of_nonneg_right h1 ht0) (by positivity) ?_
  nlinarith

theorem interpolation_exponent {a b c d m1 m2 : ℝ} {A A' B B' : Nat} (hM : M ≤ 256) (ht : t ≤ 2 ^ 50) (he : e ≤ 2 ^ 32)
    (ha0 : 0 ≤ a) (ha : a ≤ L.log 2 e) (hb : L.log 2 e ≤ b) (hc0 : 0 ≤ c) (hc : c ≤ L.log t e) (hd : L.log t e ≤ d)
    (hm0 : 0 ≤ m1) (hm1 : m1 ≤ min (M : ℝ) lp) (hm2 : min (M : ℝ) lp ≤ m2)
    (hA : (A : ℝ) < a * m1 * 0.9999 + 1) (hA' : b * m2 * 1.0001 ≤ A') (hB : (B : ℝ) < (A + c) * 0.9999 + 1)
    (hB' : (A' + d) * 1.0001 ≤ B') :
    B ≤ algebraicAttackInterpolation L ⟨allow, M, t, p⟩ lp (.exponent e) ∧
      algebraicAttackInterpolation L ⟨allow, M, t, p⟩ lp (.exponent e) ≤ B' := by
  unfold algebraicAttackInterpolation
  dsimp only
  rw [rne_natCast (n := M) (by omega), rne_natCast (n := t) (by omega), rne_natCast (n := e) (by omega)]
  generalize min (M : ℝ) lp = m at *
  have hprod1 : a * m1 ≤ L.log 2 e * m := mul_le_mul ha hm1 hm0 (ha0.trans ha)
  have hprod2 : L.log 2 e * m ≤ b * m2 := mul_le_mul hb hm2 (hm0.trans hm1) ((ha0.trans ha).trans hb)
  have hp0 : 0 ≤ a * m1 := mul_nonneg ha0 hm0
  have hp0' : 0 ≤ b * m2 := by linarith
  have h1 : a * m1 * 0.9999 ≤ rne (L.log 2 e * m) := le_rne_of hprod1 hp0 le_rfl
  have h2 : rne (L.log 2 e * m) ≤ A' := rne_le_of hprod2 hp0' hA'
  have h3 : (A : ℤ) ≤ ⌈rne (L.log 2 e * m)⌉ := by
    have : (A : ℤ) - 1 < ⌈rne (L.log 2 e * m)⌉ := by
      rw [Int.lt_ceil]; push_cast; linarith
    omega
  have h4 : ⌈rne (L.log 2 e * m)⌉ ≤ (A' : ℤ) := Int.ceil_le.2 (by exact_mod_cast h2)
  have h3R : (A : ℝ) ≤ ((⌈rne (L.log 2 e * m)⌉ : ℤ) : ℝ) := by exact_mod_cast h3
  have h4R : ((⌈rne (L.log 2 e * m)⌉ : ℤ) : ℝ) ≤ (A' : ℝ) := by exact_mod_cast h4
  generalize ((⌈rne (L.log 2 e * m)⌉ : ℤ) : ℝ) = z at *
  have hA0 : (0 : ℝ) ≤ A := Nat.cast_nonneg _
  have h5 : (A + c) * 0.9999 ≤ rne (z + L.log t e) := le_rne_of (by linarith) (by linarith) le_rfl
  have h6 : rne (z + L.log t e) ≤ B' := rne_le_of (b := A' + d) (by linarith) (by linarith) hB'
  constructor
  · have : (B : ℤ) - 1 < ⌈rne (z + L.log t e)⌉ := by
      rw [Int.lt_ceil]; push_cast; linarith
    rw [asUsize]
    apply Nat.le_floor
    have h7 : (B : ℤ) ≤ ⌈rne (z + L.log t e)⌉ := by omega
    exact_mod_cast h7
  · exact asUsize_ceil_le h6

theorem grobner_exponent {b : ℝ} {B g : Nat} (hM : M ≤ 256) (ht1 : 1 ≤ t) (ht : t ≤ 2 ^ 50) (he : e ≤ 2 ^ 32)
    (ha : 0 ≤ L.log 2 e) (hb : L.log 2 e ≤ b) (hG1 : b * (M / 3) * 1.001 ≤ B)
    (hG2 : ((t : ℝ) + b * M / (t + 1)) * 1.001 ≤ B + 1)
    (hg : algebraicAttackGrobnerBasisV1 L ⟨allow, M, t, p⟩ lp (.exponent e) = .ok g) : g ≤ B := by
  rw [algebraicAttackGrobnerBasisV1, usub, if_pos (show 1 ≤ t from ht1)] at hg
  obtain rfl := Except.ok.inj hg
  apply asUsize_floor_le
  dsimp only
  have rt1 : rne ((t : ℝ) + 1) = t + 1 := by
    have := rne_natCast (n := t + 1) (by omega)
    push_cast at this; exact this
  rw [rne_natCast (n := M) (by omega), rne_natCast (n := t) (by omega), rne_natCast (n := e) (by omega), rt1,
    rne_natCast (n := t - 1) (by omega)]
  have hM0 : (0 : ℝ) ≤ M := Nat.cast_nonneg _
  have hb0 : 0 ≤ b := ha.trans hb
  have ht0 : (0 : ℝ) < (t : ℝ) + 1 := by positivity
  apply max_le
  · have h1 : rne ((M : ℝ) / 3) ≤ M / 3 * 1.0001 := rne_le_of le_rfl (by positivity) le_rfl
    have h2 := (min_le_left (rne ((M : ℝ) / 3)) (rne (lp / 2))).trans h1
    have h3 : L.log 2 e * min (rne ((M : ℝ) / 3)) (rne (lp / 2)) ≤ b * (M / 3 * 1.0001) := by
      refine (mul_le_mul_of_nonneg_left h2 ha).trans (mul_le_mul_of_nonneg_right hb (by positivity))
    refine rne_le_of h3 (by positivity) (le_trans ?_ hG1)
    have : 0 ≤ b * (M / 3) := by positivity
    nlinarith
  · have h1 : rne (L.log 2 e * M) ≤ b * M * 1.0001 :=
      rne_le_of (mul_le_mul_of_nonneg_right hb hM0) (by positivity) le_rfl
    have h2 : rne (rne (L.log 2 e * M) / ((t : ℝ) + 1)) ≤ b * M / (t + 1) * 1.0001 * 1.0001 := by
      refine rne_le_of (b := b * M * 1.0001 / (t + 1)) (div_le_div_of_nonneg_right h1 ht0.le) (by positivity) (le_of_eq ?_)
      ring
    have h3 := (min_le_left (rne (rne (L.log 2 e * M) / ((t : ℝ) + 1))) (rne (rne (L.log 2 e * lp) / 2))).trans h2
    have hc : ((t - 1 : ℕ) : ℝ) = t - 1 := by rw [Nat.cast_sub ht1]; simp
    have ht1R : (1 : ℝ) ≤ t := by exact_mod_cast ht1
    rw [hc]
    have hX : 0 ≤ b * M / ((t : ℝ) + 1) := by positivity
    refine rne_le_of (b := (t - 1) + b * M / (t + 1) * 1.0001 * 1.0001) (by linarith) (by nlinarith) ?_
    nlinarith

/-- The round numbers from bounds on the logarithms. -/
theorem rounds_exponent {a b c d m1 m2 C : ℝ} {n A A' B B' : Nat} (hM : M ≤ 256) (ht1 : 2 ≤ t) (ht : t ≤ 2 ^ 50) (he2 : 2 ≤ e)
    (he : e ≤ 2 ^ 32)
    (hC : L.log2 ((e - 1 : ℕ) : ℝ) ≤ C) (hlp : (n : ℝ) ≤ lp) (hn : C ≤ n) (h : (M : ℝ) ≤ (n - C) * (t + 1) * 0.99)
    (ha0 : 0 ≤ a) (ha : a ≤ L.log 2 e) (hb : L.log 2 e ≤ b) (hc0 : 0 ≤ c) (hc : c ≤ L.log t e) (hd : L.log t e ≤ d)
    (hm0 : 0 ≤ m1) (hm1 : m1 ≤ min (M : ℝ) lp) (hm2 : min (M : ℝ) lp ≤ m2)
    (hA : (A : ℝ) < a * m1 * 0.9999 + 1) (hA' : b * m2 * 1.0001 ≤ A') (hB : (B : ℝ) < (A + c) * 0.9999 + 1)
    (hB' : (A' + d) * 1.0001 ≤ B') (hG1 : b * (M / 3) * 1.001 ≤ B)
    (hG2 : ((t : ℝ) + b * M / (t + 1)) * 1.001 ≤ B + 1) (h6 : 6 ≤ B) (h400 : B' < 400) :
    ∃ I, B ≤ I ∧ I ≤ B' ∧ roundsV1Generate L ⟨allow, M, t, p⟩ lp (.exponent e) = .ok ⟨(43 * (I - 5) + 39) / 40, 8⟩ := by
  obtain ⟨h1, h2⟩ := interpolation_exponent (allow := allow) (p := p) hM ht he ha0 ha hb hc0 hc hd hm0 hm1 hm2 hA hA' hB hB'
  obtain ⟨g, hg⟩ := grobnerV1_ok L (input := ⟨allow, M, t, p⟩) lp (.exponent e) (show 1 ≤ t by omega)
  have hgB := grobner_exponent hM (by omega) ht he (ha0.trans ha) hb hG1 hG2 hg
  refine ⟨_, h1, h2, ?_⟩
  rw [roundsV1_exponent (input := ⟨allow, M, t, p⟩) hM ht1 (by unfold usizeMax; dsimp only; omega) hg (by omega),
    statistical_six hM (by omega) ht he2 he hC hlp hn h]
  congr 2
  omega

end

/-! ### The inverse S-box -/

/-- Closed form of `v1_generate` for the inverse S-box (`roundsV1_inverse` with its value). -/
theorem roundsV1_inverse_eq {L : Libm} {input : GenInput} {lp : ℝ} {g : Nat} (hM : input.security ≤ 256)
    (ht' : 101 * input.t + 429 < usizeMax) (fl : Nat → Nat)
    (hfl0 : ∀ k : Nat, asUsize ⌊rne (rne k * L.log2 (rne input.t))⌋ = fl k)
    (hfl : ∀ S k, S = 6 ∨ S = 10 → 1 ≤ k → S + k < 100 → 43 * fl (S + k) ≤ 43 * fl S + 40 * (input.t * k))
    (hg : algebraicAttackGrobnerBasisV1 L input lp .inverse = .ok g)
    (hB : max (algebraicAttackInterpolation L input lp .inverse) g < 399) :
    roundsV1Generate L input lp .inverse =
      .ok ⟨(43 * max 1 (max (algebraicAttackInterpolation L input lp .inverse) g + 1
          - fl (statisticalAttackFullRounds L input lp .inverse)) + 39) / 40, statisticalAttackFullRounds L input lp .inverse + 2⟩ := by
  have hS := statistical_cases L input lp .inverse
  rw [roundsV1Generate, if_neg (by omega)]
  refine search_minFull (S := statisticalAttackFullRounds L input lp .inverse) (fl := fl)
    (B := max (algebraicAttackInterpolation L input lp .inverse) g)
    (fun r _ => ?_) ht' (by omega) (by omega) (by omega) (fun k h1 h2 => hfl _ k hS h1 h2)
  rw [isSecureV1_eq L lp _ hg]
  congr 1
  rw [decide_eq_decide]
  simp only [roundMeasure, inverseRounds, RoundNumbers.full, RoundNumbers.partialRounds, hfl0]
  omega

theorem rounds_inverse {L : Libm} {M t p : Nat} {allow : Bool} {lp m1 : ℝ} {n j h F : Nat} (hM : M ≤ 256) (ht1 : 2 ≤ t)
    (ht : t ≤ 2 ^ 50) (hlp : (n : ℝ) ≤ lp) (hn : 2 ≤ n) (hs : (M : ℝ) ≤ (n - 2) * (t + 1) * 0.99)
    (hj : ⌈L.log2 t⌉ = (j : ℤ)) (hj' : j ≤ 50) (hF : asUsize ⌊rne (((6 : ℕ) : ℝ) * L.log2 t)⌋ = F)
    (hfl : ∀ S k, S = 6 ∨ S = 10 → 1 ≤ k → S + k < 100 → 43 * asUsize ⌊rne (rne ((S + k : ℕ) : ℝ) * L.log2 (rne t))⌋ ≤
      43 * asUsize ⌊rne (rne (S : ℝ) * L.log2 (rne t))⌋ + 40 * (t * k))
    (hm0 : 0 ≤ m1) (hm1 : m1 ≤ min (M : ℝ) lp) (hm2 : min (M : ℝ) lp ≤ 2 * h) (hh : (h : ℝ) < 0.5 * m1 * 0.9999 + 1)
    (hh' : h ≤ 300) (hG : (M : ℝ) / (t + 1) * 1.001 ≤ (h : ℝ) - t + 1) :
    roundsV1Generate L ⟨allow, M, t, p⟩ lp .inverse = .ok ⟨(43 * max 1 (j + h + 1 - F) + 39) / 40, 8⟩ := by
  have rM : rne (M : ℝ) = M := rne_natCast (by omega)
  have rt : rne (t : ℝ) = t := rne_natCast (by omega)
  have rt1 : rne ((t : ℝ) + 1) = t + 1 := by
    have := rne_natCast (n := t + 1) (by omega)
    push_cast at this; exact this
  have hS : statisticalAttackFullRounds L ⟨allow, M, t, p⟩ lp .inverse = 6 := by
    unfold statisticalAttackFullRounds
    dsimp only
    rw [if_pos]
    rw [rM, rt, rt1]
    have hfl : (n : ℝ) ≤ ((⌊lp⌋ : ℤ) : ℝ) := by exact_mod_cast Int.le_floor.2 (by exact_mod_cast hlp)
    have hnR : (2 : ℝ) ≤ n := by exact_mod_cast hn
    have h0 : 0 ≤ (n : ℝ) - 2 := by linarith
    have h1 : (n - 2) * 0.9999 ≤ rne (((⌊lp⌋ : ℤ) : ℝ) - 2) := le_rne_of (a := n - 2) (by linarith) h0 le_rfl
    have ht0 : (0 : ℝ) ≤ (t : ℝ) + 1 := by positivity
    have hp : 0 ≤ (n - 2) * ((t : ℝ) + 1) := mul_nonneg h0 ht0
    refine le_rne_of (a := (n - 2) * 0.9999 * (t + 1)) (mul_le_mul_of_nonneg_right h1 ht0) (by positivity) ?_
    nlinarith
  have hhalf : ⌈rne (0.5 * min (M : ℝ) lp)⌉ = (h : ℤ) := by
    rw [Int.ceil_eq_iff]
    constructor
    · have := le_rne_of (x := 0.5 * min (M : ℝ) lp) (a := 0.5 * m1) (c := 0.5 * m1 * 0.9999) (by linarith) (by positivity) le_rfl
      push_cast; linarith
    · have := rne_mono (x := 0.5 * min (M : ℝ) lp) (y := h) (by linarith)
      rwa [rne_natCast (by omega)] at this
  have hsum : rne ((j : ℝ) + h) = ((j + h : ℕ) : ℝ) := by
    have := rne_natCast (n := j + h) (by omega)
    push_cast at this ⊢; exact this
  have hI : algebraicAttackInterpolation L ⟨allow, M, t, p⟩ lp .inverse = j + h := by
    unfold algebraicAttackInterpolation
    dsimp only
    rw [rM, rt, hj, hhalf]
    simp only [Int.cast_natCast]
    rw [hsum, asUsize, Nat.floor_natCast]
  obtain ⟨g, hg⟩ := grobnerV1_ok L (input := ⟨allow, M, t, p⟩) lp .inverse (show 1 ≤ t by omega)
  have hgB : g ≤ j + h := by
    have hg' := hg
    rw [algebraicAttackGrobnerBasisV1, usub, if_pos (show 1 ≤ t by omega)] at hg'
    obtain rfl := Except.ok.inj hg'
    apply asUsize_floor_le
    dsimp only
    rw [rM, rt, rt1, hj, hhalf, rne_natCast (n := t - 1) (by omega)]
    simp only [Int.cast_natCast]
    apply max_le
    · rw [add_comm, hsum]
    · have h1 : rne (((t - 1 : ℕ) : ℝ) + j) = ((t - 1 + j : ℕ) : ℝ) := by
        have := rne_natCast (n := t - 1 + j) (by omega)
        rw [← this]; congr 1; push_cast; ring
      rw [h1]
      have h2 : rne ((M : ℝ) / (t + 1)) ≤ (h : ℝ) - t + 1 :=
        rne_le_of (b := M / (t + 1)) le_rfl (by positivity) (le_trans (by
          have : (0 : ℝ) ≤ M / (t + 1) := by positivity
          nlinarith) hG)
      have h3 : ((⌈rne ((M : ℝ) / (t + 1))⌉ : ℤ) : ℝ) ≤ ((h - t + 1 : ℤ) : ℝ) := by
        exact_mod_cast Int.ceil_le.2 (by push_cast; exact h2)
      have h4 := (min_le_left ((⌈rne ((M : ℝ) / (t + 1))⌉ : ℤ) : ℝ) ((⌈rne (0.5 * lp)⌉ : ℤ) : ℝ)).trans h3
      have h5 := rne_mono (x := ((t - 1 + j : ℕ) : ℝ) + min ((⌈rne ((M : ℝ) / (t + 1))⌉ : ℤ) : ℝ) ((⌈rne (0.5 * lp)⌉ : ℤ) : ℝ))
        (y := ((j + h : ℕ) : ℝ)) (by
          have : ((t - 1 : ℕ) : ℝ) = t - 1 := by rw [Nat.cast_sub (by omega)]; simp
          push_cast at h4 ⊢
          rw [this]
          linarith)
      rwa [rne_natCast (n := j + h) (by omega)] at h5
  rw [roundsV1_inverse_eq (input := ⟨allow, M, t, p⟩) hM (by unfold usizeMax; dsimp only; omega) _ (fun k => rfl) hfl hg (by omega), hS, hI]
  dsimp only
  rw [rt, rne_natCast (n := 6) (by norm_num), hF, max_eq_left hgB]

end Poseidon
