import Verif.Props.CalcRoundsScript
import Verif.Props.Reference
import Verif.Props.CircuitHash
import Verif.Props.GenerateV1

/-!
# The whole round number script of the Poseidon authors (C84): powers, the fields of this project, and a difference to the generator
-/

set_option linter.unusedSectionVars false

namespace Poseidon

open R1cs Authors

/-! ### Powers -/

theorem fdPure_eq (sat : Nat → Nat → Bool) (margin : Nat → Nat) (t : Nat) (st : FdState × Nat) (f : Nat) :
    fdPure sat (fun rF rP => getSboxCost rF rP t) 2 margin st f = fdBody sat margin t st f := rfl

/-- The program of `CalcRounds.lean` (C70) is this one with the margin and the S-box cost. -/
theorem C84_extends (L : Libm) (p t e M : Nat) (he : 2 ≤ e) :
    findRoundNumbers L p t e M sboxCostFn true = some (findFdRoundNumbers L p t e M) := by
  unfold findRoundNumbers findFdRoundNumbers fdSearch
  rw [satInequiv_exponent L p t M e he, fdLoops_pure]
  have h1 : mgOf true pyMargin = pyMargin := by funext n; rfl
  have h2 : fdPure (fun rF rP => satInequivAlpha L p t rF rP e M) (fun rF rP => sboxCostFn rF rP (permutationSize L p t) t) (incOf true) pyMargin =
      fdBody (fun rF rP => satInequivAlpha L p t rF rP e M) pyMargin t := by
    funext st f; rfl
  unfold fdOuter
  rw [h1, h2]
  simp only [Option.bind_eq_bind, Option.bind_some, Option.pure_def]

/-- The search for large moduli, with and without the margin. -/
theorem script_large {L : Libm} (hL : L.Accurate) {p t e M A T : Nat} (hM : 80 ≤ M) (hM' : M ≤ 256) (ht : 2 ≤ t) (ht' : t ≤ 8) (he : 3 ≤ e)
    (he' : e ≤ 64) (hp : 2 ^ (M + 1) ≤ p) (hA : ⌈rne (L.log 2 e * M)⌉ = A) (hT : ⌈L.log t e⌉ = T) (h6 : 6 ≤ A + T) (h400 : A + T < 400) (on : Bool) :
    findRoundNumbers L p t e M sboxCostFn on = some (scriptPair on (A + T - 5)) :=
  findRoundNumbers_exponent on (by omega) ht (fun f ρ => by
    rw [satInequivAlpha_eq hL hM hM' ht ht' he he' hp, hA, hT, decide_eq_decide]; omega) h6 h400

/-- **C84**, powers: at 80 to 256 bits of security, for widths 2 to 8, `x^3` to `x^64` and every modulus of at least `M + 2` bits, the script
returns 6 full rounds and some number of partial rounds without the margin, and 8 full rounds and 7.5 % more partial rounds with it; the
latter are the numbers of the generator. -/
theorem C84_exponent (L : Libm) (hL : L.Accurate) (M t e p : Nat) (allow : Bool) (hM : 80 ≤ M) (hM' : M ≤ 256) (ht : 2 ≤ t) (ht' : t ≤ 8)
    (he : 3 ≤ e) (he' : e ≤ 64) (hp : 2 ^ (M + 1) ≤ p) :
    ∃ r, findRoundNumbers L p t e M sboxCostFn false = some (6, r) ∧
      findRoundNumbers L p t e M sboxCostFn true = some (8, Spec.partialWithMargin r) ∧
      roundsV1Generate L ⟨allow, M, t, p⟩ (log2Big L p) (.exponent e) = .ok ⟨Spec.partialWithMargin r, 8⟩ := by
  obtain ⟨A, T, hA, hT, h1, h2, h3, h4, h⟩ := findFd_eq hL hM hM' ht ht' he he' hp
  have key := script_large hL hM hM' ht ht' he he' hp hA hT (by omega) (by omega)
  refine ⟨A + T - 5, key false, ?_, ?_⟩
  · rw [key true, scriptPair_eq]; rfl
  · rw [roundsV1_large hL hM hM' ht ht' he he' hp hA hT h1 h2 h3 h4, ceil_margin]

/-! ### The fields at the end of the script -/

theorem log_11_near {L : Libm} (hL : L.Accurate) : ⌈rne (L.log 2 ((11 : ℕ) : ℝ) * (128 : ℕ))⌉ = ((38 : ℕ) : ℤ) := by
  have hn := abs_le.1 (hL.log_near (x := 2) (b := ((11 : ℕ) : ℝ)) (by norm_num) (by norm_num))
  -- 2^128 is a little more than 11^37
  have h1 : 37.0002 ≤ 128 * Real.logb ((11 : ℕ) : ℝ) 2 ∧ 128 * Real.logb ((11 : ℕ) : ℝ) 2 ≤ 37.9 := by
    have l11 : Real.log 11 ≤ 2.43 := by
      have h := Real.log_le_log (x := 11 ^ 2) (y := 2 ^ 7) (by norm_num) (by norm_num)
      rw [Real.log_pow, Real.log_pow] at h
      have := Real.log_two_lt_d9
      push_cast at h; norm_num at this ⊢; linarith
    have p11 : 0 < Real.log 11 := Real.log_pos (by norm_num)
    have hq : Real.log (2 ^ 128 / 11 ^ 37) = 128 * Real.log 2 - 37 * Real.log 11 := by
      rw [Real.log_div (by norm_num) (by norm_num), Real.log_pow, Real.log_pow]; norm_num
    have hlo := Real.one_sub_inv_le_log_of_pos (x := 2 ^ 128 / 11 ^ 37) (by norm_num)
    have hhi := Real.log_le_sub_one_of_pos (x := 2 ^ 128 / 11 ^ 37) (by norm_num)
    rw [hq] at hlo hhi
    have l11' : 2 ≤ Real.log 11 := by
      have h := Real.log_le_log (x := 2 ^ 3) (y := 11) (by norm_num) (by norm_num)
      rw [Real.log_pow] at h
      have := Real.log_two_gt_d9
      push_cast at h; norm_num at this ⊢; linarith
    push_cast
    rw [Real.logb, ← mul_div_assoc, le_div_iff₀ p11, div_le_iff₀ p11]
    norm_num at hlo hhi ⊢
    constructor <;> linarith
  generalize Real.logb ((11 : ℕ) : ℝ) 2 = y at *
  rw [Int.ceil_eq_iff]
  push_cast at hn ⊢
  constructor
  · have := le_rne (x := L.log 2 11 * 128) (a := 37.0001) (by norm_num at *; linarith [hn.1]) (by norm_num)
    norm_num at this ⊢
    linarith
  · exact rne_le_of (b := 37.95) (by norm_num at *; linarith [hn.2]) (by norm_num) (by norm_num)

theorem q_bits : 2 ^ (253 - 1) + 2 ^ (253 - 20) ≤ q ∧ q + 2 ^ (253 - 20) ≤ 2 ^ 253 ∧ 2 ^ (128 + 1) ≤ q := by
  unfold q; decide +kernel

/-- **C84**, decaf377: what the script prints for the scalar field of BLS12-377 and the exponents 11 and 17, for all widths from 2 to 8 (the
script has 2, 3 and 5): 37 and 31 partial rounds, the numbers of S-boxes and the sizes in bits. -/
theorem C84_bls377 (L : Libm) (hL : L.Accurate) (t : Nat) (ht : 2 ≤ t) (ht' : t ≤ 8) :
    calcFinalNumbers L q t 11 128 true = some (8, 37, 8 * t + 37, 253 * (8 * t + 37)) ∧
    calcFinalNumbers L q t 17 128 true = some (8, 31, 8 * t + 31, 253 * (8 * t + 31)) := by
  have h1 : 1 ≤ t := by omega
  have h50 : t ≤ 2 ^ 20 := by omega
  obtain ⟨b1, b2, b3⟩ := q_bits
  constructor
  · have hT := (ceil_add_log hL (A := 0) ht ht' (e := 11) (by norm_num) (by norm_num) (by norm_num)).2
    rw [if_pos (by omega)] at hT
    have h := script_large (e := 11) hL (by norm_num) (by norm_num) ht ht' (by norm_num) (by norm_num) b3 (log_11_near hL)
      (T := 1) (by rw [hT]; rfl) (by norm_num) (by norm_num) true
    have := C84_output L hL q t 128 253 ((11 : ℕ) : ℤ) true (by norm_num) (by norm_num) b1 b2 h1 h50 8 37 h
    rw [mul_comm t 8] at this
    exact this
  · have h := C84_extends L q t 17 128 (by norm_num)
    rw [C70_shipped L hL t ht ht'] at h
    have := C84_output L hL q t 128 253 ((17 : ℕ) : ℤ) true (by norm_num) (by norm_num) b1 b2 h1 h50 8 31 h
    rw [mul_comm t 8] at this
    exact this

/-- **C84**, the hypothesis in line 43 of the script ("multiplying the number of S-boxes by 5 should yield the number of constraints"): it is
exact for the circuits of the shipped parameters, except that each input of the permutation that is a constant saves 5 constraints. -/
theorem C84_constraints (L : Libm) (hL : L.Accurate) (i : Fin 7) (inputs : Vector (FpVar Fq) (i.val + 2)) (cs cs' : CS Fq) (out : FpVar Fq)
    (h : R1cs.nTo1FixedHash (shippedParams i) inputs cs = .ok (out, cs')) (rF rP sboxes size : Nat)
    (hs : calcFinalNumbers L q (i.val + 2) 17 128 true = some (rF, rP, sboxes, size)) :
    cs'.constraints.length + 5 * inputs.toList.countP (fun v => !v.isVar) = cs.constraints.length + 5 * sboxes := by
  have h1 := (C12_shipped i inputs cs cs' out h).1
  rw [(C84_bls377 L hL (i.val + 2) (by omega) (by omega)).2] at hs
  simp only [Option.some.injEq, Prod.mk.injEq] at hs
  obtain ⟨-, -, rfl, -⟩ := hs
  have h2 := List.length_eq_countP_add_countP (p := FpVar.isVar) (l := inputs.toList)
  rw [Vector.length_toList] at h2
  have h3 : inputs.toList.countP (fun v => !v.isVar) = inputs.toList.countP (fun a => decide ¬ a.isVar = true) := by
    congr 1; funext v; cases v.isVar <;> rfl
  rw [h3]
  omega

theorem bls381_bits : 2 ^ (255 - 1) + 2 ^ (255 - 20) ≤ bls381 ∧ bls381 + 2 ^ (255 - 20) ≤ 2 ^ 255 ∧ 2 ^ (128 + 1) ≤ bls381 := by
  unfold bls381; decide +kernel

/-- **C84**, BLS12-381: for the scalar field of BLS12-381 and `x^5` the script and the generator return 56 partial rounds for the widths 2 to 5;
the permutation scripts of the same authors use 57 and 60 for the widths 3 and 5. -/
theorem C84_bls381 (L : Libm) (hL : L.Accurate) (allow : Bool) (t : Nat) (ht : 2 ≤ t) (ht' : t ≤ 5) :
    calcFinalNumbers L bls381 t 5 128 true = some (8, 56, 8 * t + 56, 255 * (8 * t + 56)) ∧
    roundsV1Generate L ⟨allow, 128, t, bls381⟩ (log2Big L bls381) (.exponent 5) = .ok ⟨56, 8⟩ ∧
    (script5 (ZMod bls381) 3 57 mds_255_3 arc_255_3).rP = 57 ∧ (script5 (ZMod bls381) 5 60 mds_255_5 arc_255_5).rP = 60 := by
  have h1 : 1 ≤ t := by omega
  have h50 : t ≤ 2 ^ 20 := by omega
  have h8 : t ≤ 8 := by omega
  obtain ⟨b1, b2, b3⟩ := bls381_bits
  have hT := (ceil_add_log hL (A := 0) ht (show t ≤ 8 by omega) (e := 5) (by norm_num) (by norm_num) (by norm_num)).2
  rw [if_pos (by omega)] at hT
  have hA : ⌈rne (L.log 2 ((5 : ℕ) : ℝ) * (128 : ℕ))⌉ = ((56 : ℕ) : ℤ) := by
    have hl := log_5_gt
    have hu := log_5_lt
    have ha : 0.4302 ≤ L.log 2 ((5 : ℕ) : ℝ) := by
      push_cast
      exact hL.le_log (by norm_num) (by norm_num) Real.log_two_gt_d9.le hu.le (by norm_num) (by norm_num)
    have hb : L.log 2 ((5 : ℕ) : ℝ) ≤ 0.43115 := by
      push_cast
      exact hL.log_le (by norm_num) (by norm_num) Real.log_two_lt_d9.le hl.le (by norm_num) (by norm_num)
    rw [Int.ceil_eq_iff]
    constructor
    · have := le_rne_of (x := L.log 2 ((5 : ℕ) : ℝ) * (128 : ℕ)) (a := 55.06) (c := 55.05) (by push_cast at *; norm_num at ha ⊢; linarith) (by norm_num) (by norm_num)
      norm_num at this ⊢; linarith
    · exact rne_le_of (b := 55.2) (by push_cast at *; norm_num at hb ⊢; linarith) (by norm_num) (by norm_num)
  refine ⟨?_, ?_, rfl, rfl⟩
  · have h := script_large (e := 5) hL (by norm_num) (by norm_num) ht h8 (by norm_num) (by norm_num) b3 hA
      (T := 1) (by rw [hT]; rfl) (by norm_num) (by norm_num) true
    have := C84_output L hL bls381 t 128 255 ((5 : ℕ) : ℤ) true (by norm_num) (by norm_num) b1 b2 h1 h50 8 56 h
    rw [mul_comm t 8] at this
    exact this
  · exact roundsV1_large hL (by norm_num) (by norm_num) ht h8 (by norm_num) (by norm_num) b3 hA (T := 1) (by rw [hT]; rfl) (by norm_num)
      (by norm_num) (by norm_num) (by norm_num)

/-! ### A prime for which the generator returns one partial round fewer -/

/-- `40787293991158333 · 2^200 + 1`, a prime of 256 bits just above `3^161` -/
def shortModulus : Nat := 65542654436768437434701763424593874023774424910744264537100276936823388766209

theorem prime_474806397811 : Nat.Prime 474806397811 := by
  apply lucas_of_check _ 3 [(2, 1), (3, 1), (5, 1), (137, 1), (4787, 1), (24133, 1)] (by decide +kernel) (by decide +kernel)
  · intro f hf
    fin_cases hf <;> norm_num
  · decide +kernel
  · decide +kernel
  · decide +kernel

theorem shortModulus_prime : Nat.Prime shortModulus := by
  apply lucas_of_check _ 3 [(2, 200), (85903, 1), (474806397811, 1)] (by decide +kernel) (by decide +kernel)
  · intro f hf
    fin_cases hf <;> first | exact prime_474806397811 | norm_num
  · decide +kernel
  · decide +kernel
  · decide +kernel

instance : Fact (Nat.Prime shortModulus) := ⟨shortModulus_prime⟩

theorem log_3_bounds : 1.08 ≤ Real.log 3 ∧ Real.log 3 ≤ 1.11 := by
  have h1 := Real.log_le_log (x := 2 ^ 11) (y := 3 ^ 7) (by norm_num) (by norm_num)
  have h2 := Real.log_le_log (x := 3 ^ 5) (y := 2 ^ 8) (by norm_num) (by norm_num)
  rw [Real.log_pow, Real.log_pow] at h1 h2
  have := Real.log_two_gt_d9
  have := Real.log_two_lt_d9
  push_cast at h1 h2
  norm_num at *
  constructor <;> linarith

/-- `log_3 p` is a little more than 161, and `log_3` of `p` without its low 240 bits is a little less. -/
theorem short_logs : 161.000004 ≤ Real.logb 3 shortModulus ∧ Real.logb 3 shortModulus ≤ 161.00001 ∧
    160.9 ≤ Real.logb 3 2 * (240 + Real.logb 2 37095) ∧ Real.logb 3 2 * (240 + Real.logb 2 37095) ≤ 160.99999 := by
  obtain ⟨l3, l3'⟩ := log_3_bounds
  have p3 : 0 < Real.log 3 := by norm_num at l3; linarith
  have p2 : 0 < Real.log 2 := Real.log_pos (by norm_num)
  have a1 : Real.log ((shortModulus : ℝ) / 3 ^ 161) = Real.log shortModulus - 161 * Real.log 3 := by
    rw [Real.log_div (by unfold shortModulus; norm_num) (by norm_num), Real.log_pow]; norm_num
  have a2 : Real.log (37095 * 2 ^ 240 / 3 ^ 161) = 240 * Real.log 2 + Real.log 37095 - 161 * Real.log 3 := by
    rw [Real.log_div (by norm_num) (by norm_num), Real.log_mul (by norm_num) (by norm_num), Real.log_pow, Real.log_pow]; push_cast; ring
  have b1 := Real.one_sub_inv_le_log_of_pos (x := (shortModulus : ℝ) / 3 ^ 161) (by unfold shortModulus; norm_num)
  have b2 := Real.log_le_sub_one_of_pos (x := (shortModulus : ℝ) / 3 ^ 161) (by unfold shortModulus; norm_num)
  have b3 := Real.one_sub_inv_le_log_of_pos (x := 37095 * 2 ^ 240 / 3 ^ 161) (by norm_num)
  have b4 := Real.log_le_sub_one_of_pos (x := 37095 * 2 ^ 240 / 3 ^ 161) (by norm_num)
  rw [a1] at b1 b2
  rw [a2] at b3 b4
  have e : Real.logb 3 2 * (240 + Real.logb 2 37095) = (240 * Real.log 2 + Real.log 37095) / Real.log 3 := by
    rw [Real.logb, Real.logb]; field_simp
  rw [e, Real.logb, le_div_iff₀ p3, div_le_iff₀ p3, le_div_iff₀ p3, div_le_iff₀ p3]
  have c1 : (4.64e-6 : ℝ) ≤ 1 - ((shortModulus : ℝ) / 3 ^ 161)⁻¹ := by unfold shortModulus; norm_num
  have c2 : (shortModulus : ℝ) / 3 ^ 161 - 1 ≤ 4.65e-6 := by unfold shortModulus; norm_num
  have c3 : (-0.01 : ℝ) ≤ 1 - (37095 * 2 ^ 240 / 3 ^ 161 : ℝ)⁻¹ := by norm_num
  have c4 : (37095 * 2 ^ 240 / 3 ^ 161 : ℝ) - 1 ≤ -1.76e-5 := by norm_num
  generalize Real.log (shortModulus : ℝ) = x at *
  generalize 240 * Real.log 2 + Real.log 37095 = y at *
  generalize (1 : ℝ) - ((shortModulus : ℝ) / 3 ^ 161)⁻¹ = z1 at *
  generalize (shortModulus : ℝ) / 3 ^ 161 - 1 = z2 at *
  generalize (1 : ℝ) - (37095 * 2 ^ 240 / 3 ^ 161 : ℝ)⁻¹ = z3 at *
  generalize (37095 * 2 ^ 240 / 3 ^ 161 : ℝ) - 1 = z4 at *
  norm_num at *
  refine ⟨?_, ?_, ?_, ?_⟩ <;> linarith

theorem short_log2Loop : log2Loop shortModulus 0 = (37095, 240) := by
  have h1 : shortModulus >>> 48 >>> 48 >>> 48 >>> 48 >>> 48 = 37095 := by decide +kernel
  have c1 : 1125899906842624 < shortModulus := by decide +kernel
  have c2 : 1125899906842624 < shortModulus >>> 48 := by decide +kernel
  have c3 : 1125899906842624 < shortModulus >>> 48 >>> 48 := by decide +kernel
  have c4 : 1125899906842624 < shortModulus >>> 48 >>> 48 >>> 48 := by decide +kernel
  have c5 : 1125899906842624 < shortModulus >>> 48 >>> 48 >>> 48 >>> 48 := by decide +kernel
  rw [log2Loop, if_pos c1, log2Loop, if_pos c2, log2Loop, if_pos c3, log2Loop, if_pos c4, log2Loop, if_pos c5, h1, log2Loop,
    if_neg (by norm_num)]

/-- The product of two values within `10⁻¹¹` of the exact ones. -/
theorem product_near {a a' b b' : ℝ} (h : |a' - a| ≤ 2⁻¹ ^ 38 * a) (h' : |b' - b| ≤ 2⁻¹ ^ 38 * b) (ha : 0 ≤ a) (hb : 0 ≤ b) (hab : a * b ≤ 162) :
    |rne (a' * b') - a * b| ≤ 1e-8 := by
  have h1 := abs_le.1 h
  have h2 := abs_le.1 h'
  have hd : |a' * b' - a * b| ≤ 2e-9 := by
    have e : a' * b' - a * b = (a' - a) * b + (b' - b) * a + (a' - a) * (b' - b) := by ring
    have m1 : |(a' - a) * b| ≤ 2⁻¹ ^ 38 * (a * b) := by
      rw [abs_mul, abs_of_nonneg hb]; nlinarith [abs_nonneg (a' - a)]
    have m2 : |(b' - b) * a| ≤ 2⁻¹ ^ 38 * (a * b) := by
      rw [abs_mul, abs_of_nonneg ha]; nlinarith [abs_nonneg (b' - b)]
    have m3 : |(a' - a) * (b' - b)| ≤ 2⁻¹ ^ 38 * (2⁻¹ ^ 38 * (a * b)) := by
      rw [abs_mul]
      calc |a' - a| * |b' - b| ≤ (2⁻¹ ^ 38 * a) * (2⁻¹ ^ 38 * b) := mul_le_mul h h' (abs_nonneg _) (by positivity)
        _ = _ := by ring
    rw [e]
    refine (abs_add_le _ _).trans ((add_le_add (abs_add_le _ _) le_rfl).trans ?_)
    norm_num at m1 m2 m3 ⊢
    linarith
  have hB : |a * b| ≤ 162 := by rw [abs_of_nonneg (mul_nonneg ha hb)]; exact hab
  refine (rne_near hd hB).trans ?_
  norm_num

theorem short_crate {L : Libm} (hL : L.Accurate) : ⌈rne (L.log 2 ((3 : ℕ) : ℝ) * log2Big L shortModulus)⌉ = ((161 : ℕ) : ℤ) ∧
    250 ≤ log2Big L shortModulus ∧ log2Big L shortModulus ≤ 256 := by
  obtain ⟨-, -, h3, h4⟩ := short_logs
  have hl : |L.log2 37095 - Real.logb 2 37095| ≤ 2⁻¹ ^ 40 * Real.logb 2 37095 := hL.log2 37095 (by norm_num)
  have hx0 : 15 ≤ Real.logb 2 37095 := by
    rw [Real.le_logb_iff_rpow_le (by norm_num) (by norm_num)]; norm_num
  have hx1 : Real.logb 2 37095 ≤ 15.5 := by
    have h := Real.logb_le_logb_of_le (b := 2) (x := 37095 ^ 2) (y := 2 ^ 31) (by norm_num) (by norm_num) (by norm_num)
    rw [Real.logb_pow, Real.logb_pow, Real.logb_self_eq_one (by norm_num)] at h
    push_cast at h; norm_num at h ⊢; linarith
  have hlp : log2Big L shortModulus = rne (240 + L.log2 37095) := by
    unfold log2Big
    rw [short_log2Loop]
    have e1 := rne_natCast (n := 240) (by norm_num)
    have e2 := rne_natCast (n := 37095) (by norm_num)
    dsimp only
    rw [e1, e2]; push_cast; rfl
  have hnear : |log2Big L shortModulus - (240 + Real.logb 2 37095)| ≤ 2⁻¹ ^ 38 * (240 + Real.logb 2 37095) := by
    rw [hlp]
    have hd : |240 + L.log2 37095 - (240 + Real.logb 2 37095)| ≤ 2⁻¹ ^ 40 * Real.logb 2 37095 := by rw [add_sub_add_left_eq_sub]; exact hl
    refine (rne_near hd (B := 240 + Real.logb 2 37095) (by rw [abs_of_nonneg (by linarith)])).trans ?_
    norm_num
    linarith
  have hn := hL.log_near (x := 2) (b := ((3 : ℕ) : ℝ)) (by norm_num) (by norm_num)
  push_cast at hn ⊢
  have h30 : 0 ≤ Real.logb 3 2 := Real.logb_nonneg (by norm_num) (by norm_num)
  have hp := abs_le.1 (product_near hn hnear h30 (by linarith) (by linarith))
  have hb := abs_le.1 hnear
  refine ⟨?_, ?_, ?_⟩
  · rw [Int.ceil_eq_iff]
    push_cast
    norm_num at hp h3 h4 ⊢
    constructor <;> linarith
  · norm_num at hb ⊢; linarith
  · norm_num at hb hx1 ⊢; linarith

theorem short_script {L : Libm} (hL : L.Accurate) : ⌈rne (L.log 2 ((3 : ℕ) : ℝ) * L.log shortModulus 2)⌉ = ((162 : ℕ) : ℤ) := by
  obtain ⟨h1, h2, -, -⟩ := short_logs
  have hn := hL.log_near (x := 2) (b := ((3 : ℕ) : ℝ)) (by norm_num) (by norm_num)
  have hm := hL.log_near (x := (shortModulus : ℝ)) (b := 2) (by unfold shortModulus; norm_num) (by norm_num)
  push_cast at hn ⊢
  have e : Real.logb 3 2 * Real.logb 2 shortModulus = Real.logb 3 shortModulus := Real.mul_logb (by norm_num) (by norm_num) (by norm_num)
  have h30 : 0 ≤ Real.logb 3 2 := Real.logb_nonneg (by norm_num) (by norm_num)
  have hp0 : 0 ≤ Real.logb 2 (shortModulus : ℝ) := Real.logb_nonneg (by norm_num) (by unfold shortModulus; norm_num)
  have hp := abs_le.1 (product_near hn hm h30 hp0 (by rw [e]; linarith))
  rw [e] at hp
  rw [Int.ceil_eq_iff]
  push_cast
  norm_num at hp h1 h2 ⊢
  constructor <;> linarith

theorem short_rounds {L : Libm} (hL : L.Accurate) (allow : Bool) {t : Nat} (ht : 2 ≤ t) (ht' : t ≤ 8) :
    roundsV1Generate L ⟨allow, 256, t, shortModulus⟩ (log2Big L shortModulus) (.exponent 3) = .ok ⟨if t ≤ 3 then 169 else 170, 8⟩ := by
  obtain ⟨hA, hlp, hlp'⟩ := short_crate hL
  obtain ⟨ha, hb⟩ := log_two_bounds hL (e := 3) (by norm_num) (by norm_num)
  have htR : (2 : ℝ) ≤ t := by exact_mod_cast ht
  have htR' : (t : ℝ) ≤ 8 := by exact_mod_cast ht'
  generalize log2Big L shortModulus = lp at *
  obtain ⟨hT1, hT⟩ := ceil_add_log hL (A := 161) ht ht' (e := 3) (by norm_num) (by norm_num) (by norm_num)
  have hI : algebraicAttackInterpolation L ⟨allow, 256, t, shortModulus⟩ lp (.exponent 3) = 161 + if t ≤ 3 then 1 else 2 := by
    unfold algebraicAttackInterpolation
    dsimp only
    rw [rne_natCast (n := 256) (by omega), rne_natCast (n := t) (by omega), rne_natCast (n := 3) (by omega),
      min_eq_right (by push_cast; exact hlp'), hA, Int.cast_natCast, hT1, hT, asUsize_int]
    split_ifs <;> rfl
  obtain ⟨g, hg⟩ := grobnerV1_ok L (input := ⟨allow, 256, t, shortModulus⟩) lp (.exponent 3) (show 1 ≤ t by omega)
  have hgB : g ≤ 161 := by
    norm_num at ha hb
    refine grobner_exponent (b := L.log 2 ((3 : ℕ) : ℝ)) (by norm_num) (by omega) (by omega) (by omega) (by push_cast; linarith) le_rfl ?_ ?_ hg
    · push_cast
      norm_num
      linarith
    · have h3 : L.log 2 ((3 : ℕ) : ℝ) * ((256 : ℕ) : ℝ) / ((t : ℝ) + 1) ≤ L.log 2 ((3 : ℕ) : ℝ) * ((256 : ℕ) : ℝ) / 3 :=
        div_le_div_of_nonneg_left (by push_cast; linarith) (by norm_num) (by linarith)
      push_cast at h3 ⊢
      norm_num
      linarith
  have hC : L.log2 ((3 - 1 : ℕ) : ℝ) ≤ 2 := by
    have h := abs_le.1 (hL.log2 2 (by norm_num))
    rw [Real.logb_self_eq_one (by norm_num)] at h
    push_cast
    norm_num at h ⊢
    linarith
  rw [roundsV1_exponent (input := ⟨allow, 256, t, shortModulus⟩) (by norm_num) ht (by unfold usizeMax; dsimp only; omega) hg (by rw [hI]; split_ifs <;> omega), hI,
    statistical_six (n := 250) (by norm_num) (by omega) (by omega) (by norm_num) (by norm_num) hC (by exact_mod_cast hlp) (by norm_num)
      (by push_cast; norm_num; linarith)]
  congr 2
  split_ifs <;> omega

set_option exponentiation.threshold 2000 in
theorem short_find {L : Libm} (hL : L.Accurate) {t : Nat} (ht : 2 ≤ t) (ht' : t ≤ 8) (on : Bool) :
    findRoundNumbers L shortModulus t 3 256 sboxCostFn on = some (scriptPair on (if t ≤ 3 then 158 else 159)) := by
  have hA := short_script hL
  obtain ⟨ha, hb⟩ := log_two_bounds hL (e := 3) (by norm_num) (by norm_num)
  have htR : (2 : ℝ) ≤ t := by exact_mod_cast ht
  have htR' : (t : ℝ) ≤ 8 := by exact_mod_cast ht'
  have hT := (ceil_add_log hL (A := 161) ht ht' (e := 3) (by norm_num) (by norm_num) (by norm_num)).2
  have hlp := script_log_bounds hL (p := shortModulus) (n := 256) (by norm_num) (by norm_num) (by unfold shortModulus; decide +kernel)
    (by unfold shortModulus; decide +kernel)
  have hlp' : L.log shortModulus 2 ≤ 255.5 := by
    have hm := (abs_le.1 (hL.log_near (x := (shortModulus : ℝ)) (b := 2) (by unfold shortModulus; norm_num) (by norm_num))).2
    have h := Real.logb_le_logb_of_le (b := 2) (x := (shortModulus : ℝ) ^ 4) (y := 2 ^ 1021) (by norm_num) (by unfold shortModulus; norm_num)
      (by unfold shortModulus; norm_num)
    rw [Real.logb_pow, Real.logb_pow, Real.logb_self_eq_one (by norm_num)] at h
    push_cast at h; norm_num at h hm ⊢; linarith
  have hC : L.log (((3 : ℕ) : ℝ) - 1) 2 ≤ 2 := by
    have h := abs_le.1 (hL.log_near (x := 2) (b := 2) (by norm_num) (by norm_num))
    rw [Real.logb_self_eq_one (by norm_num)] at h
    push_cast
    norm_num at h ⊢
    linarith
  have hfl : (254 : ℝ) ≤ ((⌊L.log shortModulus 2⌋ : ℤ) : ℝ) := by
    have : (254 : ℤ) ≤ ⌊L.log shortModulus 2⌋ := Int.le_floor.2 (by push_cast; norm_num at hlp ⊢; linarith [hlp.1])
    exact_mod_cast this
  generalize hlpe : L.log shortModulus 2 = lp at *
  have key : ∀ T : Nat, ⌈L.log t ((3 : ℕ) : ℝ)⌉ = (T : ℤ) → 1 ≤ T → T ≤ 2 →
      findRoundNumbers L shortModulus t ((3 : ℕ) : ℤ) 256 sboxCostFn on = some (scriptPair on (162 + T - 5)) := by
    intro T hT h1 h2
    norm_num at hfl hlp'
    have h1R : (1 : ℝ) ≤ T := by exact_mod_cast h1
    refine findRoundNumbers_exponent on (by norm_num) ht (satInequivAlpha_general ?_ ?_ hT (by omega) ?_ ?_) (by omega) (by omega)
    · rw [hlpe]; push_cast
      have g1 := le_rne_of (x := ((⌊lp⌋ : ℤ) : ℝ) - L.log (((3 : ℕ) : ℝ) - 1) 2) (a := 252) (c := 251) (by linarith) (by norm_num) (by norm_num)
      push_cast at g1
      exact le_rne_of (a := 700) (by nlinarith) (by norm_num) (by norm_num)
    · rw [hlpe, min_eq_right (by push_cast; linarith)]
      exact hA
    · rw [hlpe]
      have g1 := rne_le_of (x := ((256 : ℕ) : ℝ) / 3) (b := 86) (c := 87) (by norm_num) (by norm_num) (by norm_num)
      have g2 := (min_le_left (rne (((256 : ℕ) : ℝ) / 3)) (rne (lp / 2))).trans g1
      have g3 : L.log 2 ((3 : ℕ) : ℝ) * min (rne (((256 : ℕ) : ℝ) / 3)) (rne (lp / 2)) ≤ 60 := by
        norm_num at ha hb
        nlinarith
      have := rne_le_of (c := 61) g3 (by norm_num) (by norm_num)
      push_cast at this ⊢
      linarith
    · rw [hlpe]
      have g1 : rne (L.log 2 ((3 : ℕ) : ℝ) * ((256 : ℕ) : ℝ)) ≤ 172 :=
        rne_le_of (b := 171) (by norm_num at ha hb ⊢; linarith) (by norm_num) (by norm_num)
      have g2 : rne (L.log 2 ((3 : ℕ) : ℝ) * ((256 : ℕ) : ℝ)) / ((t : ℝ) + 1) ≤ 58 := by
        rw [div_le_iff₀ (by linarith)]; linarith
      have g3 := rne_le_of (c := 59) g2 (by norm_num) (by norm_num)
      have g4 := (min_le_left (rne (rne (L.log 2 ((3 : ℕ) : ℝ) * ((256 : ℕ) : ℝ)) / ((t : ℝ) + 1))) (rne (rne (L.log 2 ((3 : ℕ) : ℝ) * lp) / 2))).trans g3
      push_cast at g4 ⊢
      linarith
  split_ifs at hT ⊢ with hc
  · exact key 1 (by rw [hT]; rfl) le_rfl (by norm_num)
  · exact key 2 (by rw [hT]; rfl) (by norm_num) le_rfl

/-- **C84**, a difference: for this prime of 256 bits, at 256 bits of security, `v1::generate` returns parameters for `x^3` with one partial
round fewer than the authors' script returns, for every width from 2 to 8.  The script follows the logarithm of the modulus, which rounds up
to 162; the generator takes the logarithm of the 16 leading bits of the modulus (C43), and gets 161. -/
theorem C84_one_fewer (L : Libm) (hL : L.Accurate) (debug allow : Bool) (k : Nat) (hk : 1 ≤ k) (hk' : k ≤ 7) :
    ∃ rP, findRoundNumbers L shortModulus (k + 1) 3 256 sboxCostFn true = some (8, rP + 1) ∧
      ∃ P : Params (ZMod shortModulus) (k + 1) k ((k + 1) * (k + 1)) (k * k) (rP + 8) (k + 1) ((rP + 8) * (k + 1)) rP,
        v1Generate L debug (ZMod shortModulus) 4 k ((k + 1) * (k + 1)) (k * k) (rP + 8) ((rP + 8) * (k + 1)) rP 256 shortModulus allow = .ok P ∧
        P.alpha = .exponent 3 ∧ P.rounds = ⟨rP, 8⟩ := by
  have hr := short_rounds hL allow (t := k + 1) (by omega) (by omega)
  have hf := short_find hL (t := k + 1) (by omega) (by omega) true
  have hα : alphaGenerate shortModulus allow = .ok (.exponent 3) := by cases allow <;> decide +kernel
  refine ⟨if k + 1 ≤ 3 then 169 else 170, ?_, ?_⟩
  · rw [hf]; split_ifs <;> rfl
  · exact v1Generate_ok (F := ZMod shortModulus) debug (nlimbs := 4) (by norm_num) (by decide +kernel) rfl rfl hα hr
      (by dsimp only; split_ifs <;> norm_num) (by omega) (by omega) (by decide +kernel)

/-- The interpolation bound of the paper, with the exact logarithm, is that of the script: `⌈log_3 p⌉ = 162`. -/
theorem C84_one_fewer_exact : ⌈Real.logb 3 2 * min 256 (Real.logb 2 shortModulus)⌉ = 162 := by
  obtain ⟨h1, h2, -, -⟩ := short_logs
  have h : Real.logb 2 (shortModulus : ℝ) ≤ 256 := by
    rw [Real.logb_le_iff_le_rpow (by norm_num) (by unfold shortModulus; norm_num)]
    unfold shortModulus; norm_num
  rw [min_eq_right h, Real.mul_logb (by norm_num) (by norm_num) (by norm_num), Int.ceil_eq_iff]
  norm_num at h1 h2 ⊢
  constructor <;> linarith

/-! ### Non-vacuity -/

theorem exactLibm_log (n k : Nat) (h : n = 2 ^ k) (hk : k ≤ 50) : exactLibm.log n 2 = k := by
  show rne (Real.log n / Real.log 2) = k
  rw [h, Nat.cast_pow, Nat.cast_ofNat, Real.log_pow, mul_div_assoc, div_self (Real.log_pos (by norm_num)).ne', mul_one]
  exact rne_natCast (by omega)

theorem exactLibm_powers : exactLibm.PowersExact where
  four := by have := exactLibm_log 4 2 (by norm_num) (by norm_num); push_cast at this; exact this
  eight := by have := exactLibm_log 8 3 (by norm_num) (by norm_num); push_cast at this; exact this

/-- A row of table 7, with the largest number of 96 bits. -/
example : ∃ r, findRoundNumbers roundedLibm (2 ^ 96 - 1) 16 3 128 sboxCostFn false = some (6, r) ∧
    findRoundNumbers roundedLibm (2 ^ 96 - 1) 16 3 128 sboxCostFn true = some (8, Spec.partialWithMargin r) ∧
    (Spec.partialWithMargin r = 64 ∨ 96 ≤ 128 ∧ Spec.partialWithMargin r + 1 = 64) :=
  C84_table7 _ roundedLibm_accurate ⟨128, 96, 16, 8, 64⟩ (by decide) (2 ^ 96 - 1) (by norm_num) (by norm_num)

/-- A row of table 8. -/
example : ∃ r, findRoundNumbers exactLibm (2 ^ 255 + 95) 6 5 128 sboxCostFn false = some (6, r) ∧
    findRoundNumbers exactLibm (2 ^ 255 + 95) 6 5 128 sboxCostFn true = some (8, Spec.partialWithMargin r) ∧
    (Spec.partialWithMargin r = 57 ∨ 256 ≤ 128 ∧ Spec.partialWithMargin r + 1 = 57) :=
  C84_table8 _ exactLibm_accurate ⟨128, 256, 6, 8, 57⟩ (by decide) (2 ^ 255 + 95) (by norm_num) (by norm_num)

/-- A row of table 9. -/
example : ∃ r, findRoundNumbers exactLibm (2 ^ 95 + 9) 16 (-1) 256 sboxCostFn false = some (6, r) ∧ Spec.partialWithMargin r = 32 ∧
    findRoundNumbers exactLibm (2 ^ 95 + 9) 16 (-1) 256 sboxCostFn true = some (8, 32) :=
  C84_table9 _ exactLibm_accurate exactLibm_powers (by have := exactLibm_log 16 4 (by norm_num) (by norm_num); push_cast at this; exact this)
    ⟨256, 96, 16, 8, 32⟩ (by decide) (2 ^ 95 + 9) (by norm_num) (by norm_num) (by norm_num)

/-- Both sides of `C84_errors`. -/
example (L : Libm) (p t M : Nat) : findRoundNumbers L p t 1 M sboxCostFn true = none ∧ findRoundNumbers L p t (-1) M depthCostFn true ≠ none :=
  ⟨(C84_errors L p t M 1 true sboxCostFn).2 (by norm_num), fun h => (C84_errors L p t M (-1) true depthCostFn).1 h (by norm_num)⟩

/-- The shipped field, with the size of the circuit as the cost. -/
example : findRoundNumbers roundedLibm q 3 ((17 : ℕ) : ℤ) 128 sizeCostFn true = some (8, 31) := by
  rw [C84_size _ roundedLibm_accurate q 3 128 253 ((17 : ℕ) : ℤ) true (by unfold q; norm_num) (by unfold q; norm_num) (by norm_num) (by norm_num) (by norm_num),
    ← C70_shipped _ roundedLibm_accurate 3 (by norm_num) (by norm_num)]
  exact C84_extends _ _ _ 17 _ (by norm_num)

/-- Width 5 and `x^17` on the shipped field: 71 S-boxes. -/
example : calcFinalNumbers roundedLibm q 5 17 128 true = some (8, 31, 71, 17963) := (C84_bls377 _ roundedLibm_accurate 5 (by norm_num) (by norm_num)).2

example : ∃ r, findRoundNumbers roundedLibm q 8 ((17 : ℕ) : ℤ) 128 sboxCostFn false = some (6, r) ∧
    findRoundNumbers roundedLibm q 8 ((17 : ℕ) : ℤ) 128 sboxCostFn true = some (8, Spec.partialWithMargin r) ∧
    roundsV1Generate roundedLibm ⟨true, 128, 8, q⟩ (log2Big roundedLibm q) (.exponent 17) = .ok ⟨Spec.partialWithMargin r, 8⟩ :=
  C84_exponent _ roundedLibm_accurate 128 8 17 q true (by norm_num) (by norm_num) (by norm_num) (by norm_num) (by norm_num) (by norm_num) q_bits.2.2

/-- The inverse on the shipped field, width 5. -/
example : findRoundNumbers exactLibm q 5 (-1) 128 sboxCostFn false = some (6, 55) ∧
    findRoundNumbers exactLibm q 5 (-1) 128 sboxCostFn true = some (8, 60) := by
  have h := C84_inverse_value _ exactLibm_accurate exactLibm_powers 128 5 q (by norm_num) (by norm_num) (by norm_num) (by norm_num) q_bits.2.2
  rw [ceil_margin, show 1 + (128 + 1) / 2 + Nat.clog 2 5 - Nat.log 2 (5 ^ 6) = 55 by decide +kernel] at h
  exact h

example : ∃ rF rP, findRoundNumbers exactLibm q 8 (-1) 128 sboxCostFn true = some (rF, rP) ∧
    roundsV1Generate exactLibm ⟨true, 128, 8, q⟩ (log2Big exactLibm q) .inverse = .ok ⟨rP, rF⟩ :=
  C84_inverse_agree _ exactLibm_accurate exactLibm_regular exactLibm_powers 128 8 q true (by norm_num) (by norm_num) (by norm_num) (by norm_num)
    q_bits.2.2

example : ∃ rP, findRoundNumbers roundedLibm shortModulus 3 3 256 sboxCostFn true = some (8, rP + 1) ∧
    ∃ P : Params (ZMod shortModulus) 3 2 9 4 (rP + 8) 3 ((rP + 8) * 3) rP,
      v1Generate roundedLibm true (ZMod shortModulus) 4 2 9 4 (rP + 8) ((rP + 8) * 3) rP 256 shortModulus false = .ok P ∧
      P.alpha = .exponent 3 ∧ P.rounds = ⟨rP, 8⟩ :=
  C84_one_fewer _ roundedLibm_accurate true false 2 (by norm_num) (by norm_num)

end Poseidon
