import Verif.Proofs.GenMachine
import Verif.Props.Rounds
import Verif.Props.Alpha

/-!
# The round numbers computed with machine numbers (C76)

`L : LibmF` stands for the platform's logarithms on all doubles, `m : Target` for a build with words of 32 to 64 bits, checked or wrapping.
-/

namespace Poseidon

/-! ### A library that meets the hypotheses -/

theorem rne_rne {x : ℝ} (hx : 0 ≤ x) : rne (rne x) = rne x := by
  rcases hx.eq_or_lt with rfl | hx
  · rw [rne_zero, rne_zero]
  set E := ulpExp x with hE
  have hE' : E = Int.log 2 x - 52 := by rw [hE, ulpExp, abs_of_pos hx]
  set N := roundEven (x / 2 ^ E) with hN
  have hy : rne x = N * 2 ^ E := by rw [rne]
  have hp : (0 : ℝ) < 2 ^ E := by positivity
  have hlo : (2 : ℝ) ^ (52 : ℤ) ≤ x / 2 ^ E := by
    rw [le_div_iff₀ hp, ← zpow_add₀ (by norm_num), hE', show 52 + (Int.log 2 x - 52) = Int.log 2 x by ring]
    exact_mod_cast Int.zpow_log_le_self (b := 2) (by norm_num) hx
  have hhi : x / 2 ^ E < (2 : ℝ) ^ (53 : ℤ) := by
    rw [div_lt_iff₀ hp, ← zpow_add₀ (by norm_num), hE', show 53 + (Int.log 2 x - 52) = Int.log 2 x + 1 by ring]
    exact_mod_cast Int.lt_zpow_succ_log_self (b := 2) (by norm_num) x
  have hf1 : (2 : ℤ) ^ 52 ≤ ⌊x / 2 ^ E⌋ := Int.le_floor.2 (by push_cast; exact_mod_cast hlo)
  have hf2 : ⌊x / 2 ^ E⌋ < 2 ^ 53 := Int.floor_lt.2 (by push_cast; exact_mod_cast hhi)
  have hN1 : 2 ^ 52 ≤ N := by rw [hN, roundEven]; split_ifs <;> omega
  have hN2 : N ≤ 2 ^ 53 := by rw [hN, roundEven]; split_ifs <;> omega
  have hN1' : (2 : ℝ) ^ (52 : ℤ) ≤ N := by exact_mod_cast hN1
  have hpos : (0 : ℝ) < N * 2 ^ E := mul_pos (lt_of_lt_of_le (by positivity) hN1') hp
  rw [hy]
  rcases hN2.lt_or_eq with h | h
  · have hN2' : (N : ℝ) < (2 : ℝ) ^ (53 : ℤ) := by exact_mod_cast h
    have hu : ulpExp ((N : ℝ) * 2 ^ E) = E := by
      rw [ulpExp, abs_of_pos hpos]
      have h1 : E + 52 ≤ Int.log 2 ((N : ℝ) * 2 ^ E) := by
        rw [← Int.zpow_le_iff_le_log (by norm_num) hpos, Nat.cast_ofNat, zpow_add₀ (by norm_num), mul_comm]
        exact mul_le_mul_of_nonneg_right hN1' hp.le
      have h2 : Int.log 2 ((N : ℝ) * 2 ^ E) < E + 53 := by
        rw [← Int.lt_zpow_iff_log_lt (by norm_num) hpos, Nat.cast_ofNat, zpow_add₀ (by norm_num), mul_comm ((2 : ℝ) ^ E)]
        exact mul_lt_mul_of_pos_right hN2' hp
      omega
    exact rne_exact N (by rw [hu])
  · have e : (N : ℝ) * 2 ^ E = ((2 ^ 52 : ℤ) : ℝ) * 2 ^ (E + 1) := by
      rw [h, zpow_add₀ (by norm_num)]; push_cast; ring
    have hu : ulpExp ((N : ℝ) * 2 ^ E) = E + 1 := by
      have e2 : (N : ℝ) * 2 ^ E = ((2 : Nat) : ℝ) ^ (E + 53) := by
        rw [h, Nat.cast_ofNat, zpow_add₀ (by norm_num)]; push_cast; ring
      rw [ulpExp, abs_of_pos hpos, e2, Int.log_zpow (by norm_num)]
      ring
    exact rne_exact (2 ^ 52) (by rw [hu]; exact e)

/-- Correctly rounded logarithms, NaN outside their domain. -/
noncomputable def roundedLibmF : LibmF where
  ln
    | .fin x => open Classical in if 0 < x then .fin (rne (Real.log x)) else .nan
    | .inf false => .inf false
    | _ => .nan
  log2
    | .fin x => open Classical in if 0 < x then .fin (rne (Real.logb 2 x)) else .nan
    | .inf false => .inf false
    | _ => .nan

theorem roundedLibmF_accurate : roundedLibmF.Accurate where
  ln x hx := ⟨rne (Real.log x), if_pos (by linarith), rne_rne (Real.log_nonneg hx), roundedLibm_accurate.ln x hx⟩
  log2 x hx := ⟨rne (Real.logb 2 x), if_pos (by linarith), rne_rne (Real.logb_nonneg (by norm_num) hx), roundedLibm_accurate.log2 x hx⟩

/-! ## C76 -/

/-- **C76 (logarithm).** `log2` of a modulus of at most `2^31` bits returns on every build: the `i32` counter does not overflow, the
remaining number fits in eight bytes, and the result is the finite double the real-number model gives. -/
theorem C76_log2 (L : LibmF) (hL : L.Accurate) (m : Target) (p : Nat) (hp : 1 ≤ p) (hp' : numBits p ≤ 2147483648) :
    Mach.log2Big L m p = .ok (.fin (log2Big L.real p)) := (Mach.log2Big_eq hL m hp hp').1

/-- **C76 (v1).** For every width, security level, exponent from 3 (or the inverse) and modulus, and on every build, `v1_generate` with
IEEE doubles and machine words does what it does with rounded reals and unbounded integers: no NaN, infinity, subnormal number,
saturation, overflow or wrap-around changes the outcome. -/
theorem C76_v1 (L : LibmF) (hL : L.Accurate) (m : Target) (hm : m.Usual) (input : GenInput) (ht : 1 ≤ input.t) (htW : input.t < m.W)
    (hp : 1 ≤ input.p) (hp' : numBits input.p ≤ 2147483648) (alpha : Alpha) (ha : ∀ e, alpha = .exponent e → 3 ≤ e ∧ e < 2 ^ 32) :
    (Mach.log2Big L m input.p >>= fun lp => Mach.roundsV1Generate L m input lp alpha) =
      roundsV1Generate L.real input (log2Big L.real input.p) alpha := by
  obtain ⟨h1, h2, h3⟩ := Mach.log2Big_eq hL m hp hp'
  rw [h1, ok_bind]
  exact Mach.roundsV1_machine hL hm ht htW h2 h3 ha

/-- **C76 (v2).** The same for `v2_generate`; the exponent is added to a word, so it must stay below `2^31` on a 32-bit build. -/
theorem C76_v2 (L : LibmF) (hL : L.Accurate) (m : Target) (hm : m.Usual) (input : GenInput) (ht : 1 ≤ input.t) (htW : input.t < m.W)
    (hM : input.security < m.W) (hp : 1 ≤ input.p) (hp' : numBits input.p ≤ 2147483648) (alpha : Alpha)
    (ha : ∀ e, alpha = .exponent e → 3 ≤ e ∧ e < 2 ^ 31) :
    (Mach.log2Big L m input.p >>= fun lp => Mach.roundsV2Generate L m input lp alpha) =
      roundsV2Generate L.real input (log2Big L.real input.p) alpha := by
  obtain ⟨h1, h2, h3⟩ := Mach.log2Big_eq hL m hp hp'
  rw [h1, ok_bind]
  exact Mach.roundsV2_machine hL hm ht htW h2 h3 (fun e he => ⟨(ha e he).1, by have := (ha e he).2; omega⟩) hM fun e he => (ha e he).2

/-- **C76 (generator).** The exponents the generator chooses are within those bounds, so both searches agree with the real-number model
for every modulus from 2 on. -/
theorem C76_generated (L : LibmF) (hL : L.Accurate) (m : Target) (hm : m.Usual) (input : GenInput) (ht : 1 ≤ input.t) (htW : input.t < m.W)
    (hM : input.security < m.W) (hp : 2 ≤ input.p) (hp' : numBits input.p ≤ 2147483648) (alpha : Alpha)
    (h : alphaGenerate input.p input.allowInverse = .ok alpha) :
    (Mach.log2Big L m input.p >>= fun lp => Mach.roundsV1Generate L m input lp alpha) =
        roundsV1Generate L.real input (log2Big L.real input.p) alpha ∧
      (Mach.log2Big L m input.p >>= fun lp => Mach.roundsV2Generate L m input lp alpha) =
        roundsV2Generate L.real input (log2Big L.real input.p) alpha := by
  have ha : ∀ e, alpha = .exponent e → 3 ≤ e ∧ e < 2 ^ 31 := by
    rintro e rfl
    rw [alphaGenerate, alphaLoop_eq hp, ok_bind] at h
    cases hf : depthsInOrder.find? fun c => c % 2 != 0 && Nat.gcd (c % input.p) (input.p - 1) == 1 with
    | none =>
      rw [hf] at h
      dsimp only at h
      split_ifs at h
      cases h
    | some a =>
      rw [hf] at h
      cases h
      have hmem := List.mem_of_find?_eq_some hf
      exact ⟨three_le_depths _ hmem, lt_of_le_of_lt (depths_le _ hmem) (by norm_num)⟩
  exact ⟨C76_v1 L hL m hm input ht htW (by omega) hp' alpha fun e he => ⟨(ha e he).1, by have := (ha e he).2; omega⟩,
    C76_v2 L hL m hm input ht htW hM (by omega) hp' alpha ha⟩

/-- **C76 (portability).** Two builds with the same library of logarithms choose the same round numbers, or panic alike. -/
theorem C76_portable (L : LibmF) (hL : L.Accurate) (m m' : Target) (hm : m.Usual) (hm' : m'.Usual) (input : GenInput) (ht : 1 ≤ input.t)
    (htW : input.t < m.W) (htW' : input.t < m'.W) (hM : input.security < m.W) (hM' : input.security < m'.W) (hp : 1 ≤ input.p)
    (hp' : numBits input.p ≤ 2147483648) (alpha : Alpha) (ha : ∀ e, alpha = .exponent e → 3 ≤ e ∧ e < 2 ^ 31) :
    (Mach.log2Big L m input.p >>= fun lp => Mach.roundsV1Generate L m input lp alpha) =
        (Mach.log2Big L m' input.p >>= fun lp => Mach.roundsV1Generate L m' input lp alpha) ∧
      (Mach.log2Big L m input.p >>= fun lp => Mach.roundsV2Generate L m input lp alpha) =
        (Mach.log2Big L m' input.p >>= fun lp => Mach.roundsV2Generate L m' input lp alpha) := by
  have ha' : ∀ e, alpha = .exponent e → 3 ≤ e ∧ e < 2 ^ 32 := fun e he => ⟨(ha e he).1, by have := (ha e he).2; omega⟩
  rw [C76_v1 L hL m hm input ht htW hp hp' alpha ha', C76_v1 L hL m' hm' input ht htW' hp hp' alpha ha',
    C76_v2 L hL m hm input ht htW hM hp hp' alpha ha, C76_v2 L hL m' hm' input ht htW' hM' hp hp' alpha ha]
  exact ⟨rfl, rfl⟩

/-- **C76 (shipped widths).** On every build, 8 full and 31 partial rounds for the field of the crate, exponent 17 and widths 2 to 8. -/
theorem C76_shipped (L : LibmF) (hL : L.Accurate) (m : Target) (hm : m.Usual) (allow : Bool) (t : Nat) (ht : 2 ≤ t) (ht8 : t ≤ 8) :
    (Mach.log2Big L m q >>= fun lp => Mach.roundsV1Generate L m ⟨allow, 128, t, q⟩ lp (.exponent 17)) = .ok ⟨31, 8⟩ := by
  have hW := hm.1
  have := C76_v1 L hL m hm ⟨allow, 128, t, q⟩ (by dsimp only; omega) (by dsimp only; omega) (by norm_num [q])
    (show numBits q ≤ 2147483648 by decide +kernel) (.exponent 17)
    (fun e he => by cases he; norm_num)
  exact this.trans (C39_rounds L.real hL.real allow t ht ht8)

/-- **C76 (`f64::from(Alpha)`).** The conversion is exact: the exponent for every `u32`, and -1 for the inverse; so it separates
`Alpha::Inverse` from every exponent, which `to_bytes_le` does not. -/
theorem C76_alpha : (∀ e : Nat, e < 2 ^ 32 → (Alpha.exponent e).toF64 = .fin e) ∧ Alpha.inverse.toF64 = .fin (-1) ∧
    ∀ a b : Alpha, (∀ e, a = .exponent e → e < 2 ^ 32) → (∀ e, b = .exponent e → e < 2 ^ 32) → a.toF64 = b.toF64 → a = b := by
  have h1 : ∀ e : Nat, e < 2 ^ 32 → (Alpha.exponent e).toF64 = .fin e := fun e he => by
    rw [Alpha.toF64, F64.ofNat_eq (by omega), rne_natCast (by omega)]
  have h2 : Alpha.inverse.toF64 = .fin (-1) := by
    rw [Alpha.toF64]
    have t1 : Tame 1 (-1 : ℝ) := Tame.neg (by simpa using Tame.nat (k := 1) (n := 1) (by norm_num))
    have hu : ulpExp (-1 : ℝ) = -52 := by
      have := Int.log_zpow (R := ℝ) (b := 2) (by norm_num) 0
      rw [zpow_zero] at this
      rw [ulpExp, abs_neg, abs_one, this]; norm_num
    rw [F64.round_eq t1 (by norm_num), rne_exact (x := -1) (-2 ^ 52) (by rw [hu]; norm_num)]
  refine ⟨h1, h2, fun a b ha hb h => ?_⟩
  cases a with
  | exponent e =>
    rw [h1 e (ha e rfl)] at h
    cases b with
    | exponent e' =>
      rw [h1 e' (hb e' rfl)] at h
      exact congrArg _ (Nat.cast_injective (F64.fin.inj h))
    | inverse =>
      rw [h2] at h
      have h3 := F64.fin.inj h
      have : (0 : ℝ) ≤ e := Nat.cast_nonneg _
      linarith
  | inverse =>
    rw [h2] at h
    cases b with
    | exponent e' =>
      rw [h1 e' (hb e' rfl)] at h
      have h3 := F64.fin.inj h
      have : (0 : ℝ) ≤ e' := Nat.cast_nonneg _
      linarith
    | inverse => rfl

/-- A 32-bit release build with correctly rounded logarithms meets the hypotheses; its doubles do overflow. -/
example : roundedLibmF.Accurate ∧ (⟨2 ^ 32, false⟩ : Target).Usual ∧ F64.round (2 ^ 1024) = .inf false ∧ roundedLibmF.log2 (.fin 0) = .nan := by
  refine ⟨roundedLibmF_accurate, by constructor <;> norm_num, ?_, if_neg (lt_irrefl _)⟩
  have h1 : Int.log 2 |(2 : ℝ) ^ 1024| = 1024 := by
    have := Int.log_zpow (R := ℝ) (b := 2) (by norm_num) 1024
    rw [abs_of_pos (by positivity)]
    exact_mod_cast this
  have h3 : ((2 ^ 52 : ℤ) : ℝ) * 2 ^ (972 : ℤ) = 2 ^ 1024 := by
    rw [Int.cast_pow, Int.cast_ofNat, show (2 : ℝ) ^ (972 : ℤ) = 2 ^ 972 from zpow_natCast 2 972, ← pow_add]
  have h2 : (2 : ℝ) ^ 1024 / 2 ^ (972 : ℤ) = ((2 ^ 52 : ℤ) : ℝ) := by
    rw [div_eq_iff (by positivity)]
    exact h3.symm
  rw [F64.round]
  rw [h1, show max ((1024 : ℤ) - 52) (-1074) = 972 by norm_num, h2, roundEven_int, h3, abs_of_pos (by positivity), if_pos le_rfl,
    decide_eq_false (not_lt.2 (by positivity))]

example : (Mach.log2Big roundedLibmF ⟨2 ^ 64, true⟩ q >>= fun lp => Mach.roundsV1Generate roundedLibmF ⟨2 ^ 64, true⟩ ⟨true, 128, 3, q⟩ lp (.exponent 17)) =
    .ok ⟨31, 8⟩ := C76_shipped _ roundedLibmF_accurate _ (by constructor <;> norm_num) _ _ (by norm_num) (by norm_num)

end Poseidon
