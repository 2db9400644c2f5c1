import Verif.Model.GenMachine
import Verif.Proofs.GenFloatMono
import Verif.Proofs.GenSecurity
import Verif.Proofs.GenLog2

/-! # The round search with machine numbers computes what `GenRounds.lean` says -/

namespace Poseidon

/-- Zero, or between `2^-k` and `2^k` in size. -/
def Tame (k : Nat) (x : ℝ) : Prop := x = 0 ∨ ((1 / 2 : ℝ) ^ k ≤ |x| ∧ |x| ≤ 2 ^ k)

theorem Tame.zero (k : Nat) : Tame k 0 := Or.inl rfl

theorem Tame.mono {j k : Nat} {x : ℝ} (h : Tame j x) (hjk : j ≤ k) : Tame k x := by
  rcases h with rfl | ⟨h1, h2⟩
  · exact .zero k
  · exact Or.inr ⟨(pow_le_pow_of_le_one (by norm_num) (by norm_num) hjk).trans h1, h2.trans (pow_le_pow_right₀ (by norm_num) hjk)⟩

theorem Tame.neg {k : Nat} {x : ℝ} (h : Tame k x) : Tame k (-x) := by
  rcases h with rfl | h
  · rw [neg_zero]; exact .zero k
  · exact Or.inr (by rwa [abs_neg])

theorem Tame.mul {j k : Nat} {x y : ℝ} (hx : Tame j x) (hy : Tame k y) : Tame (j + k) (x * y) := by
  rcases hx with rfl | ⟨h1, h2⟩
  · rw [zero_mul]; exact .zero _
  rcases hy with rfl | ⟨h3, h4⟩
  · rw [mul_zero]; exact .zero _
  refine Or.inr ?_
  rw [abs_mul, pow_add, pow_add]
  exact ⟨mul_le_mul h1 h3 (by positivity) (abs_nonneg _), mul_le_mul h2 h4 (abs_nonneg _) (by positivity)⟩

theorem Tame.inv {k : Nat} {x : ℝ} (h : Tame k x) : Tame k x⁻¹ := by
  rcases h with rfl | ⟨h1, h2⟩
  · rw [inv_zero]; exact .zero k
  · have h0 : 0 < |x| := lt_of_lt_of_le (by positivity) h1
    refine Or.inr ⟨?_, ?_⟩
    · rw [abs_inv, one_div, inv_pow]
      exact inv_anti₀ h0 h2
    · rw [abs_inv, inv_le_comm₀ h0 (by positivity), ← inv_pow, ← one_div]
      exact h1

theorem Tame.div {j k : Nat} {x y : ℝ} (hx : Tame j x) (hy : Tame k y) : Tame (j + k) (x / y) := by
  rw [div_eq_mul_inv]; exact hx.mul hy.inv

theorem Tame.rne {k : Nat} {x : ℝ} (h : Tame k x) : Tame (k + 1) (rne x) := by
  rcases h with rfl | ⟨h1, h2⟩
  · rw [rne_zero]; exact .zero _
  have h3 := rne_err x
  have h4 : |x| ≤ |Poseidon.rne x| + |Poseidon.rne x - x| := by
    have := abs_sub_abs_le_abs_sub x (Poseidon.rne x)
    rw [abs_sub_comm] at this
    linarith
  have h5 : |Poseidon.rne x| ≤ |x| + |Poseidon.rne x - x| := by
    have := abs_sub_abs_le_abs_sub (Poseidon.rne x) x
    linarith
  have h0 := abs_nonneg x
  have h6 : (2⁻¹ : ℝ) ^ 53 * |x| ≤ 1 / 2 * |x| := mul_le_mul_of_nonneg_right (by norm_num) h0
  refine Or.inr ⟨?_, ?_⟩
  · rw [pow_succ]; linarith
  · rw [pow_succ]; linarith

theorem Tame.add {k : Nat} {x y : ℝ} (hx : Tame k x) (hy : Tame k y) (h0 : 0 ≤ x) (h1 : 0 ≤ y) : Tame (k + 1) (x + y) := by
  rcases hx with rfl | ⟨h2, h3⟩
  · rw [zero_add]; exact hy.mono (by omega)
  rcases hy with rfl | ⟨h4, h5⟩
  · rw [add_zero]; exact Tame.mono (Or.inr ⟨h2, h3⟩) (by omega)
  refine Or.inr ?_
  rw [abs_of_nonneg h0] at h2 h3
  rw [abs_of_nonneg h1] at h4 h5
  rw [abs_of_nonneg (add_nonneg h0 h1), pow_succ, pow_succ]
  have : (0 : ℝ) < (1 / 2) ^ k := by positivity
  constructor <;> linarith

theorem Tame.min {k : Nat} {x y : ℝ} (hx : Tame k x) (hy : Tame k y) : Tame k (min x y) := by
  rcases min_choice x y with h | h <;> rw [h] <;> assumption

theorem Tame.int {k : Nat} {n : ℤ} (h : |(n : ℝ)| ≤ 2 ^ k) : Tame k (n : ℝ) := by
  by_cases h0 : n = 0
  · rw [h0, Int.cast_zero]; exact .zero k
  · refine Or.inr ⟨?_, h⟩
    have h1 : (1 : ℝ) ≤ |(n : ℝ)| := by exact_mod_cast Int.one_le_abs h0
    exact (pow_le_one₀ (by norm_num) (by norm_num)).trans h1

theorem Tame.nat {k n : Nat} (h : n ≤ 2 ^ k) : Tame k (n : ℝ) := by
  have := Tame.int (k := k) (n := (n : ℤ)) (by rw [Int.cast_natCast, abs_of_nonneg (Nat.cast_nonneg n)]; exact_mod_cast h)
  simpa using this

theorem Tame.floor {k : Nat} {x : ℝ} (h : Tame k x) (h0 : 0 ≤ x) : Tame k ((⌊x⌋ : ℤ) : ℝ) := by
  apply Tame.int
  have h1 : (0 : ℝ) ≤ (⌊x⌋ : ℤ) := by exact_mod_cast Int.floor_nonneg.2 h0
  rw [abs_of_nonneg h1]
  refine (Int.floor_le x).trans ?_
  rcases h with rfl | ⟨_, h⟩
  · positivity
  · exact (le_abs_self x).trans h

theorem Tame.ceil {k : Nat} {x : ℝ} (h : Tame k x) (h0 : 0 ≤ x) : Tame (k + 1) ((⌈x⌉ : ℤ) : ℝ) := by
  apply Tame.int
  have h1 : (0 : ℝ) ≤ (⌈x⌉ : ℤ) := by exact_mod_cast Int.ceil_nonneg h0
  rw [abs_of_nonneg h1, pow_succ]
  refine (Int.ceil_lt_add_one x).le.trans ?_
  have h2 : (1 : ℝ) ≤ 2 ^ k := one_le_pow₀ (by norm_num)
  rcases h with rfl | ⟨_, h⟩
  · linarith
  · linarith [le_abs_self x]

namespace F64

/-- In the normal range, IEEE rounding is rounding to 53 bits. -/
theorem round_eq {k : Nat} {x : ℝ} (h : Tame k x) (hk : k ≤ 1000) : round x = fin (rne x) := by
  have h1 : (2 : ℝ) ^ k ≤ 2 ^ 1000 := pow_le_pow_right₀ (by norm_num) hk
  have hb : ¬(2 : ℝ) ^ 1024 ≤ |rne x| := by
    rcases (h.rne : Tame (k + 1) (rne x)) with h2 | ⟨_, h2⟩
    · rw [h2, abs_zero]; norm_num
    · have : (2 : ℝ) ^ (k + 1) ≤ 2 ^ 1001 := pow_le_pow_right₀ (by norm_num) (by omega)
      have h3 : (2 : ℝ) ^ 1001 < 2 ^ 1024 := pow_lt_pow_right₀ (by norm_num) (by norm_num)
      intro h4; exact absurd (h4.trans (h2.trans this)) (not_le.2 h3)
  have he : max (Int.log 2 |x| - 52) (-1074) = ulpExp x := by
    rw [ulpExp]
    apply max_eq_left
    rcases h with rfl | ⟨h2, _⟩
    · rw [abs_zero, Int.log_zero_right]; norm_num
    · have h3 : (2 : ℝ) ^ (-(k : ℤ)) ≤ |x| := by
        rw [zpow_neg, zpow_natCast, ← inv_pow, ← one_div]; exact h2
      have h4 : Int.log 2 ((2 : ℝ) ^ (-(k : ℤ))) ≤ Int.log 2 |x| := Int.log_mono_right (by positivity) h3
      have h5 : Int.log 2 ((2 : ℝ) ^ (-(k : ℤ))) = -(k : ℤ) := by
        have := Int.log_zpow (R := ℝ) (b := 2) (by norm_num) (-(k : ℤ))
        simpa using this
      omega
  rw [round, he]
  exact if_neg hb

theorem add_eq {k : Nat} {x y : ℝ} (h : Tame k (x + y)) (hk : k ≤ 1000) : (fin x).add (fin y) = fin (rne (x + y)) := round_eq h hk
theorem mul_eq {k : Nat} {x y : ℝ} (h : Tame k (x * y)) (hk : k ≤ 1000) : (fin x).mul (fin y) = fin (rne (x * y)) := round_eq h hk
theorem sub_eq {k : Nat} {x y : ℝ} (h : Tame k (x - y)) (hk : k ≤ 1000) : (fin x).sub (fin y) = fin (rne (x - y)) := by
  rw [sub_eq_add_neg] at *; exact round_eq h hk
theorem div_eq {k : Nat} {x y : ℝ} (h : Tame k (x / y)) (hy : y ≠ 0) (hk : k ≤ 1000) : (fin x).div (fin y) = fin (rne (x / y)) := by
  rw [div, if_neg hy]; exact round_eq h hk

theorem ofNat_eq {n : Nat} (h : n ≤ 2 ^ 64) : ofNat n = fin (rne n) := round_eq (Tame.nat h) (by norm_num)

theorem le_eq (x y : ℝ) : (fin x).le (fin y) = true ↔ x ≤ y := by
  rw [le, partialCmp]
  split_ifs with h1 h2
  · exact ⟨fun _ => h1.le, fun _ => rfl⟩
  · exact ⟨fun h => absurd h (by decide), fun h => absurd h (not_le.2 h2)⟩
  · exact ⟨fun _ => not_lt.1 h2, fun _ => rfl⟩

theorem minBy_eq (x y : ℝ) : (fin x).minBy (fin y) = .ok (fin (min x y)) := by
  rw [minBy, partialCmp]
  rcases lt_trichotomy x y with h | h | h
  · rw [if_pos h, min_eq_left h.le]
  · rw [if_neg h.not_lt, if_neg h.symm.not_lt, min_eq_left h.le]
  · rw [if_neg h.not_gt, if_pos h, min_eq_right h.le]

theorem maxBy_eq (x y : ℝ) : (fin x).maxBy (fin y) = .ok (fin (max x y)) := by
  rw [maxBy, partialCmp]
  rcases lt_trichotomy x y with h | h | h
  · rw [if_pos h, max_eq_right h.le]
  · rw [if_neg h.not_lt, if_neg h.symm.not_lt, max_eq_right h.le]
  · rw [if_neg h.not_gt, if_pos h, max_eq_left h.le]

end F64

theorem LibmF.Accurate.real {L : LibmF} (h : L.Accurate) : L.real.Accurate := by
  constructor
  · intro x hx
    obtain ⟨y, h1, _, h2⟩ := h.ln x hx
    rw [LibmF.real]; dsimp only; rw [h1]; exact h2
  · intro x hx
    obtain ⟨y, h1, _, h2⟩ := h.log2 x hx
    rw [LibmF.real]; dsimp only; rw [h1]; exact h2

theorem LibmF.Accurate.ln_fin {L : LibmF} (h : L.Accurate) {x : ℝ} (hx : 1 ≤ x) : L.ln (.fin x) = .fin (L.real.ln x) := by
  obtain ⟨y, h1, _⟩ := h.ln x hx
  rw [LibmF.real]; dsimp only; rw [h1]; rfl

theorem LibmF.Accurate.log2_fin {L : LibmF} (h : L.Accurate) {x : ℝ} (hx : 1 ≤ x) : L.log2 (.fin x) = .fin (L.real.log2 x) := by
  obtain ⟨y, h1, _⟩ := h.log2 x hx
  rw [LibmF.real]; dsimp only; rw [h1]; rfl

theorem LibmF.Accurate.log2_double {L : LibmF} (h : L.Accurate) {x : ℝ} (hx : 1 ≤ x) : rne (L.real.log2 x) = L.real.log2 x := by
  obtain ⟨y, h1, h2, _⟩ := h.log2 x hx
  rw [LibmF.real]; dsimp only; rw [h1]; exact h2

section
variable {L : Libm} (hL : L.Accurate)
include hL

theorem Libm.Accurate.ln_nonneg {x : ℝ} (hx : 1 ≤ x) : 0 ≤ L.ln x := by simpa using hL.le_ln hx (Real.log_nonneg hx)

theorem Libm.Accurate.log2_nonneg {x : ℝ} (hx : 1 ≤ x) : 0 ≤ L.log2 x := by
  simpa using hL.le_log2 hx (Real.logb_nonneg (by norm_num) hx)

theorem Libm.Accurate.ln_tame {x : ℝ} (hx : x = 1 ∨ 2 ≤ x) (hx' : x ≤ 2 ^ 100) : Tame 8 (L.ln x) := by
  rcases hx with rfl | hx
  · have := hL.ln 1 le_rfl
    rw [Real.log_one, mul_zero, sub_zero] at this
    exact Or.inl (abs_nonpos_iff.1 this)
  · have h1 : (1 : ℝ) ≤ x := by linarith
    have h2 : Real.log x ≤ 70 := by
      calc Real.log x ≤ Real.log (2 ^ 100) := Real.log_le_log (by linarith) hx'
        _ = 100 * Real.log 2 := by rw [Real.log_pow]; norm_num
        _ ≤ 70 := by have := Real.log_two_lt_d9; linarith
    have h3 : (0.69 : ℝ) ≤ Real.log x := by
      have := Real.log_two_gt_d9
      have := Real.log_le_log (by norm_num) hx
      linarith
    have h4 := hL.ln_le h1 h2
    have h5 := hL.le_ln h1 h3
    have h6 := hL.ln_nonneg h1
    refine Or.inr ?_
    rw [abs_of_nonneg h6]
    constructor
    · norm_num at h5 ⊢; linarith
    · norm_num at h4 ⊢; linarith

theorem Libm.Accurate.log2_tame {x : ℝ} (hx : x = 1 ∨ 2 ≤ x) (hx' : x ≤ 2 ^ 100) : Tame 8 (L.log2 x) := by
  rcases hx with rfl | hx
  · have := hL.log2 1 le_rfl
    rw [Real.logb_one, mul_zero, sub_zero] at this
    exact Or.inl (abs_nonpos_iff.1 this)
  · have h1 : (1 : ℝ) ≤ x := by linarith
    have h4 := hL.log2_le h1 (logb2_le (by linarith) hx')
    have h5 := hL.le_log2 h1 (le_logb2 (n := 1) (by linarith) (by simpa using hx))
    have h6 := hL.log2_nonneg h1
    refine Or.inr ?_
    rw [abs_of_nonneg h6]
    constructor
    · norm_num at h5 ⊢; linarith
    · norm_num at h4 ⊢; linarith

end

/-- A positive integer as a double. -/
theorem rne_nat_cases {n : Nat} (h1 : 1 ≤ n) (h2 : n ≤ 2 ^ 64) : (rne n = 1 ∨ 2 ≤ rne (n : ℝ)) ∧ rne (n : ℝ) ≤ 2 ^ 100 ∧ 1 ≤ rne (n : ℝ) := by
  have h3 : rne (n : ℝ) ≤ 2 ^ 100 := by
    have h4 : (n : ℝ) ≤ 2 ^ 64 := by exact_mod_cast h2
    refine rne_le_of h4 (by norm_num) (by norm_num)
  rcases Nat.lt_or_ge n 2 with h | h
  · have : n = 1 := by omega
    subst this
    rw [Nat.cast_one, rne_one] at *
    exact ⟨Or.inl rfl, h3, le_rfl⟩
  · have h4 : rne ((2 : Nat) : ℝ) ≤ rne (n : ℝ) := rne_mono (by exact_mod_cast h)
    rw [rne_natCast (by norm_num)] at h4
    have h5 : (2 : ℝ) ≤ rne (n : ℝ) := by exact_mod_cast h4
    exact ⟨Or.inr h5, h3, by linarith⟩

theorem Target.asUsize_fin (m : Target) (x : ℝ) : m.asUsize (.fin x) = min (Poseidon.asUsize x) (m.W - 1) := rfl

section arith
variable {m : Target}

theorem Target.add_eq {a b : Nat} (h : a + b < m.W) : m.arith.add a b = .ok (a + b) := by
  rw [Target.arith]; split_ifs
  · exact if_pos h
  · exact congrArg _ (Nat.mod_eq_of_lt h)

theorem Target.mul_eq {a b : Nat} (h : a * b < m.W) : m.arith.mul a b = .ok (a * b) := by
  rw [Target.arith]; split_ifs
  · exact if_pos h
  · exact congrArg _ (Nat.mod_eq_of_lt h)

theorem Target.sub_eq {a b : Nat} (h : b ≤ a) (ha : a < m.W) : m.arith.sub a b = .ok (a - b) := by
  rw [Target.arith]; split_ifs
  · exact if_pos h
  · refine congrArg Except.ok ?_
    rw [show a + m.W - b = (a - b) + m.W by omega, Nat.add_mod_right]
    exact Nat.mod_eq_of_lt (by omega)

end arith

namespace Mach

/-! ### The logarithm of the modulus -/

theorem le_log2Loop : ∀ (p b : Nat), b ≤ (Poseidon.log2Loop p b).2 := by
  intro p b
  obtain ⟨k, h, _⟩ := log2Loop_spec p b
  rw [h]; exact Nat.le_add_right _ _

theorem log2Loop_eq (m : Target) : ∀ (p b : Nat), (Poseidon.log2Loop p b).2 < 2 ^ 31 →
    log2Loop m p b = .ok ((Poseidon.log2Loop p b).1, ((Poseidon.log2Loop p b).2 : ℤ)) := by
  intro p
  induction p using Nat.strong_induction_on with
  | _ p ih =>
    intro b h
    rw [log2Loop, Poseidon.log2Loop]
    rw [Poseidon.log2Loop] at h
    split_ifs with hp
    · rw [if_pos hp] at h
      have h1 : b + 48 < 2 ^ 31 := lt_of_le_of_lt (le_log2Loop _ _) h
      have h2 : m.i32Add (b : ℤ) 48 = .ok ((b + 48 : Nat) : ℤ) := by
        rw [Target.i32Add, if_pos (by omega)]
        push_cast; rfl
      rw [h2, ok_bind]
      refine ih (p >>> 48) ?_ (b + 48) h
      rw [Nat.shiftRight_eq_div_pow]
      exact Nat.div_lt_self (by omega) (by norm_num)
    · rfl

theorem bytesLe_length : ∀ (n p : Nat), p < 256 ^ (n + 1) → (bytesLe p).length ≤ n + 1 := by
  intro n
  induction n with
  | zero => intro p h; rw [bytesLe, if_pos (by simpa using h)]; simp
  | succ n ih =>
    intro p h
    rw [bytesLe]
    split_ifs with h1
    · simp
    · rw [List.length_cons]
      have := ih (p / 256) (by rw [Nat.div_lt_iff_lt_mul (by norm_num)]; rwa [pow_succ] at h)
      omega

theorem leValue_zeros (n : Nat) : leValue (List.replicate n 0) = 0 := by
  induction n with
  | zero => rfl
  | succ n ih => rw [List.replicate_succ, leValue, ih]

theorem bytesLe_value (n : Nat) : ∀ p : Nat, leValue (bytesLe p ++ List.replicate n 0) = p := by
  intro p
  induction p using Nat.strong_induction_on with
  | _ p ih =>
    rw [bytesLe]
    split_ifs with h
    · rw [List.singleton_append, leValue, leValue_zeros]; omega
    · rw [List.cons_append, leValue, ih (p / 256) (by omega)]
      omega

theorem log2Big_eq {L : LibmF} (hL : L.Accurate) (m : Target) {p : Nat} (hp : 1 ≤ p) (hp' : numBits p ≤ 2147483648) :
    log2Big L m p = .ok (.fin (Poseidon.log2Big L.real p)) ∧ 0 ≤ Poseidon.log2Big L.real p ∧ Tame 40 (Poseidon.log2Big L.real p) := by
  obtain ⟨k, hk, hk1, hk2⟩ := log2Loop_spec p 0
  rw [zero_add] at hk
  have hb : 48 * k < 2 ^ 31 := by
    rcases k with _ | k
    · norm_num
    · have h1 := hk2 k (by omega)
      rw [Nat.shiftRight_eq_div_pow, Nat.lt_div_iff_mul_lt (by positivity)] at h1
      have h2 : 2 ^ (48 * k + 50) ≤ p := by
        rw [pow_add, mul_comm]
        exact h1.le.trans (Nat.sub_le _ _)
      have h3 := (Nat.le_log2 (by omega)).2 h2
      rw [numBits, if_neg (by omega)] at hp'
      omega
  obtain ⟨h1, _⟩ := log2_block hp hk2
  have hs : (Poseidon.log2Loop p 0).2 < 2 ^ 31 := by rw [hk]; exact hb
  have hl := log2Loop_eq m p 0 hs
  rw [hk] at hl
  have hlen : (bytesLe (p >>> (48 * k))).length ≤ 7 := bytesLe_length 6 _ (by omega)
  have hX := rne_nat_cases h1 (by omega)
  have t1 : Tame 32 (rne ((48 * k : Nat) : ℝ)) := (Tame.nat (k := 31) (by omega)).rne
  have t2 : Tame 32 (L.real.log2 (rne ((p >>> (48 * k) : Nat) : ℝ))) := (hL.real.log2_tame hX.1 hX.2.1).mono (by norm_num)
  have n1 : 0 ≤ rne ((48 * k : Nat) : ℝ) := rne_nonneg (Nat.cast_nonneg _)
  have n2 : 0 ≤ L.real.log2 (rne ((p >>> (48 * k) : Nat) : ℝ)) := hL.real.log2_nonneg hX.2.2
  have hr : Poseidon.log2Big L.real p = rne (rne ((48 * k : Nat) : ℝ) + L.real.log2 (rne ((p >>> (48 * k) : Nat) : ℝ))) := by
    rw [Poseidon.log2Big, hk]
  refine ⟨?_, ?_, ?_⟩
  · rw [log2Big, show ((0 : ℤ)) = ((0 : Nat) : ℤ) from rfl, hl, ok_bind]
    dsimp only
    rw [if_neg (by rw [List.length_append, List.length_replicate]; omega), bytesLe_value, F64.ofNat_eq (by omega), hL.log2_fin hX.2.2,
      Int.cast_natCast, F64.round_eq (Tame.nat (k := 31) (by omega)) (by norm_num), F64.add_eq (t1.add t2 n1 n2) (by norm_num), hr]
    rfl
  · rw [hr]; exact rne_nonneg (add_nonneg n1 n2)
  · rw [hr]; exact (t1.add t2 n1 n2).rne.mono (by norm_num)

/-! ### Literals -/

theorem round_one : F64.round 1 = .fin 1 := by
  rw [F64.round_eq (k := 1) (by simpa using Tame.nat (k := 1) (n := 1) (by norm_num)) (by norm_num), rne_one]

theorem round_two : F64.round 2 = .fin 2 := by
  rw [F64.round_eq (k := 1) (by simpa using Tame.nat (k := 1) (n := 2) (by norm_num)) (by norm_num), rne_ofNat 2 (by norm_num)]

theorem round_three : F64.round 3 = .fin 3 := by
  rw [F64.round_eq (k := 2) (by simpa using Tame.nat (k := 2) (n := 3) (by norm_num)) (by norm_num), rne_ofNat 3 (by norm_num)]

theorem tame_half : Tame 1 (0.5 : ℝ) := Or.inr (by rw [abs_of_nonneg (by norm_num)]; norm_num)

theorem round_half : F64.round 0.5 = .fin 0.5 := by
  rw [F64.round_eq tame_half (by norm_num), show (0.5 : ℝ) = 1 / 2 by norm_num, rne_half rne_one]

/-- The difference of an integer and a double is not too small. -/
theorem tame_int_sub {n : ℤ} {c : ℝ} (hn : |(n : ℝ)| ≤ 2 ^ 40) (hc : rne c = c) (h1 : 1 / 2 ≤ c) (h2 : c ≤ 2 ^ 40) : Tame 60 (n - c) := by
  have hu : -53 ≤ ulpExp c := by
    have h3 : Int.log 2 ((2 : ℝ) ^ (-1 : ℤ)) ≤ Int.log 2 c := Int.log_mono_right (by norm_num) (by norm_num; linarith)
    have h4 : Int.log 2 ((2 : ℝ) ^ (-1 : ℤ)) = -1 := by
      have := Int.log_zpow (R := ℝ) (b := 2) (by norm_num) (-1)
      simpa using this
    rw [ulpExp, abs_of_nonneg (by linarith)]
    omega
  obtain ⟨j, hj⟩ : ∃ j : Nat, ulpExp c = j - 53 := ⟨(ulpExp c + 53).toNat, by omega⟩
  set N : ℤ := n * 2 ^ 53 - roundEven (c / 2 ^ ulpExp c) * 2 ^ j with hN
  have hv : (n - c) * 2 ^ 53 = (N : ℝ) := by
    have h3 : c = (roundEven (c / 2 ^ ulpExp c) : ℝ) * 2 ^ ulpExp c := by rw [rne] at hc; exact hc.symm
    have h4 : (2 : ℝ) ^ ulpExp c * 2 ^ 53 = 2 ^ j := by
      rw [hj, zpow_sub₀ (by norm_num), zpow_natCast, div_mul_eq_mul_div, div_eq_iff (by positivity)]
      norm_num
    rw [hN]
    push_cast
    rw [← h4, sub_mul, ← mul_assoc, ← h3]
    norm_num
  by_cases h0 : N = 0
  · refine Or.inl ?_
    rw [h0, Int.cast_zero] at hv
    exact (mul_eq_zero.1 hv).resolve_right (by norm_num)
  · have h3 : (1 : ℝ) ≤ |(N : ℝ)| := by exact_mod_cast Int.one_le_abs h0
    rw [← hv, abs_mul, abs_of_nonneg (by positivity : (0 : ℝ) ≤ 2 ^ 53)] at h3
    refine Or.inr ⟨?_, ?_⟩
    · norm_num at h3 ⊢; linarith
    · have := abs_sub (n : ℝ) c
      have h5 : |c| ≤ 2 ^ 40 := by rw [abs_of_nonneg (by linarith)]; exact h2
      norm_num at *
      linarith

/-- The exponents the generator may pass to the search. -/
def GoodAlpha (alpha : Alpha) : Prop := ∀ e, alpha = .exponent e → 3 ≤ e ∧ e < 2 ^ 32

section bounds
variable {L : LibmF} (hL : L.Accurate) {m : Target} {input : GenInput} {lp : ℝ} {alpha : Alpha}
  (ht : 1 ≤ input.t) (ht' : input.t ≤ 2 ^ 64) (hM : input.security ≤ 2 ^ 64) (hlp : 0 ≤ lp) (tlp : Tame 40 lp) (ha : GoodAlpha alpha)

include hL ht' hM hlp tlp ha in
theorem statistical_eq : statisticalAttackFullRounds L input (.fin lp) alpha = Poseidon.statisticalAttackFullRounds L.real input lp alpha := by
  have key : ∀ c : ℝ, rne c = c → 1 / 2 ≤ c → c ≤ 2 ^ 40 →
      (((F64.ofNat input.security).le ((((F64.fin lp).floor).sub (.fin c)).mul ((F64.ofNat input.t).add (F64.round 1)))) = true ↔
        rne input.security ≤ rne (rne (⌊lp⌋ - c) * rne (rne input.t + 1))) := by
    intro c h1 h2 h3
    have hf : |((⌊lp⌋ : ℤ) : ℝ)| ≤ 2 ^ 40 := by
      rcases tlp.floor hlp with h | h
      · rw [h, abs_zero]; positivity
      · exact h.2
    have t1 := tame_int_sub hf h1 h2 h3
    have t2 : Tame 65 (rne (input.t : ℝ)) := (Tame.nat ht').rne
    have t3 : Tame 66 (rne (input.t : ℝ) + 1) :=
      t2.add (by simpa using Tame.nat (k := 65) (n := 1) (by norm_num)) (rne_nonneg (Nat.cast_nonneg _)) (by norm_num)
    rw [F64.ofNat_eq hM, F64.ofNat_eq ht', round_one, F64.add_eq t3 (by norm_num), F64.floor, F64.sub_eq t1 (by norm_num),
      F64.mul_eq (t1.rne.mul t3.rne) (by norm_num), F64.le_eq]
  unfold statisticalAttackFullRounds Poseidon.statisticalAttackFullRounds
  cases alpha with
  | inverse =>
    dsimp only
    rw [round_two]
    by_cases h : rne (input.security : ℝ) ≤ rne (rne (⌊lp⌋ - 2) * rne (rne input.t + 1))
    · rw [if_pos ((key 2 (rne_ofNat 2 (by norm_num)) (by norm_num) (by norm_num)).2 h), if_pos h]
    · rw [if_neg fun hh => h ((key 2 (rne_ofNat 2 (by norm_num)) (by norm_num) (by norm_num)).1 hh), if_neg h]
  | exponent e =>
    obtain ⟨h3, h4⟩ := ha e rfl
    have he : rne (e : ℝ) = e := rne_natCast (by omega)
    have he1 : (e : ℝ) - 1 = ((e - 1 : Nat) : ℝ) := by rw [Nat.cast_sub (by omega), Nat.cast_one]
    have he2 : rne ((e : ℝ) - 1) = ((e - 1 : Nat) : ℝ) := by rw [he1, rne_natCast (by omega)]
    have ts : Tame 32 ((e : ℝ) - 1) := by rw [he1]; exact Tame.nat (by omega)
    have h2' : (2 : ℝ) ≤ ((e - 1 : Nat) : ℝ) := by exact_mod_cast (by omega : 2 ≤ e - 1)
    have h1' : (1 : ℝ) ≤ ((e - 1 : Nat) : ℝ) := by linarith
    have hu : ((e - 1 : Nat) : ℝ) ≤ 2 ^ 32 := by exact_mod_cast (by omega : e - 1 ≤ 2 ^ 32)
    dsimp only
    rw [round_one, F64.ofNat_eq (n := e) (by omega), he, F64.sub_eq ts (by norm_num), he2, hL.log2_fin h1']
    have k1 := hL.log2_double h1'
    have k2 : 1 / 2 ≤ L.real.log2 ((e - 1 : Nat) : ℝ) := by
      have := hL.real.le_log2 h1' (le_logb2 (n := 1) (by linarith) (by simpa using h2'))
      norm_num at this ⊢; linarith
    have k3 : L.real.log2 ((e - 1 : Nat) : ℝ) ≤ 2 ^ 40 := by
      have := hL.real.log2_le h1' (logb2_le (n := 32) (by linarith) hu)
      norm_num at this ⊢; linarith
    have kk := key _ k1 k2 k3
    rw [round_one] at kk
    by_cases h : rne (input.security : ℝ) ≤ rne (rne (⌊lp⌋ - L.real.log2 ((e - 1 : Nat) : ℝ)) * rne (rne input.t + 1))
    · rw [if_pos (kk.2 h), if_pos h]
    · rw [if_neg fun hh => h (kk.1 hh), if_neg h]

include hL in
/-- `2f64.log(exp)` and `(t as f64).log(exp)` -/
theorem log_eq {n e : Nat} (hn : 1 ≤ n) (hn' : n ≤ 2 ^ 64) (he : 3 ≤ e) (he' : e < 2 ^ 32) :
    L.log (.fin (rne n)) (F64.ofNat e) = .fin (L.real.log (rne n) (rne e)) ∧ Tame 17 (L.real.log (rne n) (rne e)) ∧
      0 ≤ L.real.log (rne n) (rne e) := by
  have hX := rne_nat_cases hn hn'
  have hE := rne_nat_cases (n := e) (by omega) (by omega)
  have h3 : (3 : ℝ) ≤ rne (e : ℝ) := by
    rw [rne_natCast (by omega)]; exact_mod_cast he
  have hne : L.real.ln (rne (e : ℝ)) ≠ 0 := by
    have h4 : (0.69 : ℝ) ≤ Real.log (rne (e : ℝ)) := by
      have := Real.log_two_gt_d9
      have := Real.log_le_log (by norm_num) ((by linarith : (2 : ℝ) ≤ rne (e : ℝ)))
      linarith
    have := hL.real.le_ln hE.2.2 h4
    intro h0
    rw [h0] at this
    norm_num at this
  have t1 := (hL.real.ln_tame hX.1 hX.2.1).div (hL.real.ln_tame hE.1 hE.2.1)
  refine ⟨?_, t1.rne, hL.real.log_nonneg hX.2.2 hE.2.2⟩
  rw [LibmF.log, F64.ofNat_eq (by omega), hL.ln_fin hX.2.2, hL.ln_fin hE.2.2, F64.div_eq t1 hne (by norm_num), Libm.log]

theorem rne_two : rne ((2 : Nat) : ℝ) = 2 := by rw [rne_natCast (by norm_num)]; norm_num

include hL in
theorem log_two_eq {e : Nat} (he : 3 ≤ e) (he' : e < 2 ^ 32) :
    L.log (.fin 2) (F64.ofNat e) = .fin (L.real.log 2 (rne e)) ∧ Tame 17 (L.real.log 2 (rne e)) ∧ 0 ≤ L.real.log 2 (rne e) := by
  have := log_eq hL (n := 2) (by norm_num) (by norm_num) he he'
  rwa [rne_two] at this

include hL ht ht' hM hlp tlp ha in
theorem interpolation_eq : algebraicAttackInterpolation L m input (.fin lp) alpha =
    .ok (min (Poseidon.algebraicAttackInterpolation L.real input lp alpha) (m.W - 1)) := by
  have tM : Tame 65 (rne (input.security : ℝ)) := (Tame.nat hM).rne
  have nM : 0 ≤ rne (input.security : ℝ) := rne_nonneg (Nat.cast_nonneg _)
  have tmin : Tame 65 (min (rne (input.security : ℝ)) lp) := tM.min (tlp.mono (by norm_num))
  have nmin : 0 ≤ min (rne (input.security : ℝ)) lp := le_min nM hlp
  have hT := rne_nat_cases ht ht'
  rw [algebraicAttackInterpolation, F64.ofNat_eq hM, F64.minBy_eq, ok_bind]
  cases alpha with
  | inverse =>
    have t1 := hL.real.log2_tame hT.1 hT.2.1
    have n1 := hL.real.log2_nonneg hT.2.2
    have t2 := tame_half.mul tmin
    have n2 : 0 ≤ rne (0.5 * min (rne (input.security : ℝ)) lp) := rne_nonneg (mul_nonneg (by norm_num) nmin)
    have n1' : (0 : ℝ) ≤ (⌈L.real.log2 (rne (input.t : ℝ))⌉ : ℤ) := by exact_mod_cast Int.ceil_nonneg n1
    have n2' : (0 : ℝ) ≤ (⌈rne (0.5 * min (rne (input.security : ℝ)) lp)⌉ : ℤ) := by exact_mod_cast Int.ceil_nonneg n2
    dsimp only
    rw [F64.ofNat_eq ht', hL.log2_fin hT.2.2, round_half, F64.mul_eq t2 (by norm_num), F64.ceil, F64.ceil,
      F64.add_eq (((t1.ceil n1).mono (by norm_num : 9 ≤ 68)).add (t2.rne.ceil n2) n1' n2') (by norm_num), Target.asUsize_fin]
    rfl
  | exponent e =>
    obtain ⟨h3, h4⟩ := ha e rfl
    obtain ⟨e1, t1, n1⟩ := log_two_eq hL h3 h4
    obtain ⟨e2, t2, n2⟩ := log_eq hL ht ht' h3 h4
    have t3 := t1.mul tmin
    have n3 : 0 ≤ rne (L.real.log 2 (rne e) * min (rne (input.security : ℝ)) lp) := rne_nonneg (mul_nonneg n1 nmin)
    have n3' : (0 : ℝ) ≤ (⌈rne (L.real.log 2 (rne e) * min (rne (input.security : ℝ)) lp)⌉ : ℤ) := by exact_mod_cast Int.ceil_nonneg n3
    dsimp only
    rw [round_two, e1, F64.ofNat_eq ht', e2, F64.mul_eq t3 (by norm_num), F64.ceil,
      F64.add_eq ((t3.rne.ceil n3).add (t2.mono (by norm_num)) n3' n2) (by norm_num), F64.ceil, Target.asUsize_fin]
    rfl

include hL ht ht' hM hlp tlp ha in
theorem grobner_eq (hW : input.t < m.W) : ∃ g, Poseidon.algebraicAttackGrobnerBasisV1 L.real input lp alpha = .ok g ∧
    algebraicAttackGrobnerBasisV1 L m input (.fin lp) alpha = .ok (min g (m.W - 1)) := by
  have tM : Tame 65 (rne (input.security : ℝ)) := (Tame.nat hM).rne
  have nM : 0 ≤ rne (input.security : ℝ) := rne_nonneg (Nat.cast_nonneg _)
  have tmin : Tame 65 (min (rne (input.security : ℝ)) lp) := tM.min (tlp.mono (by norm_num))
  have nmin : 0 ≤ min (rne (input.security : ℝ)) lp := le_min nM hlp
  have hT := rne_nat_cases ht ht'
  have tt : Tame 65 (rne (input.t : ℝ)) := (Tame.nat ht').rne
  have tt1 : Tame 66 (rne (input.t : ℝ) + 1) :=
    tt.add (by simpa using Tame.nat (k := 65) (n := 1) (by norm_num)) (by linarith [hT.2.2]) (by norm_num)
  have nt1 : 1 ≤ rne (rne (input.t : ℝ) + 1) := by
    have := rne_mono (by linarith [hT.2.2] : (1 : ℝ) ≤ rne (input.t : ℝ) + 1)
    rwa [rne_one] at this
  have ne1 : rne (rne (input.t : ℝ) + 1) ≠ 0 := by linarith
  have tm1 : Tame 65 (rne ((input.t - 1 : Nat) : ℝ)) := (Tame.nat (by omega)).rne
  have nm1 : 0 ≤ rne ((input.t - 1 : Nat) : ℝ) := rne_nonneg (Nat.cast_nonneg _)
  rw [Poseidon.algebraicAttackGrobnerBasisV1, usub, if_pos ht, ok_bind]
  unfold algebraicAttackGrobnerBasisV1
  dsimp only
  cases alpha with
  | inverse =>
    refine ⟨_, rfl, ?_⟩
    have tl := hL.real.log2_tame hT.1 hT.2.1
    have nl := hL.real.log2_nonneg hT.2.2
    have nl' : (0 : ℝ) ≤ (⌈L.real.log2 (rne (input.t : ℝ))⌉ : ℤ) := by exact_mod_cast Int.ceil_nonneg nl
    have tl' : Tame 68 ((⌈L.real.log2 (rne (input.t : ℝ))⌉ : ℤ) : ℝ) := (tl.ceil nl).mono (by norm_num)
    have t2 := tame_half.mul tmin
    have n2 : 0 ≤ rne (0.5 * min (rne (input.security : ℝ)) lp) := rne_nonneg (mul_nonneg (by norm_num) nmin)
    have n2' : (0 : ℝ) ≤ (⌈rne (0.5 * min (rne (input.security : ℝ)) lp)⌉ : ℤ) := by exact_mod_cast Int.ceil_nonneg n2
    have t3 : Tame 132 (rne (input.security : ℝ) / rne (rne (input.t : ℝ) + 1)) := tM.div tt1.rne
    have n3 : 0 ≤ rne (rne (input.security : ℝ) / rne (rne (input.t : ℝ) + 1)) := rne_nonneg (div_nonneg nM (by linarith))
    have n3' : (0 : ℝ) ≤ (⌈rne (rne (input.security : ℝ) / rne (rne (input.t : ℝ) + 1))⌉ : ℤ) := by exact_mod_cast Int.ceil_nonneg n3
    have t4 := tame_half.mul tlp
    have n4 : 0 ≤ rne (0.5 * lp) := rne_nonneg (mul_nonneg (by norm_num) hlp)
    have n4' : (0 : ℝ) ≤ (⌈rne (0.5 * lp)⌉ : ℤ) := by exact_mod_cast Int.ceil_nonneg n4
    have t5 := (t3.rne.ceil n3).min ((t4.rne.ceil n4).mono (by norm_num : 43 ≤ 134))
    have n5 := le_min n3' n4'
    have t6 := (tm1.mono (by norm_num : 65 ≤ 68)).add tl' nm1 nl'
    have n6 : 0 ≤ rne (rne ((input.t - 1 : Nat) : ℝ) + (⌈L.real.log2 (rne (input.t : ℝ))⌉ : ℤ)) := rne_nonneg (add_nonneg nm1 nl')
    rw [F64.ofNat_eq hM, F64.ofNat_eq ht', F64.minBy_eq, ok_bind, round_half, F64.mul_eq t2 (by norm_num), hL.log2_fin hT.2.2, round_one,
      F64.add_eq tt1 (by norm_num), F64.div_eq t3 ne1 (by norm_num), F64.mul_eq t4 (by norm_num)]
    simp only [F64.ceil]
    rw [F64.minBy_eq, ok_bind, Target.sub_eq ht hW, ok_bind, F64.ofNat_eq (by omega), F64.add_eq ((t2.rne.ceil n2).add tl' n2' nl') (by norm_num),
      F64.add_eq t6 (by norm_num), F64.add_eq ((t6.rne.mono (by norm_num)).add t5 n6 n5) (by norm_num), F64.maxBy_eq, ok_bind, F64.floor,
      Target.asUsize_fin]
    rfl
  | exponent e =>
    refine ⟨_, rfl, ?_⟩
    obtain ⟨h3, h4⟩ := ha e rfl
    obtain ⟨e1, t1, n1⟩ := log_two_eq hL h3 h4
    have t3 : Tame 2 (3 : ℝ) := by simpa using Tame.nat (k := 2) (n := 3) (by norm_num)
    have t2 : Tame 1 (2 : ℝ) := by simpa using Tame.nat (k := 1) (n := 2) (by norm_num)
    have ta := tM.div t3
    have na : 0 ≤ rne (rne (input.security : ℝ) / 3) := rne_nonneg (div_nonneg nM (by norm_num))
    have tb := tlp.div t2
    have nb : 0 ≤ rne (lp / 2) := rne_nonneg (div_nonneg hlp (by norm_num))
    have tc := ta.rne.min (tb.rne.mono (by norm_num : 42 ≤ 68))
    have td := t1.mul tc
    have tf := t1.mul tM
    have nf := rne_nonneg (mul_nonneg n1 nM)
    have tg := tf.rne.div tt1.rne
    have ng : 0 ≤ rne (rne (L.real.log 2 (rne e) * rne input.security) / rne (rne input.t + 1)) := rne_nonneg (div_nonneg nf (by linarith))
    have th := t1.mul tlp
    have nh := rne_nonneg (mul_nonneg n1 hlp)
    have ti := th.rne.div t2
    have ni : 0 ≤ rne (rne (L.real.log 2 (rne e) * lp) / 2) := rne_nonneg (div_nonneg nh (by norm_num))
    have tj := tg.rne.min (ti.rne.mono (by norm_num : 60 ≤ 151))
    have nj := le_min ng ni
    simp only [round_two, e1]
    rw [F64.ofNat_eq hM, F64.ofNat_eq ht', round_three, F64.div_eq ta (by norm_num) (by norm_num), F64.div_eq tb (by norm_num) (by norm_num),
      F64.minBy_eq, ok_bind, F64.mul_eq tf (by norm_num), round_one, F64.add_eq tt1 (by norm_num), F64.div_eq tg ne1 (by norm_num),
      F64.mul_eq th (by norm_num), F64.div_eq ti (by norm_num) (by norm_num), F64.minBy_eq, ok_bind, Target.sub_eq ht hW, ok_bind, F64.ofNat_eq (by omega),
      F64.mul_eq td (by norm_num), F64.add_eq ((tm1.mono (by norm_num)).add tj nm1 nj) (by norm_num), F64.maxBy_eq, ok_bind, F64.floor,
      Target.asUsize_fin]
    rfl

include hL ht ht' hlp in
/-- The Gröbner bound is at least `t - 1`. -/
theorem le_grobner {g : Nat} (hg : Poseidon.algebraicAttackGrobnerBasisV1 L.real input lp alpha = .ok g) (ha : GoodAlpha alpha) :
    min (input.t - 1) (2 ^ 20) ≤ g := by
  have hT := rne_nat_cases ht ht'
  have nM : 0 ≤ rne (input.security : ℝ) := rne_nonneg (Nat.cast_nonneg _)
  set k := min (input.t - 1) (2 ^ 20) with hk
  have hk1 : k ≤ input.t - 1 := min_le_left _ _
  have hkr : rne (k : ℝ) = k := rne_natCast (by omega)
  have up : ∀ x : ℝ, (k : ℝ) ≤ x → (k : ℝ) ≤ rne x := fun x hx => by
    have := rne_mono hx
    rwa [hkr] at this
  have h0 : (k : ℝ) ≤ rne ((input.t - 1 : Nat) : ℝ) := up _ (by exact_mod_cast hk1)
  have fin : ∀ a b : ℝ, (k : ℝ) ≤ b → k ≤ asUsize (⌊max a b⌋ : ℤ) := fun a b hb => by
    rw [asUsize]
    refine Nat.le_floor ?_
    have h : (k : ℤ) ≤ ⌊max a b⌋ := Int.le_floor.2 (by push_cast; exact le_max_of_le_right hb)
    exact_mod_cast h
  rw [Poseidon.algebraicAttackGrobnerBasisV1, usub, if_pos ht, ok_bind] at hg
  cases alpha with
  | inverse =>
    have n1 : (0 : ℝ) ≤ (⌈L.real.log2 (rne (input.t : ℝ))⌉ : ℤ) := by
      exact_mod_cast Int.ceil_nonneg (hL.real.log2_nonneg hT.2.2)
    have n2 : (0 : ℝ) ≤ (⌈rne (rne (input.security : ℝ) / rne (rne (input.t : ℝ) + 1))⌉ : ℤ) := by
      exact_mod_cast Int.ceil_nonneg (rne_nonneg (div_nonneg nM (rne_nonneg (by linarith [hT.2.2]))))
    have n3 : (0 : ℝ) ≤ (⌈rne (0.5 * lp)⌉ : ℤ) := by
      exact_mod_cast Int.ceil_nonneg (rne_nonneg (mul_nonneg (by norm_num) hlp))
    cases hg
    refine fin _ _ (up _ ?_)
    have h1 := up (rne ((input.t - 1 : Nat) : ℝ) + (⌈L.real.log2 (rne (input.t : ℝ))⌉ : ℤ)) (by linarith)
    have h2 := le_min n2 n3
    linarith
  | exponent e =>
    obtain ⟨h3, h4⟩ := ha e rfl
    have nE := rne_nat_cases (n := e) (by omega) (by omega)
    have n1 := hL.real.log_nonneg (by norm_num : (1 : ℝ) ≤ 2) nE.2.2
    cases hg
    refine fin _ _ (up _ ?_)
    have h1 : 0 ≤ min (rne (rne (L.real.log 2 (rne e) * rne input.security) / rne (rne input.t + 1)))
        (rne (rne (L.real.log 2 (rne e) * lp) / 2)) :=
      le_min (rne_nonneg (div_nonneg (rne_nonneg (mul_nonneg n1 nM)) (rne_nonneg (by linarith [hT.2.2]))))
        (rne_nonneg (div_nonneg (rne_nonneg (mul_nonneg n1 hlp)) (by norm_num)))
    linarith

include hL ht ht' in
theorem inverse_floor_le {r : RoundNumbers} (hr : Candidate r) :
    asUsize (⌊rne (rne r.full * L.real.log2 (rne input.t))⌋ : ℤ) ≤ 2 ^ 16 ∧ Tame 15 (rne r.full * L.real.log2 (rne input.t)) := by
  obtain ⟨h1, h2, h3, h4⟩ := hr
  have hT := rne_nat_cases ht ht'
  have t1 := hL.real.log2_tame hT.1 hT.2.1
  have n1 := hL.real.log2_nonneg hT.2.2
  have e : rne (r.full : ℝ) = r.rF := rne_natCast (by rw [RoundNumbers.full]; omega)
  have tt : Tame 15 (rne r.full * L.real.log2 (rne input.t)) := by
    rw [e]
    exact (Tame.nat (k := 7) (n := r.rF) (by omega)).mul t1
  refine ⟨?_, tt⟩
  have n2 : 0 ≤ rne (rne r.full * L.real.log2 (rne input.t)) := rne_nonneg (mul_nonneg (by rw [e]; positivity) n1)
  have h5 : rne (rne r.full * L.real.log2 (rne input.t)) ≤ 2 ^ 16 := by
    rcases tt.rne with h | h
    · rw [h]; positivity
    · rw [abs_of_nonneg n2] at h; exact h.2
  have h6 : ⌊rne (rne r.full * L.real.log2 (rne input.t))⌋ ≤ 2 ^ 16 := by
    have := Int.floor_le_floor h5
    refine this.trans (le_of_eq ?_)
    norm_num
  rw [asUsize]
  refine Nat.floor_le_of_le ?_
  exact_mod_cast h6

include hL ht ht' in
theorem inverseRounds_eq (hm : m.Usual) {r : RoundNumbers} (hr : Candidate r) :
    inverseRounds L m input r = .ok (Poseidon.inverseRounds L.real input r) ∧ Poseidon.inverseRounds L.real input r ≤ 2 ^ 17 := by
  obtain ⟨hb, tt⟩ := inverse_floor_le hL ht ht' hr
  obtain ⟨h1, h2, h3, h4⟩ := hr
  have hT := rne_nat_cases ht ht'
  have hp : r.partialRounds = r.rP := rfl
  have hf : r.full = r.rF := rfl
  have hW := hm.1
  constructor
  · rw [inverseRounds, F64.ofNat_eq (by omega), F64.ofNat_eq ht', hL.log2_fin hT.2.2, F64.mul_eq tt (by norm_num), F64.floor,
      Target.asUsize_fin, min_eq_left (by omega), Target.add_eq (by omega), Poseidon.inverseRounds]
  · rw [Poseidon.inverseRounds]; omega

include hL ht ht' hM hlp tlp ha in
/-- The machine's security test is the model's; it accepts only small widths. -/
theorem isSecureV1_machine (hm : m.Usual) (hW : input.t < m.W) {r : RoundNumbers} (hr : Candidate r) :
    isSecureV1 L m input (.fin lp) alpha r = Poseidon.isSecureV1 L.real input lp alpha r ∧
      (Poseidon.isSecureV1 L.real input lp alpha r = .ok true → input.t ≤ 2 ^ 18) := by
  obtain ⟨g, hg, hg'⟩ := grobner_eq hL (m := m) ht ht' hM hlp tlp ha hW
  have hle := le_grobner hL ht ht' hlp hg ha
  obtain ⟨i1, i2⟩ := inverseRounds_eq hL (m := m) ht ht' hm hr
  have hr' := hr
  obtain ⟨h1, h2, h3, h4⟩ := hr
  have hW' := hm.1
  have hp : r.partialRounds = r.rP := rfl
  have hf : r.full = r.rF := rfl
  have htot : r.total = r.rP + r.rF := rfl
  have hn : roundMeasure L.real input alpha r ≤ 2 ^ 17 := by
    cases alpha
    · change r.total ≤ _; omega
    · exact i2
  constructor
  · rw [isSecureV1_eq L.real lp alpha hg]
    have e : isSecureV1 L m input (.fin lp) alpha r =
        if r.rF < Poseidon.statisticalAttackFullRounds L.real input lp alpha then .ok false
        else if roundMeasure L.real input alpha r ≤ min (Poseidon.algebraicAttackInterpolation L.real input lp alpha) (m.W - 1) then .ok false
        else if roundMeasure L.real input alpha r ≤ min g (m.W - 1) then .ok false else .ok true := by
      unfold isSecureV1
      rw [statistical_eq hL ht' hM hlp tlp ha, interpolation_eq hL ht ht' hM hlp tlp ha, hg']
      cases alpha with
      | exponent e =>
        simp only [total, Target.add_eq (m := m) (a := r.partialRounds) (b := r.full) (by omega)]
        rfl
      | inverse => simp only [i1]; rfl
    rw [e]
    split_ifs with c1 c2 c3
    · rw [decide_eq_false (by omega)]
    · rw [decide_eq_false (by omega)]
    · rw [decide_eq_false (by omega)]
    · rw [decide_eq_true (by omega)]
  · rw [isSecureV1_eq L.real lp alpha hg]
    intro h
    have := of_decide_eq_true (Except.ok.inj h)
    omega

theorem numBits_choose_le (u i : Nat) : numBits (Nat.choose u i) ≤ u + 1 := by
  rw [numBits]
  split_ifs with h
  · omega
  · have h1 := Nat.log2_self_le h
    have h2 := (Nat.pow_le_pow_iff_right (by norm_num : 1 < 2)).1 (h1.trans (Nat.choose_le_two_pow u i))
    omega

/-- The bit size is compared exactly. -/
theorem bits_eq (m : Target) {b : Nat} (hb : b < 2 ^ 40) :
    m.asUsize ((F64.round 2).mul (F64.ofNat b)).ceil = min (2 * b) (m.W - 1) := by
  have e : (2 : ℝ) * rne (b : ℝ) = ((2 * b : Nat) : ℝ) := by
    rw [rne_natCast (by omega)]; push_cast; rfl
  have t : Tame 50 ((2 : ℝ) * rne (b : ℝ)) := by rw [e]; exact Tame.nat (by omega)
  rw [round_two, F64.ofNat_eq (by omega), F64.mul_eq t (by norm_num), e, rne_natCast (by omega), F64.ceil, Target.asUsize_fin, asUsize,
    Int.ceil_natCast, Int.cast_natCast, Nat.floor_natCast]

theorem binomialLoop_machine {m : Target} (hm : m.Usual) {M u : Nat} (hM : M < m.W) (hu : u < 2 ^ 32) : ∀ (n i : Nat), i + n ≤ u →
    binomialLoop m M u n i (Nat.choose u i) = Poseidon.binomialLoop M u n i (Nat.choose u i) := by
  have hW := hm.1
  intro n
  induction n with
  | zero => intro i _; rfl
  | succ n ih =>
    intro i hi
    rw [binomialLoop, Poseidon.binomialLoop, Target.sub_eq (by omega) (by omega), Target.add_eq (by omega), usub, if_pos (by omega)]
    simp only [ok_bind]
    rw [choose_step u i, ih (i + 1) (by omega)]
    have h1 := numBits_choose_le u (i + 1)
    rw [bits_eq m (by omega)]
    have : M ≤ min (2 * numBits (Nat.choose u (i + 1))) (m.W - 1) ↔ M ≤ 2 * numBits (Nat.choose u (i + 1)) := by omega
    simp only [this]

/-- The exponents for which the improved attack is estimated without overflow of 32-bit words. -/
theorem possible_machine {m : Target} (hm : m.Usual) {input : GenInput} (ht : 1 ≤ input.t) (ht' : input.t ≤ 2 ^ 18) (hM : input.security < m.W)
    {e : Nat} (he : e < 2 ^ 31) {r : RoundNumbers} (hr : Candidate r) :
    algebraicAttackGrobnerBasisV2Possible m input (.exponent e) r = Poseidon.algebraicAttackGrobnerBasisV2Possible input (.exponent e) r := by
  obtain ⟨h1, h2, h3, h4⟩ := hr
  have hW := hm.1
  have t3 : Tame 2 (3 : ℝ) := by simpa using Tame.nat (k := 2) (n := 3) (by norm_num)
  have et : rne (input.t : ℝ) = input.t := rne_natCast (by omega)
  have t1 : Tame 20 ((input.t : ℝ) / 3) := (Tame.nat (k := 18) ht').div t3
  set q := asUsize (⌊rne (rne (input.t : ℝ) / 3)⌋ : ℤ) with hq
  have hqt : q ≤ input.t := by
    have h5 : rne (rne (input.t : ℝ) / 3) ≤ input.t := by
      have h0 : (0 : ℝ) ≤ input.t := Nat.cast_nonneg _
      have := rne_mono (by linarith : (input.t : ℝ) / 3 ≤ input.t)
      rw [et] at this ⊢
      exact this
    rw [hq, asUsize]
    refine Nat.floor_le_of_le ?_
    exact (Int.floor_le _).trans h5
  have hmq : m.asUsize ((F64.ofNat input.t).div (F64.round 3)).floor = q := by
    rw [F64.ofNat_eq (by omega), round_three, et, F64.div_eq t1 (by norm_num) (by norm_num), F64.floor, Target.asUsize_fin, hq, et]
    refine min_eq_left ?_
    rw [hq, et] at hqt
    omega
  have b1 : (r.rF - 1) * input.t ≤ 98 * 2 ^ 18 := Nat.mul_le_mul (by omega) ht'
  have b2 : q * (r.rF / 2) ≤ 2 ^ 18 * 50 := Nat.mul_le_mul (by omega) (by omega)
  unfold algebraicAttackGrobnerBasisV2Possible Poseidon.algebraicAttackGrobnerBasisV2Possible
  simp only [hmq, RoundNumbers.full, RoundNumbers.partialRounds, Nat.mod_eq_of_lt (by omega : e < m.W)]
  rw [Target.sub_eq (by omega) (by omega), ok_bind, Target.mul_eq (by omega), ok_bind, Target.add_eq (by omega), ok_bind, Target.add_eq (by omega), ok_bind,
    Target.mul_eq (by omega), ok_bind, Target.add_eq (by omega), ok_bind, Target.add_eq (by omega), ok_bind, Target.add_eq (by omega), ok_bind,
    Target.add_eq (by omega), ok_bind, Target.add_eq (by omega), ok_bind, usub, if_pos (by omega), ok_bind]
  have := binomialLoop_machine hm hM (u := (r.rF - 1) * input.t + r.rP + q + q * (r.rF / 2) + r.rP + e) (by omega)
    (q * (r.rF / 2) + r.rP + e) 0 (by omega)
  rwa [Nat.choose_zero_right] at this

include hL ht ht' hM hlp tlp ha in
theorem isSecureV2_machine (hm : m.Usual) (hW : input.t < m.W) (hMW : input.security < m.W) (ha2 : ∀ e, alpha = .exponent e → e < 2 ^ 31)
    {r : RoundNumbers} (hr : Candidate r) :
    isSecureV2 L m input (.fin lp) alpha r = Poseidon.isSecureV2 L.real input lp alpha r ∧
      (Poseidon.isSecureV2 L.real input lp alpha r = .ok true → input.t ≤ 2 ^ 18) := by
  obtain ⟨g, hg, hg'⟩ := grobner_eq hL (m := m) ht ht' hM hlp tlp ha hW
  have hle := le_grobner hL ht ht' hlp hg ha
  have hr' := hr
  obtain ⟨h1, h2, h3, h4⟩ := hr
  have hW' := hm.1
  have hp : r.partialRounds = r.rP := rfl
  have hf : r.full = r.rF := rfl
  have htot : r.total = r.rP + r.rF := rfl
  unfold isSecureV2 Poseidon.isSecureV2
  rw [statistical_eq hL ht' hM hlp tlp ha, interpolation_eq hL ht ht' hM hlp tlp ha, hg', hg]
  cases alpha with
  | inverse =>
    simp only
    split_ifs with c
    · exact ⟨trivial, fun h => by cases h⟩
    · exact ⟨trivial, fun h => by cases h⟩
  | exponent e =>
    simp only [total, Target.add_eq (m := m) (a := r.partialRounds) (b := r.full) (by omega), ok_bind]
    have e1 : r.partialRounds + r.full ≤ min (Poseidon.algebraicAttackInterpolation L.real input lp (.exponent e)) (m.W - 1) ↔
        r.total ≤ Poseidon.algebraicAttackInterpolation L.real input lp (.exponent e) := by omega
    have e2 : r.partialRounds + r.full ≤ min g (m.W - 1) ↔ r.total ≤ g := by omega
    simp only [e1, e2]
    split_ifs with c1 c2 c3
    · exact ⟨rfl, fun h => by cases h⟩
    · exact ⟨rfl, fun h => by cases h⟩
    · exact ⟨rfl, fun h => by cases h⟩
    · have : input.t ≤ 2 ^ 18 := by omega
      rw [possible_machine hm ht this hMW (ha2 e rfl) hr']
      exact ⟨rfl, fun _ => this⟩

end bounds

/-! ### The search -/

theorem margin_machine {m : Target} (hm : m.Usual) {r : RoundNumbers} (hr : Candidate r) :
    applySecurityMargin m r = .ok (Poseidon.applySecurityMargin r) := by
  have hr' := hr
  obtain ⟨h1, h2, h3, h4⟩ := hr
  have hW := hm.1
  have hf : r.full = r.rF := rfl
  have hp : r.partialRounds = r.rP := rfl
  have tc : Tame 1 (1.075 : ℝ) := Or.inr (by rw [abs_of_nonneg (by norm_num)]; norm_num)
  have tm : Tame 12 (rne 1.075 * rne (r.rP : ℝ)) := tc.rne.mul ((Tame.nat (k := 9) (n := r.rP) (by omega)).rne)
  rw [applySecurityMargin, Target.add_eq (by omega), ok_bind, F64.round_eq tc (by norm_num), hp, F64.ofNat_eq (by omega),
    F64.mul_eq tm (by norm_num), F64.ceil, Target.asUsize_fin, applySecurityMargin_eq hr', margin_exact h1 h2, asUsize, Int.cast_natCast,
    Nat.floor_natCast, min_eq_left (by omega)]
  rfl

theorem sboxCount_machine {m : Target} (hm : m.Usual) {t : Nat} (ht : t ≤ 2 ^ 18) {r : RoundNumbers} (hr : Candidate r) :
    sboxCount m (Poseidon.applySecurityMargin r) t = .ok (candCost t r) ∧ candCost t r < 2 ^ 32 - 1 := by
  have hr' := hr
  obtain ⟨h1, h2, h3, h4⟩ := hr
  have hW := hm.1
  have b : t * (r.rF + 2) ≤ 2 ^ 18 * 101 := Nat.mul_le_mul ht (by omega)
  rw [candCost_eq hr', applySecurityMargin_eq hr', sboxCount]
  change (m.arith.mul t (r.rF + 2) >>= fun a => m.arith.add a ((43 * r.rP + 39) / 40)) = _ ∧ _
  rw [Target.mul_eq (by omega), ok_bind, Target.add_eq (by omega)]
  exact ⟨rfl, by omega⟩

/-- Both searches have found nothing, or the same. -/
def SameState (m : Target) (s s' : SearchState) : Prop :=
  s = s' ∨ (s = ⟨none, m.W - 1, m.W - 1⟩ ∧ s' = ⟨none, usizeMax, usizeMax⟩)

/-- The same panic, or related results. -/
def Out {σ τ : Type _} (Rel : σ → τ → Prop) : R σ → R τ → Prop
  | .ok a, .ok b => Rel a b
  | .error e, .error e' => e = e'
  | _, _ => False

theorem Out.bind {σ τ σ' τ' : Type _} {Rel : σ → τ → Prop} {Rel' : σ' → τ' → Prop} {x : R σ} {y : R τ} {f : σ → R σ'} {g : τ → R τ'}
    (h : Out Rel x y) (h' : ∀ a b, Rel a b → Out Rel' (f a) (g b)) : Out Rel' (x >>= f) (y >>= g) := by
  cases x <;> cases y
  · exact h
  · exact h.elim
  · exact h.elim
  · exact h' _ _ h

theorem Out.loopN {σ τ : Type _} {Rel : σ → τ → Prop} {f : Nat → σ → R σ} {g : Nat → τ → R τ} : ∀ (n i : Nat) (a : σ) (b : τ), Rel a b →
    (∀ k a b, i ≤ k → k < i + n → Rel a b → Out Rel (f k a) (g k b)) → Out Rel (Poseidon.loopN f n i a) (Poseidon.loopN g n i b) := by
  intro n
  induction n with
  | zero => intro i a b h _; exact h
  | succ n ih =>
    intro i a b h step
    exact Out.bind (step i a b le_rfl (by omega) h) fun a' b' h' => ih (i + 1) a' b' h' fun k a b h1 h2 => step k a b (by omega) (by omega)

theorem Out.forRange {σ τ : Type _} {Rel : σ → τ → Prop} {f : Nat → σ → R σ} {g : Nat → τ → R τ} {lo hi : Nat} (hle : lo ≤ hi) {a : σ} {b : τ}
    (h : Rel a b) (step : ∀ k a b, lo ≤ k → k < hi → Rel a b → Out Rel (f k a) (g k b)) :
    Out Rel (Poseidon.forRange lo hi a f) (Poseidon.forRange lo hi b g) :=
  Out.loopN _ _ _ _ h fun k a b h1 h2 => step k a b h1 (by omega)

theorem roundSearch_machine {m : Target} (hm : m.Usual) {f g : RoundNumbers → R Bool} {t : Nat}
    (h : ∀ r, Candidate r → f r = g r ∧ (g r = .ok true → t ≤ 2 ^ 18)) : roundSearch m f t = Poseidon.roundSearch g t := by
  have hW := hm.1
  have key : Out (SameState m)
      (Poseidon.forRange 1 400 (⟨none, m.W - 1, m.W - 1⟩ : SearchState) fun rP st =>
        Poseidon.forRange 4 100 st fun rF st => do
          let s ← f { rF := rF, rP := rP }
          if !s then return st
          else
            let candidate ← applySecurityMargin m { rF := rF, rP := rP }
            let candidateCost ← sboxCount m candidate t
            if candidateCost < st.cost ∨ (candidateCost = st.cost ∧ rF < st.costRf) then
              return ⟨some candidate, candidateCost, rF⟩
            else return st)
      (Poseidon.forRange 1 400 (⟨none, usizeMax, usizeMax⟩ : SearchState) fun rP st =>
        Poseidon.forRange 4 100 st fun rF st => do
          let s ← g { rF := rF, rP := rP }
          if !s then return st
          else
            let candidate := Poseidon.applySecurityMargin { rF := rF, rP := rP }
            let candidateCost := Poseidon.sboxCount candidate t
            if candidateCost < st.cost ∨ (candidateCost = st.cost ∧ rF < st.costRf) then
              return ⟨some candidate, candidateCost, rF⟩
            else return st) := by
    refine Out.forRange (by norm_num) (Or.inr ⟨rfl, rfl⟩) fun rP st st' hP1 hP2 hst => ?_
    refine Out.forRange (by norm_num) hst fun rF st st' hF1 hF2 hst => ?_
    have hr : Candidate ⟨rP, rF⟩ := ⟨hP1, hP2, hF1, hF2⟩
    obtain ⟨h1, h2⟩ := h _ hr
    rw [h1]
    cases hg : g ⟨rP, rF⟩ with
    | error e => exact rfl
    | ok b =>
      cases b with
      | false => exact hst
      | true =>
        obtain ⟨c1, c2⟩ := sboxCount_machine hm (h2 hg) hr
        simp only [ok_bind, Bool.not_true, Bool.false_eq_true, if_false, margin_machine hm hr, c1]
        change Out _ _ (if candCost t ⟨rP, rF⟩ < st'.cost ∨ (candCost t ⟨rP, rF⟩ = st'.cost ∧ rF < st'.costRf) then
          Except.ok ⟨some (Poseidon.applySecurityMargin ⟨rP, rF⟩), candCost t ⟨rP, rF⟩, rF⟩ else Except.ok st')
        rcases hst with rfl | ⟨rfl, rfl⟩
        · split_ifs <;> exact Or.inl rfl
        · rw [if_pos (Or.inl (by dsimp only; omega)), if_pos (Or.inl (by dsimp only; rw [usizeMax]; omega))]
          exact Or.inl rfl
  rw [roundSearch, Poseidon.roundSearch]
  revert key
  generalize Poseidon.forRange 1 400 (⟨none, m.W - 1, m.W - 1⟩ : SearchState) _ = x
  generalize Poseidon.forRange 1 400 (⟨none, usizeMax, usizeMax⟩ : SearchState) _ = y
  intro key
  cases x <;> cases y
  · exact congrArg Except.error key
  · exact key.elim
  · exact key.elim
  · rcases key with rfl | ⟨rfl, rfl⟩ <;> rfl

section final
variable {L : LibmF} (hL : L.Accurate) {m : Target} (hm : m.Usual) {input : GenInput} (ht : 1 ≤ input.t) (htW : input.t < m.W)
  {lp : ℝ} (hlp : 0 ≤ lp) (tlp : Tame 40 lp) {alpha : Alpha} (ha : GoodAlpha alpha)
include hL hm ht htW hlp tlp ha

theorem roundsV1_machine : roundsV1Generate L m input (.fin lp) alpha = Poseidon.roundsV1Generate L.real input lp alpha := by
  have hW := hm.2
  rw [roundsV1Generate, Poseidon.roundsV1Generate]
  split_ifs with h
  · rfl
  · exact roundSearch_machine hm fun r hr => isSecureV1_machine hL ht (by omega) (by omega) hlp tlp ha hm htW hr

theorem roundsV2_machine (hM : input.security < m.W) (ha2 : ∀ e, alpha = .exponent e → e < 2 ^ 31) :
    roundsV2Generate L m input (.fin lp) alpha = Poseidon.roundsV2Generate L.real input lp alpha := by
  have hW := hm.2
  rw [roundsV2Generate, Poseidon.roundsV2Generate]
  exact roundSearch_machine hm fun r hr => isSecureV2_machine hL ht (by omega) (by omega) hlp tlp ha hm htW hM ha2 hr

end final

end Mach

end Poseidon
