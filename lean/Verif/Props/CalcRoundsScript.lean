import Verif.Proofs.CalcRoundsInv
import Verif.Props.CalcRoundsFull

/-!
# The whole round number script of the Poseidon authors (C84): errors, costs, the inverse S-box, the fields of this project
-/

set_option linter.unusedSectionVars false
set_option linter.unusedTactic false

namespace Poseidon

/-! ### Errors and costs -/

/-- **C84**, errors: the script stops with an error exactly if `alpha` is neither `-1` nor at least 2. -/
theorem C84_errors (L : Libm) (p t M : Nat) (alpha : ℤ) (on : Bool) (cost : CostFunction) :
    findRoundNumbers L p t alpha M cost on = none ↔ ¬ (alpha = -1 ∨ 2 ≤ alpha) := by
  unfold findRoundNumbers
  rcases satInequiv_cases L p t M alpha with ⟨⟨sat, hs⟩, h⟩ | ⟨hs, h⟩
  · rw [hs, fdLoops_pure]
    exact iff_of_false (Option.some_ne_none _) (fun h' => h' h.symm)
  · rw [hs, fdLoops_none]
    exact ⟨fun _ h' => h h'.symm, fun _ => rfl⟩

/-- The number of bits the script takes a field element to have. -/
theorem bits_pos {L : Libm} (hL : L.Accurate) {p : Nat} (hp : 2 ≤ p) : 0 < asUsize ⌈L.log p 2⌉ := by
  have hpR : (2 : ℝ) ≤ p := by exact_mod_cast hp
  have hn := (abs_le.1 (hL.log_near (x := (p : ℝ)) (b := 2) (by linarith) (by norm_num))).1
  have h1 : ((1 : ℕ) : ℝ) ≤ Real.logb 2 p := le_logb2 (by linarith) (by norm_num; exact_mod_cast hp)
  have : 0 < L.log p 2 := by
    push_cast at h1
    have e : (2⁻¹ : ℝ) ^ 38 ≤ 1 / 2 := by norm_num
    nlinarith
  rw [asUsize_int]
  have := Int.ceil_pos.2 this
  omega

theorem bits_le {L : Libm} (hL : L.Accurate) {p k : Nat} (hp : 1 ≤ p) (hk : k ≤ 2 ^ 30) (h : p ≤ 2 ^ k) : asUsize ⌈L.log p 2⌉ ≤ k + 1 := by
  have h1 := (hL.log_ratio (t := p) (e := 2) (a := 0) (b := 1) (c := k) (d := 1) hp (by norm_num) (by norm_num) (by norm_num)
    (by rw [pow_zero, pow_one]; omega) (by rwa [pow_one])).2
  have hkR : (k : ℝ) ≤ 1073741824 := by exact_mod_cast (by omega : k ≤ 1073741824)
  rw [asUsize_int]
  have : ⌈L.log p 2⌉ ≤ ((k + 1 : ℕ) : ℤ) := Int.ceil_le.2 (by
    push_cast at h1 ⊢
    norm_num at h1
    linarith)
  omega

/-- **C84**, the comment in lines 102-103 of the script: minimising the size of the permutation instead of the number of S-boxes gives the
same round numbers, for every `alpha`, with or without the security margin. -/
theorem C84_size (L : Libm) (hL : L.Accurate) (p t M k : Nat) (alpha : ℤ) (on : Bool) (hp : 2 ≤ p) (hp' : p ≤ 2 ^ k)
    (hk : k ≤ 2 ^ 30) (ht : 1 ≤ t) (ht' : t ≤ 2 ^ 20) :
    findRoundNumbers L p t alpha M sizeCostFn on = findRoundNumbers L p t alpha M sboxCostFn on := by
  have h1 := bits_le hL (by omega) hk hp'
  refine findRoundNumbers_size ht (bits_pos hL hp) ((Nat.mul_le_mul (h1.trans (Nat.succ_le_succ hk)) ht').trans (by norm_num))

section
variable {L : Libm} {p n : Nat}

/-- The logarithm of `2^n x`. -/
theorem logb_scaled {x : ℝ} (hx0 : 0 < x) (hpx : (p : ℝ) = 2 ^ n * x) : Real.logb 2 p = n + Real.log x / Real.log 2 := by
  have g2 := Real.log_two_gt_d9
  rw [hpx, Real.logb, Real.log_mul (by positivity) hx0.ne', Real.log_pow, add_div, mul_div_cancel_right₀ _ (by linarith)]

/-- `math.log(p, 2)` is at most `n` for an `n`-bit modulus below `2^n (1 - 2^-20)`. -/
theorem script_log_le (hL : L.Accurate) (hn : 20 ≤ n) (hn' : n ≤ 1000) (hp : 2 ^ (n - 1) ≤ p) (hp' : p + 2 ^ (n - 20) ≤ 2 ^ n) : L.log p 2 ≤ n := by
  have hpos : (1 : ℝ) ≤ p := by exact_mod_cast (Nat.one_le_two_pow (n := n - 1)).trans hp
  have hnear := (abs_le.1 (hL.log_near (x := (p : ℝ)) (b := 2) hpos (by norm_num))).2
  have l2 := Real.log_two_lt_d9
  have g2 := Real.log_two_gt_d9
  have hnR : (n : ℝ) ≤ 1000 := by exact_mod_cast hn'
  have e1 : ((2 : ℝ) ^ (n - 20)) = 2 ^ n / 2 ^ 20 := by
    rw [eq_div_iff (by positivity), ← pow_add, Nat.sub_add_cancel hn]
  have hhi : (p : ℝ) + 2 ^ (n - 20) ≤ 2 ^ n := by exact_mod_cast hp'
  rw [e1] at hhi
  have hpow : (0 : ℝ) < 2 ^ n := by positivity
  obtain ⟨x, hx⟩ : ∃ x : ℝ, x = p / 2 ^ n := ⟨_, rfl⟩
  have hpx : (p : ℝ) = 2 ^ n * x := by rw [hx]; field_simp
  have hx0 : 0 < x := by rw [hx]; positivity
  have hx2 : x ≤ 1 - 1 / 2 ^ 20 := by
    rw [hx, div_le_iff₀ hpow]; nlinarith
  have b2 : Real.log x ≤ - (1 / 2 ^ 20) := by
    have := Real.log_le_sub_one_of_pos hx0
    linarith
  have d2 : Real.log x / Real.log 2 ≤ - (1 / 2 ^ 20) := by
    rw [div_le_iff₀ (by linarith)]; norm_num at *; linarith
  rw [logb_scaled hx0 hpx] at hnear
  generalize Real.log x / Real.log 2 = y at *
  norm_num at hnear d2 ⊢
  linarith

/-- `math.log(p, 2)` is more than `n - 1` for an `n`-bit modulus above `2^(n-1) (1 + 2^-19)`. -/
theorem lt_script_log (hL : L.Accurate) (hn : 20 ≤ n) (hn' : n ≤ 1000) (hp : 2 ^ (n - 1) + 2 ^ (n - 20) ≤ p) : (n : ℝ) - 1 < L.log p 2 := by
  have hpos : (1 : ℝ) ≤ p := by exact_mod_cast (Nat.one_le_two_pow (n := n - 1)).trans ((Nat.le_add_right _ _).trans hp)
  have hnear := (abs_le.1 (hL.log_near (x := (p : ℝ)) (b := 2) hpos (by norm_num))).1
  have l2 := Real.log_two_lt_d9
  have g2 := Real.log_two_gt_d9
  have hnR : (n : ℝ) ≤ 1000 := by exact_mod_cast hn'
  have hn2 : (20 : ℝ) ≤ n := by exact_mod_cast hn
  have e1 : ((2 : ℝ) ^ (n - 20)) = 2 ^ n / 2 ^ 20 := by
    rw [eq_div_iff (by positivity), ← pow_add, Nat.sub_add_cancel hn]
  have e2 : ((2 : ℝ) ^ (n - 1)) = 2 ^ n / 2 := by
    rw [eq_div_iff (by positivity), ← pow_succ, Nat.sub_add_cancel (by omega)]
  have hlo : (2 : ℝ) ^ (n - 1) + 2 ^ (n - 20) ≤ p := by exact_mod_cast hp
  rw [e1, e2] at hlo
  have hpow : (0 : ℝ) < 2 ^ n := by positivity
  obtain ⟨x, hx⟩ : ∃ x : ℝ, x = p / 2 ^ n := ⟨_, rfl⟩
  have hpx : (p : ℝ) = 2 ^ n * x := by rw [hx]; field_simp
  have hx0 : 0 < x := by rw [hx]; positivity
  have hx1 : 1 / 2 * (1 + 2 / 2 ^ 20) ≤ x := by
    rw [hx, le_div_iff₀ hpow]; nlinarith
  have b1 : - Real.log 2 + 1 / 2 ^ 20 ≤ Real.log x := by
    have h1 : Real.log (1 / 2 * (1 + 2 / 2 ^ 20)) ≤ Real.log x := Real.log_le_log (by norm_num) hx1
    rw [Real.log_mul (by norm_num) (by norm_num), one_div, Real.log_inv] at h1
    have h2 := Real.one_sub_inv_le_log_of_pos (x := 1 + 2 / 2 ^ 20) (by norm_num)
    norm_num at h1 h2 ⊢
    linarith
  have d1 : -1 + 1 / 2 ^ 20 ≤ Real.log x / Real.log 2 := by
    rw [le_div_iff₀ (by linarith)]; norm_num at *; linarith
  rw [logb_scaled hx0 hpx] at hnear
  generalize Real.log x / Real.log 2 = y at *
  have e : (2⁻¹ : ℝ) ^ 38 ≤ 1e-11 := by norm_num
  have : ((n : ℝ) + y) * (1 - 1e-11) ≤ L.log p 2 := by
    have : 0 ≤ (n : ℝ) + y := by norm_num at d1; linarith
    nlinarith
  norm_num at this d1 ⊢
  linarith

end

/-- **C84**, the output: the reported costs are those of the reported numbers, and the size is the number of S-boxes times the number of bits
of the field (for an `n`-bit modulus that is not extremely close to a power of two). -/
theorem C84_output (L : Libm) (hL : L.Accurate) (p t M n : Nat) (alpha : ℤ) (on : Bool) (hn : 20 ≤ n) (hn' : n ≤ 1000)
    (hp : 2 ^ (n - 1) + 2 ^ (n - 20) ≤ p) (hp' : p + 2 ^ (n - 20) ≤ 2 ^ n) (ht : 1 ≤ t) (ht' : t ≤ 2 ^ 20) (rF rP : Nat)
    (h : findRoundNumbers L p t alpha M sboxCostFn on = some (rF, rP)) :
    calcFinalNumbers L p t alpha M on = some (rF, rP, t * rF + rP, n * (t * rF + rP)) := by
  have hlog : ⌈L.log p 2⌉ = (n : ℤ) := by
    rw [Int.ceil_eq_iff]
    push_cast
    exact ⟨lt_script_log hL hn hn' hp, script_log_le hL hn hn' ((Nat.le_add_right _ _).trans hp) hp'⟩
  have hN : permutationSize L p t = n * t := by
    rw [permutationSize, hlog, asUsize_int, Int.toNat_natCast]
  unfold calcFinalNumbers
  rw [h, hN]
  simp only [Option.bind_eq_bind, Option.bind_some, Option.pure_def]
  rw [sizeCostFn_eq ht ((Nat.mul_le_mul hn' ht').trans (by norm_num))]
  rfl

/-! ### The inverse S-box -/

/-- What the script's library must satisfy for the widths 4 and 8: `math.log(4, 2)` and `math.log(8, 2)` are exact. -/
structure Libm.PowersExact (L : Libm) : Prop where
  four : L.log 4 2 = 2
  eight : L.log 8 2 = 3

section
variable {L : Libm} {M t p : Nat}

theorem script_width (hL : L.Accurate) (hP : L.PowersExact) (ht : 2 ≤ t) (ht' : t ≤ 8) :
    ⌈L.log t 2⌉ = (Nat.clog 2 t : ℤ) ∧ ⌊rne (6 * L.log t 2)⌋ = (Nat.log 2 (t ^ 6) : ℤ) ∧ 0 ≤ L.log t 2 ∧
      ∀ d, 2 ≤ d → 6 + d < 100 → 43 * invFl L t (6 + d) + 40 ≤ 43 * invFl L t 6 + 40 * (t * d) := by
  have h2 : L.log ((2 : ℕ) : ℝ) 2 = 1 := hL.log_self (e := 2) le_rfl
  obtain ⟨h3, h4, h5⟩ := width_values (l := L.log t 2) ht ht' (fun a b c d hb hd h1 h2 => hL.log_ratio (by omega) le_rfl hb hd h1 h2)
    (fun k hk e => by
      subst e
      interval_cases k
      · omega
      · simpa using h2
      · have := hP.four; norm_num; exact this
      · have := hP.eight; norm_num; exact this)
  refine ⟨h3, h4, ?_⟩
  rcases Nat.lt_or_ge 2 t with h | h
  · obtain ⟨h6, b, h7, h8, h9⟩ := h5 h
    exact ⟨h6, fun d hd hd' => invFl_growth h6 h7 h8 h9 d hd hd'⟩
  · obtain rfl : t = 2 := by omega
    exact ⟨by rw [h2]; norm_num, fun d hd hd' => invFl_growth_two h2 d hd hd'⟩

theorem half_ceil {m m1 : ℝ} {h : Nat} (hm0 : 0 ≤ m1) (hm1 : m1 ≤ m) (hm2 : m ≤ 2 * h) (hh : (h : ℝ) < 0.5 * m1 * 0.9999 + 1) (hh' : h ≤ 300) :
    ⌈rne (0.5 * m)⌉ = (h : ℤ) := by
  rw [Int.ceil_eq_iff]
  constructor
  · have := le_rne_of (x := 0.5 * m) (a := 0.5 * m1) (c := 0.5 * m1 * 0.9999) (by linarith) (by positivity) le_rfl
    push_cast; linarith
  · have := rne_mono (x := 0.5 * m) (y := h) (by linarith)
    rwa [rne_natCast (by omega)] at this

/-- The second Gröbner basis bound does not matter. -/
theorem grobner_small {h : Nat} (hG : (M : ℝ) / (t + 1) * 1.001 ≤ (h : ℝ) - t + 1) : (t : ℤ) + ⌈rne ((M : ℝ) / ((t : ℝ) + 1))⌉ ≤ h + 2 := by
  have h0 : (0 : ℝ) ≤ M / (t + 1) := by positivity
  have h2 : rne ((M : ℝ) / (t + 1)) ≤ (h : ℝ) - t + 1 := rne_le_of (b := M / (t + 1)) le_rfl h0 (by linarith)
  have h3 : ⌈rne ((M : ℝ) / (t + 1))⌉ ≤ ((h : ℤ) - t + 1) := Int.ceil_le.2 (by push_cast; exact h2)
  omega

/-- The statistical bound is six rounds. -/
theorem stat_inverse {n : Nat} (hlp : (n : ℝ) ≤ L.log p 2) (h : (M : ℤ) ≤ ((n : ℤ) - 2) * (t + 1)) : (M : ℤ) ≤ (⌊L.log p 2⌋ - 2) * ((t : ℤ) + 1) := by
  have : (n : ℤ) ≤ ⌊L.log p 2⌋ := Int.le_floor.2 (by exact_mod_cast hlp)
  refine h.trans (mul_le_mul_of_nonneg_right (by omega) (by omega))

end

/-- **C84**, the inverse S-box: at 80 to 256 bits of security, for widths 2 to 8 and every modulus of at least `M + 2` bits, the script returns
6 full rounds and `1 + ⌈M / 2⌉ + ⌈log2 t⌉ - ⌊6 log2 t⌋` partial rounds without the security margin, and 8 full rounds and 7.5 % more partial
rounds with it. -/
theorem C84_inverse_value (L : Libm) (hL : L.Accurate) (hP : L.PowersExact) (M t p : Nat) (hM : 80 ≤ M) (hM' : M ≤ 256) (ht : 2 ≤ t) (ht' : t ≤ 8)
    (hp : 2 ^ (M + 1) ≤ p) :
    findRoundNumbers L p t (-1) M sboxCostFn false = some (6, 1 + (M + 1) / 2 + Nat.clog 2 t - Nat.log 2 (t ^ 6)) ∧
    findRoundNumbers L p t (-1) M sboxCostFn true =
      some (8, Spec.partialWithMargin (1 + (M + 1) / 2 + Nat.clog 2 t - Nat.log 2 (t ^ 6))) := by
  obtain ⟨h1, h2, h3, h4⟩ := script_width hL hP ht ht'
  have hlp := le_log_big hL hM' hp
  have hMR : (80 : ℝ) ≤ M := by exact_mod_cast hM
  have hMR' : (M : ℝ) ≤ 256 := by exact_mod_cast hM'
  have htR : (2 : ℝ) ≤ t := by exact_mod_cast ht
  have htR' : (t : ℝ) ≤ 8 := by exact_mod_cast ht'
  have e2 : 2 * ((M + 1) / 2) ≤ M + 1 := Nat.mul_div_le _ _
  have e3 : M ≤ 2 * ((M + 1) / 2) := by omega
  have h2R : (2 : ℝ) * ((M + 1) / 2 : ℕ) ≤ M + 1 := by exact_mod_cast e2
  have h3R : (M : ℝ) ≤ 2 * ((M + 1) / 2 : ℕ) := by exact_mod_cast e3
  have hF : invFl L t 6 = Nat.log 2 (t ^ 6) := by
    unfold invFl; push_cast; rw [h2, Int.toNat_natCast]
  have hw : Nat.log 2 (t ^ 6) < 21 ∧ 1 ≤ Nat.clog 2 t ∧ Nat.clog 2 t ≤ 3 := by
    interval_cases t <;> decide +kernel
  have key : ∀ on, findRoundNumbers L p t (-1) M sboxCostFn on =
      some (scriptPair on (1 + (M + 1) / 2 + Nat.clog 2 t - Nat.log 2 (t ^ 6))) := fun on =>
    findRoundNumbers_inverse on ht h3 (stat_inverse hlp (by nlinarith)) (by
      rw [min_eq_left hlp]
      exact half_ceil (m1 := M) (by linarith) le_rfl (by linarith) (by linarith) (by omega)) h1
      (grobner_small (by
        have : (M : ℝ) / (t + 1) ≤ M / 3 := div_le_div_of_nonneg_left (by linarith) (by norm_num) (by linarith)
        linarith)) hF h4 (by omega) (by omega)
  refine ⟨key false, ?_⟩
  rw [key true, scriptPair_eq]; rfl

/-- **C84**, the inverse S-box: under the same conditions the generator returns the numbers of the script. -/
theorem C84_inverse_agree (L : Libm) (hL : L.Accurate) (hR : L.Regular) (hP : L.PowersExact) (M t p : Nat) (allow : Bool) (hM : 80 ≤ M)
    (hM' : M ≤ 256) (ht : 2 ≤ t) (ht' : t ≤ 8) (hp : 2 ^ (M + 1) ≤ p) :
    ∃ rF rP, findRoundNumbers L p t (-1) M sboxCostFn true = some (rF, rP) ∧
      roundsV1Generate L ⟨allow, M, t, p⟩ (log2Big L p) .inverse = .ok ⟨rP, rF⟩ := by
  refine ⟨_, _, (C84_inverse_value L hL hP M t p hM hM' ht ht' hp).2, ?_⟩
  have hlp := le_log2Big hL hM' hp
  generalize log2Big L p = lp at *
  have hMR : (80 : ℝ) ≤ M := by exact_mod_cast hM
  have hMR' : (M : ℝ) ≤ 256 := by exact_mod_cast hM'
  have htR : (2 : ℝ) ≤ t := by exact_mod_cast ht
  have htR' : (t : ℝ) ≤ 8 := by exact_mod_cast ht'
  have e2 : 2 * ((M + 1) / 2) ≤ M + 1 := Nat.mul_div_le _ _
  have e3 : M ≤ 2 * ((M + 1) / 2) := by omega
  have h2R : (2 : ℝ) * ((M + 1) / 2 : ℕ) ≤ M + 1 := by exact_mod_cast e2
  have h3R : (M : ℝ) ≤ 2 * ((M + 1) / 2 : ℕ) := by exact_mod_cast e3
  obtain ⟨h1, h2, -⟩ := width_values (l := L.log2 t) ht ht' (fun a b c d hb hd h1 h2 => hL.log2_ratio (by omega) hb hd h1 h2)
    (fun k hk e => by subst e; push_cast; exact hR.pow k (by omega))
  have hl2 : L.log2 2 = 1 := by have := hR.pow 1 (by norm_num); simpa using this
  have hw : Nat.log 2 (t ^ 6) < 21 ∧ 1 ≤ Nat.clog 2 t ∧ Nat.clog 2 t ≤ 3 := by
    interval_cases t <;> decide +kernel
  have h := rounds_inverse (L := L) (M := M) (t := t) (p := p) (allow := allow) (lp := lp) (n := M) (m1 := M) (j := Nat.clog 2 t) (h := (M + 1) / 2)
    (F := Nat.log 2 (t ^ 6)) hM' ht (by omega) hlp (by omega) (by nlinarith) h1 (by omega) (by
      push_cast; rw [h2, asUsize_int, Int.toNat_natCast])
    (fun S k _ hk hk' => inverse_fl (input := ⟨allow, M, t, p⟩) hL ht ht' hl2 S k hk hk') (by linarith) (le_min le_rfl hlp)
    ((min_le_left _ _).trans (by linarith)) (by linarith) (by omega) (by
      have : (M : ℝ) / (t + 1) ≤ M / 3 := div_le_div_of_nonneg_left (by linarith) (by norm_num) (by linarith)
      linarith)
  rw [h, ceil_margin]
  congr 4
  omega

/-- **C84**, the table the script prints for the inverse S-box: for every modulus of the size in a row of Table 9 the script returns, without
the margin, 6 full rounds and some number of partial rounds, and with it exactly the numbers of the row; for the rows with fewer bits
than the security level the modulus must not be extremely close to the power of two above it. -/
theorem C84_table9 (L : Libm) (hL : L.Accurate) (hP : L.PowersExact) (h16 : L.log 16 2 = 4) (row : Spec.TableRow) (hrow : row ∈ Spec.table9)
    (p : Nat) (h1 : 2 ^ (row.n - 1) ≤ p) (h2 : p < 2 ^ row.n) (h3 : row.n < row.M → p + 2 ^ (row.n - 20) ≤ 2 ^ row.n) :
    ∃ r, findRoundNumbers L p row.t (-1) row.M sboxCostFn false = some (6, r) ∧ Spec.partialWithMargin r = row.rP ∧
      findRoundNumbers L p row.t (-1) row.M sboxCostFn true = some (row.rF, row.rP) := by
  have hlp : 1 ≤ row.n → row.n ≤ 1000 → _ := fun a b => script_log_bounds hL a b h1 h2
  have hup : row.n < row.M → 20 ≤ row.n → row.n ≤ 1000 → L.log p 2 ≤ row.n := fun a b c => script_log_le hL b c h1 (h3 a)
  clear h1 h2 h3
  have row_of : ∀ (t M j h F rF rP : Nat) (m1 : ℝ) (n : Nat), 2 ≤ t → 0 ≤ L.log t 2 → ⌈L.log t 2⌉ = (j : ℤ) → invFl L t 6 = F →
      (∀ d, 2 ≤ d → 6 + d < 100 → 43 * invFl L t (6 + d) + 40 ≤ 43 * invFl L t 6 + 40 * (t * d)) → (n : ℝ) ≤ L.log p 2 →
      (M : ℤ) ≤ ((n : ℤ) - 2) * (t + 1) → 0 ≤ m1 → m1 ≤ min (M : ℝ) (L.log p 2) → min (M : ℝ) (L.log p 2) ≤ 2 * h → (h : ℝ) < 0.5 * m1 * 0.9999 + 1 →
      h ≤ 300 → (M : ℝ) / (t + 1) * 1.001 ≤ (h : ℝ) - t + 1 → F < 1 + h + j → h + j < 398 → rF = 8 → (43 * (1 + h + j - F) + 39) / 40 = rP →
      ∃ r, findRoundNumbers L p t (-1) M sboxCostFn false = some (6, r) ∧ Spec.partialWithMargin r = rP ∧
        findRoundNumbers L p t (-1) M sboxCostFn true = some (rF, rP) := by
    intro t M j h F rF rP m1 n ht hl hj hF hfl hn hS hm0 hm1 hm2 hh hh' hG hF' h400 e1 e2
    have key : ∀ on, findRoundNumbers L p t (-1) M sboxCostFn on = some (scriptPair on (1 + h + j - F)) := fun on =>
      findRoundNumbers_inverse on ht hl (stat_inverse hn hS) (half_ceil hm0 hm1 hm2 hh hh') hj (grobner_small hG) hF hfl hF' h400
    refine ⟨_, key false, by rw [ceil_margin]; exact e2, ?_⟩
    rw [key true, scriptPair, if_pos rfl, e1, e2]
  have w8 : ∀ t : Nat, 2 ≤ t → t ≤ 8 → ⌈L.log t 2⌉ = (Nat.clog 2 t : ℤ) ∧ invFl L t 6 = Nat.log 2 (t ^ 6) ∧ 0 ≤ L.log t 2 ∧
      ∀ d, 2 ≤ d → 6 + d < 100 → 43 * invFl L t (6 + d) + 40 ≤ 43 * invFl L t 6 + 40 * (t * d) := fun t a b => by
    obtain ⟨x, y, z, w⟩ := script_width hL hP a b
    refine ⟨x, ?_, z, w⟩
    unfold invFl; push_cast; rw [y, Int.toNat_natCast]
  have h16' : L.log ((16 : ℕ) : ℝ) 2 = 4 := by push_cast; exact h16
  have w16 : ⌈L.log ((16 : ℕ) : ℝ) 2⌉ = ((4 : ℕ) : ℤ) ∧ invFl L 16 6 = 24 ∧ 0 ≤ L.log ((16 : ℕ) : ℝ) 2 ∧
      ∀ d, 2 ≤ d → 6 + d < 100 → 43 * invFl L 16 (6 + d) + 40 ≤ 43 * invFl L 16 6 + 40 * (16 * d) := by
    refine ⟨by rw [h16']; norm_num, ?_, by rw [h16']; norm_num, fun d hd hd' => ?_⟩
    · unfold invFl
      rw [h16']
      have := rne_natCast (n := 24) (by norm_num)
      norm_num at this ⊢
      rw [this]; norm_num; rfl
    · exact invFl_growth (b := 4) (by rw [h16']; norm_num) (by rw [h16']) (by norm_num) (by norm_num) d hd hd'
  have c2 : Nat.clog 2 2 = 1 := by decide +kernel
  have c4 : Nat.clog 2 4 = 2 := by decide +kernel
  have c6 : Nat.clog 2 6 = 3 := by decide +kernel
  have c8 : Nat.clog 2 8 = 3 := by decide +kernel
  have f2 : Nat.log 2 (2 ^ 6) = 6 := by decide +kernel
  have f4 : Nat.log 2 (4 ^ 6) = 12 := by decide +kernel
  have f6 : Nat.log 2 (6 ^ 6) = 15 := by decide +kernel
  have f8 : Nat.log 2 (8 ^ 6) = 18 := by decide +kernel
  obtain ⟨j2, i2, z2, g2⟩ := w8 2 (by norm_num) (by norm_num)
  obtain ⟨j4, i4, z4, g4⟩ := w8 4 (by norm_num) (by norm_num)
  obtain ⟨j6, i6, z6, g6⟩ := w8 6 (by norm_num) (by norm_num)
  obtain ⟨j8, i8, z8, g8⟩ := w8 8 (by norm_num) (by norm_num)
  obtain ⟨j16, i16, z16, g16⟩ := w16
  rw [c2] at j2; rw [c4] at j4; rw [c6] at j6; rw [c8] at j8
  rw [f2] at i2; rw [f4] at i4; rw [f6] at i6; rw [f8] at i8
  simp only [Spec.table9, List.mem_cons, List.not_mem_nil, or_false] at hrow
  rcases hrow with rfl | rfl | rfl | rfl | rfl | rfl | rfl | rfl | rfl | rfl
  · obtain ⟨hp1, hp2⟩ := hlp (by norm_num) (by norm_num)
    norm_num at hp1 hp2
    exact row_of 2 128 1 64 6 8 65 128 766 (by norm_num) z2 j2 i2 g2 (by norm_num; linarith) (by norm_num) (by norm_num)
      (le_min (by norm_num) (by norm_num; linarith)) ((min_le_left _ _).trans (by norm_num)) (by norm_num) (by norm_num) (by norm_num) (by norm_num) (by norm_num) rfl (by norm_num)
  · obtain ⟨hp1, hp2⟩ := hlp (by norm_num) (by norm_num)
    norm_num at hp1 hp2
    exact row_of 4 128 2 64 12 8 60 128 382 (by norm_num) z4 j4 i4 g4 (by norm_num; linarith) (by norm_num) (by norm_num)
      (le_min (by norm_num) (by norm_num; linarith)) ((min_le_left _ _).trans (by norm_num)) (by norm_num) (by norm_num) (by norm_num) (by norm_num) (by norm_num) rfl (by norm_num)
  · obtain ⟨hp1, hp2⟩ := hlp (by norm_num) (by norm_num)
    norm_num at hp1 hp2
    exact row_of 6 128 3 64 15 8 57 128 254 (by norm_num) z6 j6 i6 g6 (by norm_num; linarith) (by norm_num) (by norm_num)
      (le_min (by norm_num) (by norm_num; linarith)) ((min_le_left _ _).trans (by norm_num)) (by norm_num) (by norm_num) (by norm_num) (by norm_num) (by norm_num) rfl (by norm_num)
  · obtain ⟨hp1, hp2⟩ := hlp (by norm_num) (by norm_num)
    norm_num at hp1 hp2
    exact row_of 8 128 3 64 18 8 54 128 190 (by norm_num) z8 j8 i8 g8 (by norm_num; linarith) (by norm_num) (by norm_num)
      (le_min (by norm_num) (by norm_num; linarith)) ((min_le_left _ _).trans (by norm_num)) (by norm_num) (by norm_num) (by norm_num) (by norm_num) (by norm_num) rfl (by norm_num)
  · obtain ⟨hp1, hp2⟩ := hlp (by norm_num) (by norm_num)
    norm_num at hp1 hp2
    have hu := hup (by norm_num) (by norm_num) (by norm_num)
    norm_num at hu
    exact row_of 16 128 4 48 24 8 32 94.999 94 (by norm_num) z16 j16 i16 g16 (by norm_num; linarith) (by norm_num) (by norm_num)
      (le_min (by norm_num) (by norm_num; linarith)) ((min_le_right _ _).trans (by norm_num; linarith)) (by norm_num) (by norm_num) (by norm_num) (by norm_num) (by norm_num) rfl (by norm_num)
  · obtain ⟨hp1, hp2⟩ := hlp (by norm_num) (by norm_num)
    norm_num at hp1 hp2
    exact row_of 2 256 1 128 6 8 134 256 766 (by norm_num) z2 j2 i2 g2 (by norm_num; linarith) (by norm_num) (by norm_num)
      (le_min (by norm_num) (by norm_num; linarith)) ((min_le_left _ _).trans (by norm_num)) (by norm_num) (by norm_num) (by norm_num) (by norm_num) (by norm_num) rfl (by norm_num)
  · obtain ⟨hp1, hp2⟩ := hlp (by norm_num) (by norm_num)
    norm_num at hp1 hp2
    exact row_of 4 256 2 128 12 8 128 256 382 (by norm_num) z4 j4 i4 g4 (by norm_num; linarith) (by norm_num) (by norm_num)
      (le_min (by norm_num) (by norm_num; linarith)) ((min_le_left _ _).trans (by norm_num)) (by norm_num) (by norm_num) (by norm_num) (by norm_num) (by norm_num) rfl (by norm_num)
  · obtain ⟨hp1, hp2⟩ := hlp (by norm_num) (by norm_num)
    norm_num at hp1 hp2
    exact row_of 6 256 3 128 15 8 126 254.999 254 (by norm_num) z6 j6 i6 g6 (by norm_num; linarith) (by norm_num) (by norm_num)
      (le_min (by norm_num) (by norm_num; linarith)) ((min_le_left _ _).trans (by norm_num)) (by norm_num) (by norm_num) (by norm_num) (by norm_num) (by norm_num) rfl (by norm_num)
  · obtain ⟨hp1, hp2⟩ := hlp (by norm_num) (by norm_num)
    norm_num at hp1 hp2
    have hu := hup (by norm_num) (by norm_num) (by norm_num)
    norm_num at hu
    exact row_of 8 256 3 96 18 8 89 190.999 190 (by norm_num) z8 j8 i8 g8 (by norm_num; linarith) (by norm_num) (by norm_num)
      (le_min (by norm_num) (by norm_num; linarith)) ((min_le_right _ _).trans (by norm_num; linarith)) (by norm_num) (by norm_num) (by norm_num) (by norm_num) (by norm_num) rfl (by norm_num)
  · obtain ⟨hp1, hp2⟩ := hlp (by norm_num) (by norm_num)
    norm_num at hp1 hp2
    have hu := hup (by norm_num) (by norm_num) (by norm_num)
    norm_num at hu
    exact row_of 16 256 4 48 24 8 32 94.999 94 (by norm_num) z16 j16 i16 g16 (by norm_num; linarith) (by norm_num) (by norm_num)
      (le_min (by norm_num) (by norm_num; linarith)) ((min_le_right _ _).trans (by norm_num; linarith)) (by norm_num) (by norm_num) (by norm_num) (by norm_num) (by norm_num) rfl (by norm_num)

end Poseidon
