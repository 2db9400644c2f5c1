import Verif.Proofs.PaperTables
import Verif.Proofs.GenSecurityExact
import Verif.Model.CalcRounds

/-!
# The round number script of the Poseidon authors (C70)
-/

set_option linter.unusedSectionVars false

namespace Poseidon

/-! ### The search -/

section
variable {sat : Nat → Nat → Bool} {margin : Nat → Nat} {t r : Nat}

/-- Every accepted pair other than the best one costs more. -/
theorem fd_cost (hmono : ∀ a b, a ≤ b → margin a ≤ margin b) (hm : ∀ n, 1 ≤ n → n < 400 → margin n = (43 * n + 39) / 40)
    (ht : 2 ≤ t) (hr : 1 ≤ r) (hr' : r < 399) {f ρ : Nat} (hf : f % 2 = 0) (h6 : 6 ≤ f) (hB : r + 6 ≤ f + ρ) :
    (f = 6 ∧ ρ = r) ∨ getSboxCost 8 (margin r) t < getSboxCost (f + 2) (margin ρ) t := by
  unfold getSboxCost
  have hmr := hm r hr (by omega)
  obtain ⟨d, rfl⟩ := Nat.exists_eq_add_of_le h6
  by_cases hd : d = 0
  · subst hd
    by_cases hρ : ρ = r
    · exact Or.inl ⟨rfl, hρ⟩
    · right
      have h1 := hmono (r + 1) ρ (by omega)
      rw [hm (r + 1) (by omega) (by omega)] at h1
      show t * 8 + _ < t * 8 + _
      omega
  · right
    have h2 : 2 * d ≤ t * d := Nat.mul_le_mul_right d ht
    have e : t * (6 + d + 2) = t * 8 + t * d := by ring
    rw [e]
    by_cases hρ : ρ = 0
    · omega
    · by_cases hρ2 : ρ < 400
      · rw [hm ρ (by omega) hρ2]; omega
      · have h1 := hmono r ρ (by omega)
        omega

/-- The state after the best pair. -/
def fdBest (margin : Nat → Nat) (t r : Nat) : FdState := ⟨margin r, 8, some (getSboxCost 8 (margin r) t), 8⟩

/-- Nothing as cheap as the best pair has been seen, or the best pair is the choice. -/
def FdInv (margin : Nat → Nat) (t r : Nat) (s : FdState) : Prop :=
  (∀ c, s.minCost = some c → getSboxCost 8 (margin r) t < c) ∨ s = fdBest margin t r

variable (hsat : ∀ f ρ, sat f ρ = decide (6 ≤ f ∧ r + 6 ≤ f + ρ)) (hmono : ∀ a b, a ≤ b → margin a ≤ margin b)
  (hm : ∀ n, 1 ≤ n → n < 400 → margin n = (43 * n + 39) / 40) (ht : 2 ≤ t) (hr : 1 ≤ r) (hr' : r < 399)
include hsat hmono hm ht hr hr'

theorem fdBody_inv (s : FdState) (ρ f : Nat) (h : FdInv margin t r s) :
    FdInv margin t r (fdBody sat margin t (s, ρ) f).1 ∧
      (s = fdBest margin t r → (fdBody sat margin t (s, ρ) f).1 = fdBest margin t r) ∧
      (f = 6 → ρ = r → (fdBody sat margin t (s, ρ) f).1 = fdBest margin t r) := by
  unfold fdBody
  by_cases hf : f % 2 = 0
  · rw [if_pos hf]
    dsimp only
    rw [hsat]
    by_cases hs : 6 ≤ f ∧ r + 6 ≤ f + ρ
    · rw [if_pos (decide_eq_true hs)]
      rcases fd_cost (margin := margin) hmono hm ht hr hr' hf hs.1 hs.2 with ⟨rfl, rfl⟩ | hc
      · rcases h with h | h
        · have : fdBetter (getSboxCost (6 + 2) (margin ρ) t) (6 + 2) s = true := by
            unfold fdBetter
            split
            · rfl
            · next c hc => exact decide_eq_true (Or.inl (h c hc))
          rw [if_pos this]
          exact ⟨Or.inr rfl, fun _ => rfl, fun _ _ => rfl⟩
        · have : ¬ fdBetter (getSboxCost (6 + 2) (margin ρ) t) (6 + 2) s = true := by
            rw [h]; simp [fdBetter, fdBest]
          rw [if_neg this]
          exact ⟨Or.inr h, fun _ => h, fun _ _ => h⟩
      · have hne : f = 6 → ρ = r → False := fun e1 e2 => by subst e1; subst e2; exact lt_irrefl _ hc
        by_cases hbet : fdBetter (getSboxCost (f + 2) (margin ρ) t) (f + 2) s = true
        · rw [if_pos hbet]
          refine ⟨Or.inl fun c hcc => ?_, fun he => ?_, fun e1 e2 => (hne e1 e2).elim⟩
          · cases hcc; exact hc
          · subst he
            have hbet' : getSboxCost (f + 2) (margin ρ) t < getSboxCost 8 (margin r) t ∨
              getSboxCost (f + 2) (margin ρ) t = getSboxCost 8 (margin r) t ∧ f + 2 < 8 := of_decide_eq_true hbet
            omega
        · rw [if_neg hbet]
          exact ⟨h, fun he => he, fun e1 e2 => (hne e1 e2).elim⟩
    · rw [if_neg (by simpa using hs)]
      exact ⟨h, fun he => he, fun e1 e2 => (hs (by omega)).elim⟩
  · rw [if_neg hf]
    exact ⟨h, fun he => he, fun e1 _ => by omega⟩

theorem fdInner_inv (l : List Nat) (s : FdState) (ρ : Nat) (h : FdInv margin t r s) :
    FdInv margin t r (l.foldl (fdBody sat margin t) (s, ρ)).1 ∧
      (s = fdBest margin t r → (l.foldl (fdBody sat margin t) (s, ρ)).1 = fdBest margin t r) := by
  induction l generalizing s ρ with
  | nil => exact ⟨h, fun e => e⟩
  | cons f l ih =>
    have h1 := fdBody_inv hsat hmono hm ht hr hr' s ρ f h
    rw [List.foldl_cons]
    have h2 := ih (fdBody sat margin t (s, ρ) f).1 (fdBody sat margin t (s, ρ) f).2 h1.1
    exact ⟨h2.1, fun e => h2.2 (h1.2.1 e)⟩

theorem fdInner_hit (s : FdState) (h : FdInv margin t r s) :
    ((List.range' 4 96).foldl (fdBody sat margin t) (s, r)).1 = fdBest margin t r := by
  rw [show List.range' 4 96 = 4 :: 5 :: 6 :: List.range' 7 93 from rfl, List.foldl_cons, List.foldl_cons, List.foldl_cons]
  have h4 : fdBody sat margin t (s, r) 4 = (s, r) := by simp [fdBody, hsat]
  have h5 : fdBody sat margin t (s, r) 5 = (s, r) := by simp [fdBody]
  rw [h4, h5]
  have h6 := fdBody_inv hsat hmono hm ht hr hr' s r 6 h
  exact (fdInner_inv hsat hmono hm ht hr hr' (List.range' 7 93) _ (fdBody sat margin t (s, r) 6).2 h6.1).2 (h6.2.2 rfl rfl)

theorem fdSearch_eq : fdSearch sat margin t = fdBest margin t r := by
  have houter : ∀ (l : List Nat) (s : FdState), FdInv margin t r s →
      FdInv margin t r (l.foldl (fun s rPt => ((List.range' 4 96).foldl (fdBody sat margin t) (s, rPt)).1) s) ∧
      (s = fdBest margin t r → l.foldl (fun s rPt => ((List.range' 4 96).foldl (fdBody sat margin t) (s, rPt)).1) s = fdBest margin t r) := by
    intro l
    induction l with
    | nil => exact fun s h => ⟨h, fun e => e⟩
    | cons ρ l ih =>
      intro s h
      rw [List.foldl_cons]
      have h1 := fdInner_inv hsat hmono hm ht hr hr' (List.range' 4 96) s ρ h
      have h2 := ih _ h1.1
      exact ⟨h2.1, fun e => h2.2 (h1.2 e)⟩
  unfold fdSearch
  have hsplit : List.range' 1 499 = List.range' 1 (r - 1) ++ r :: List.range' (r + 1) (499 - r) := by
    have e1 : List.range' 1 499 = List.range' 1 (r - 1) ++ List.range' r (500 - r) := by
      have := List.range'_append (s := 1) (m := r - 1) (n := 500 - r) (step := 1)
      rw [show 1 + 1 * (r - 1) = r by omega, show (r - 1) + (500 - r) = 499 by omega] at this
      exact this.symm
    rw [e1, show 500 - r = (499 - r) + 1 by omega, List.range'_succ]
  rw [hsplit, List.foldl_append, List.foldl_cons]
  have h0 : FdInv margin t r ⟨0, 0, none, 0⟩ := Or.inl fun c hc => by cases hc
  have h1 := (houter (List.range' 1 (r - 1)) _ h0).1
  have h2 := fdInner_hit hsat hmono hm ht hr hr' _ h1
  rw [h2]
  exact (houter _ _ (Or.inr rfl)).2 rfl

end

/-! ### The security margin -/

theorem pyMargin_mono (a b : Nat) (h : a ≤ b) : pyMargin a ≤ pyMargin b := by
  unfold pyMargin
  rw [asUsize_int, asUsize_int]
  apply Int.toNat_le_toNat
  apply Int.ceil_le_ceil
  apply rne_mono
  apply mul_le_mul_of_nonneg_right (rne_mono (by exact_mod_cast h)) (rne_nonneg (by norm_num))

theorem pyMargin_eq (n : Nat) (h1 : 1 ≤ n) (h2 : n < 400) : pyMargin n = (43 * n + 39) / 40 := by
  unfold pyMargin
  rw [mul_comm, margin_exact h1 h2, asUsize_int, Int.toNat_natCast]

/-! ### The logarithms -/

theorem Libm.Accurate.log_ratio {L : Libm} (hL : L.Accurate) {t e a b c d : Nat} (ht : 1 ≤ t) (he : 2 ≤ e) (hb : 1 ≤ b) (hd : 1 ≤ d)
    (h1 : e ^ a ≤ t ^ b) (h2 : t ^ d ≤ e ^ c) :
    (a : ℝ) / b * (1 - 2⁻¹ ^ 38) ≤ L.log t e ∧ L.log t e ≤ (c : ℝ) / d * (1 + 2⁻¹ ^ 38) := by
  have htR : (1 : ℝ) ≤ t := by exact_mod_cast ht
  have heR : (1 : ℝ) < e := by exact_mod_cast he
  have hn := abs_le.1 (hL.log_near htR heR)
  have hle := Real.log_pos heR
  have hbR : (0 : ℝ) < b := by exact_mod_cast hb
  have hdR : (0 : ℝ) < d := by exact_mod_cast hd
  have g1 : (a : ℝ) / b ≤ Real.logb e t := by
    rw [Real.logb, div_le_div_iff₀ hbR hle, ← Real.log_pow, mul_comm, ← Real.log_pow]
    exact Real.log_le_log (by positivity) (by exact_mod_cast h1)
  have g2 : Real.logb e t ≤ (c : ℝ) / d := by
    rw [Real.logb, div_le_div_iff₀ hle hdR, ← Real.log_pow, mul_comm, ← Real.log_pow]
    exact Real.log_le_log (by positivity) (by exact_mod_cast h2)
  have h0 : (0 : ℝ) ≤ (a : ℝ) / b := by positivity
  constructor
  · nlinarith [hn.1, g1]
  · nlinarith [hn.2, g2]

theorem Libm.Accurate.log_self {L : Libm} (hL : L.Accurate) {e : Nat} (he : 2 ≤ e) : L.log e e = 1 := by
  have heR : (1 : ℝ) < e := by exact_mod_cast he
  have h := abs_le.1 (hL.ln e heR.le)
  have hl := Real.log_pos heR
  have : 0 < L.ln e := by
    have : (2⁻¹ : ℝ) ^ 40 ≤ 1 / 2 := by norm_num
    nlinarith [h.1]
  rw [Libm.log, div_self this.ne', rne_one]

/-- The power comparisons, by going through all widths and exponents. -/
theorem width_table' : ((List.range' 2 7).all fun t => (List.range' 3 62).all fun e =>
    (!decide (t < e) || decide (e ^ 1 ≤ t ^ 6 ∧ t ^ 20 ≤ e ^ 19)) && (!decide (e < t) || decide (e ^ 16 ≤ t ^ 15 ∧ t ^ 20 ≤ e ^ 39))) = true := by
  decide +kernel

theorem width_table (t : Nat) (h1 : t < 9) (e : Nat) (h2 : e < 65) (h3 : 2 ≤ t) (h4 : 3 ≤ e) :
    (t < e → e ^ 1 ≤ t ^ 6 ∧ t ^ 20 ≤ e ^ 19) ∧ (e < t → e ^ 16 ≤ t ^ 15 ∧ t ^ 20 ≤ e ^ 39) := by
  have h := List.all_eq_true.1 (List.all_eq_true.1 width_table' t (List.mem_range'_1.2 (by omega))) e (List.mem_range'_1.2 (by omega))
  rw [Bool.and_eq_true, Bool.or_eq_true, Bool.or_eq_true, decide_eq_true_eq, decide_eq_true_eq] at h
  constructor
  · intro hlt
    rcases h.1 with h | h
    · simp [hlt] at h
    · exact h
  · intro hlt
    rcases h.2 with h | h
    · simp [hlt] at h
    · exact h

/-- The exponents of the interpolation bound: adding the integer first makes no difference. -/
theorem ceil_add_log {L : Libm} (hL : L.Accurate) {t e A : Nat} (ht : 2 ≤ t) (ht' : t ≤ 8) (he : 3 ≤ e) (he' : e ≤ 64) (hA : A ≤ 1000) :
    ⌈rne ((A : ℝ) + L.log t e)⌉ = A + ⌈L.log t e⌉ ∧ ⌈L.log t e⌉ = if t ≤ e then 1 else 2 := by
  have hAR : (A : ℝ) ≤ 1000 := by exact_mod_cast hA
  have hA0 : (0 : ℝ) ≤ A := Nat.cast_nonneg _
  have key : ∀ j : Nat, j ≤ 1 → (j : ℝ) + 0.01 ≤ L.log t e → L.log t e ≤ (j : ℝ) + 1 →
      ⌈rne ((A : ℝ) + L.log t e)⌉ = A + ⌈L.log t e⌉ ∧ ⌈L.log t e⌉ = (j : ℤ) + 1 := by
    intro j hj h1 h2
    have hc : ⌈L.log t e⌉ = (j : ℤ) + 1 := by
      rw [Int.ceil_eq_iff]; push_cast; constructor <;> linarith
    have hjR : (j : ℝ) ≤ 1 := by exact_mod_cast hj
    have hj0 : (0 : ℝ) ≤ j := Nat.cast_nonneg _
    refine ⟨?_, hc⟩
    rw [hc, Int.ceil_eq_iff]
    push_cast
    constructor
    · have := le_rne (x := (A : ℝ) + L.log t e) (a := A + (j + 0.01)) (by linarith) (by linarith)
      have e : (2⁻¹ : ℝ) ^ 53 ≤ 1e-15 := by norm_num
      nlinarith
    · have := rne_mono (x := (A : ℝ) + L.log t e) (y := ((A + j + 1 : ℕ) : ℝ)) (by push_cast; linarith)
      rw [rne_natCast (by omega)] at this
      push_cast at this
      linarith
  obtain ⟨w1, w2⟩ := width_table t (by omega) e (by omega) ht he
  rcases lt_trichotomy t e with h | h | h
  · obtain ⟨a, b⟩ := w1 h
    obtain ⟨x, y⟩ := hL.log_ratio (by omega) (by omega) (by norm_num) (by norm_num) a b
    rw [if_pos h.le]
    exact key 0 (by norm_num) (by norm_num at x ⊢; linarith) (by norm_num at y ⊢; linarith)
  · subst h
    have := hL.log_self (e := t) (by omega)
    rw [if_pos le_rfl]
    exact key 0 (by norm_num) (by rw [this]; norm_num) (by rw [this]; norm_num)
  · obtain ⟨a, b⟩ := w2 h
    obtain ⟨x, y⟩ := hL.log_ratio (by omega) (by omega) (by norm_num) (by norm_num) a b
    rw [if_neg (by omega)]
    exact key 1 (by norm_num) (by norm_num at x ⊢; linarith) (by norm_num at y ⊢; linarith)

theorem two_table : ∀ e, e < 65 → 3 ≤ e → e ^ 1 ≤ 2 ^ 6 ∧ 2 ^ 3 ≤ e ^ 2 := by decide +kernel

theorem log_two_bounds {L : Libm} (hL : L.Accurate) {e : Nat} (he : 3 ≤ e) (he' : e ≤ 64) : 0.166 ≤ L.log 2 e ∧ L.log 2 e ≤ 0.667 := by
  obtain ⟨a, b⟩ := two_table e (by omega) he
  obtain ⟨x, y⟩ := hL.log_ratio (t := 2) (by omega) (by omega) (by norm_num) (by norm_num) a b
  push_cast at x y
  norm_num at x y ⊢
  constructor <;> linarith

/-- `math.log(p, 2)` of a modulus of more bits than the security level. -/
theorem le_log_big {L : Libm} (hL : L.Accurate) {M p : Nat} (hM : M ≤ 256) (h : 2 ^ (M + 1) ≤ p) : (M : ℝ) ≤ L.log p 2 := by
  have hp : (1 : ℝ) ≤ p := by exact_mod_cast (Nat.one_le_two_pow (n := M + 1)).trans h
  have hn := (abs_le.1 (hL.log_near (x := (p : ℝ)) (b := 2) hp (by norm_num))).1
  have h1 : ((M + 1 : ℕ) : ℝ) ≤ Real.logb 2 p := le_logb2 (by linarith) (by exact_mod_cast h)
  have hMR : (M : ℝ) ≤ 256 := by exact_mod_cast hM
  push_cast at h1
  norm_num at hn
  nlinarith

/-- The test of the script for large moduli. -/
theorem satInequivAlpha_eq {L : Libm} (hL : L.Accurate) {p t e M : Nat} (hM : 80 ≤ M) (hM' : M ≤ 256) (ht : 2 ≤ t) (ht' : t ≤ 8) (he : 3 ≤ e)
    (he' : e ≤ 64) (hp : 2 ^ (M + 1) ≤ p) (f ρ : Nat) :
    satInequivAlpha L p t f ρ e M =
      decide (6 ≤ (f : ℤ) ∧ 1 + ⌈rne (L.log 2 e * M)⌉ + ⌈L.log t e⌉ ≤ (f : ℤ) + ρ) := by
  have hlp := le_log_big hL hM' hp
  obtain ⟨ha, hb⟩ := log_two_bounds hL he he'
  have hMR : (80 : ℝ) ≤ M := by exact_mod_cast hM
  have hMR' : (M : ℝ) ≤ 256 := by exact_mod_cast hM'
  have htR : (2 : ℝ) ≤ t := by exact_mod_cast ht
  have htR' : (t : ℝ) ≤ 8 := by exact_mod_cast ht'
  unfold satInequivAlpha
  dsimp only
  rw [min_eq_left hlp]
  generalize L.log p 2 = lp at *
  have hTv := (ceil_add_log hL (A := 0) ht ht' he he' (by norm_num)).2
  have hT1 : 1 ≤ ⌈L.log t e⌉ := by rw [hTv]; split_ifs <;> norm_num
  have hT2 : ⌈L.log t e⌉ ≤ 2 := by rw [hTv]; split_ifs <;> norm_num
  clear hTv
  generalize ⌈L.log t e⌉ = T at *
  have hx0 : 13.2 ≤ rne (L.log 2 e * M) := le_rne_of (a := 13.28) (by nlinarith) (by norm_num) (by norm_num)
  have hx1 : rne (L.log 2 e * M) ≤ 172 := rne_le_of (b := 171) (by nlinarith) (by norm_num) (by norm_num)
  have hxc := Int.le_ceil (rne (L.log 2 e * M))
  have hA1 : ⌈rne (L.log 2 e * M)⌉ ≤ 172 := Int.ceil_le.2 (by exact_mod_cast hx1)
  -- the statistical bound
  have h6 : (M : ℝ) ≤ rne (rne (⌊lp⌋ - L.log ((e : ℝ) - 1) 2) * ((t : ℝ) + 1)) := by
    have hfl : (M : ℝ) ≤ ((⌊lp⌋ : ℤ) : ℝ) := by exact_mod_cast Int.le_floor.2 (by exact_mod_cast hlp)
    have hC : L.log ((e : ℝ) - 1) 2 ≤ 6.1 := by
      have e1 : ((e : ℝ) - 1) = ((e - 1 : ℕ) : ℝ) := by rw [Nat.cast_sub (by omega)]; simp
      have h := (hL.log_ratio (t := e - 1) (e := 2) (a := 0) (b := 1) (c := 6) (d := 1) (by omega) (by norm_num) (by norm_num) (by norm_num)
        (by rw [pow_zero, pow_one]; omega) (by rw [pow_one]; norm_num; omega)).2
      rw [e1]
      push_cast at h
      norm_num at h ⊢
      linarith
    have h1 : (M - 6.1) * 0.9999 ≤ rne (((⌊lp⌋ : ℤ) : ℝ) - L.log ((e : ℝ) - 1) 2) := le_rne_of (a := M - 6.1) (by linarith) (by linarith) le_rfl
    have h2 : (M - 6.1) * 0.9999 * 3 ≤ rne (((⌊lp⌋ : ℤ) : ℝ) - L.log ((e : ℝ) - 1) 2) * ((t : ℝ) + 1) :=
      mul_le_mul h1 (by linarith) (by norm_num) ((by nlinarith : (0 : ℝ) ≤ (M - 6.1) * 0.9999).trans h1)
    exact le_rne_of h2 (by linarith) (by linarith)
  rw [if_pos h6]
  -- the Gröbner bounds
  have hsub : ∀ x : ℝ, rne x ≤ 1 + ⌈rne (L.log 2 e * M)⌉ + T →
      ⌈rne (rne x - (ρ : ℝ))⌉ ≤ max 6 (1 + ⌈rne (L.log 2 e * M)⌉ + T - ρ) := by
    intro x hx
    generalize ⌈rne (L.log 2 e * M)⌉ = A at *
    rw [Int.ceil_le, ← rne_intCast (n := max 6 (1 + A + T - ρ)) (abs_le.2 ⟨by omega, by omega⟩)]
    apply rne_mono
    have : ((1 + A + T - ρ : ℤ) : ℝ) ≤ ((max 6 (1 + A + T - ρ) : ℤ) : ℝ) := by exact_mod_cast le_max_right _ _
    push_cast at this ⊢
    linarith
  have hT1R : (1 : ℝ) ≤ T := by exact_mod_cast hT1
  have hround : ∀ x : ℝ, x ≤ 1 + ⌈rne (L.log 2 e * M)⌉ + T → rne x ≤ 1 + ⌈rne (L.log 2 e * M)⌉ + T := by
    intro x hx
    have hpos : 0 ≤ ⌈rne (L.log 2 e * M)⌉ := Int.ceil_nonneg (by linarith)
    generalize ⌈rne (L.log 2 e * M)⌉ = A at *
    have := rne_mono (x := x) (y := ((1 + A + T : ℤ) : ℝ)) (by push_cast; exact hx)
    rw [rne_intCast (abs_le.2 ⟨by omega, by omega⟩)] at this
    push_cast at this
    exact this
  have h3 := hsub (1 + rne (L.log 2 e * min (rne (M / 3)) (rne (lp / 2)))) (hround _ (by
    have h1 : rne ((M : ℝ) / 3) ≤ M := by
      have := rne_mono (x := (M : ℝ) / 3) (y := M) (by linarith)
      rwa [rne_natCast (by omega)] at this
    have h2 := rne_mono (mul_le_mul_of_nonneg_left ((min_le_left (rne ((M : ℝ) / 3)) (rne (lp / 2))).trans h1) (by linarith : 0 ≤ L.log 2 e))
    linarith))
  have h4 := hsub ((t : ℝ) - 1 + min (rne (rne (L.log 2 e * M) / ((t : ℝ) + 1))) (rne (rne (L.log 2 e * lp) / 2))) (hround _ (by
    generalize rne (L.log 2 e * M) = x at *
    have h1 : rne (x / ((t : ℝ) + 1)) ≤ x / (t + 1) * 1.0001 := rne_le_of le_rfl (by positivity) le_rfl
    have h2 := (min_le_left (rne (x / ((t : ℝ) + 1))) (rne (rne (L.log 2 e * lp) / 2))).trans h1
    have h3 : x / ((t : ℝ) + 1) ≤ x / 3 := div_le_div_of_nonneg_left (by linarith) (by norm_num) (by linarith)
    nlinarith))
  rw [decide_eq_decide]
  omega

/-- The search of the script for large moduli. -/
theorem findFd_eq {L : Libm} (hL : L.Accurate) {p t e M : Nat} (hM : 80 ≤ M) (hM' : M ≤ 256) (ht : 2 ≤ t) (ht' : t ≤ 8) (he : 3 ≤ e)
    (he' : e ≤ 64) (hp : 2 ^ (M + 1) ≤ p) :
    ∃ A T : Nat, ⌈rne (L.log 2 e * M)⌉ = A ∧ ⌈L.log t e⌉ = T ∧ 14 ≤ A ∧ A ≤ 172 ∧ 1 ≤ T ∧ T ≤ 2 ∧
      findFdRoundNumbers L p t e M = (8, (43 * (A + T - 5) + 39) / 40) := by
  obtain ⟨ha, hb⟩ := log_two_bounds hL he he'
  have hMR : (80 : ℝ) ≤ M := by exact_mod_cast hM
  have hMR' : (M : ℝ) ≤ 256 := by exact_mod_cast hM'
  have hs := satInequivAlpha_eq hL hM hM' ht ht' he he' hp
  have hTv := (ceil_add_log hL (A := 0) ht ht' he he' (by norm_num)).2
  have hT1 : 1 ≤ ⌈L.log t e⌉ := by rw [hTv]; split_ifs <;> norm_num
  have hT2 : ⌈L.log t e⌉ ≤ 2 := by rw [hTv]; split_ifs <;> norm_num
  have hx0 : 13.2 ≤ rne (L.log 2 e * M) := le_rne_of (a := 13.28) (by nlinarith) (by norm_num) (by norm_num)
  have hx1 : rne (L.log 2 e * M) ≤ 172 := rne_le_of (b := 171) (by nlinarith) (by norm_num) (by norm_num)
  have hA1 : ⌈rne (L.log 2 e * M)⌉ ≤ 172 := Int.ceil_le.2 (by exact_mod_cast hx1)
  have hA0 : 13 < ⌈rne (L.log 2 e * M)⌉ := Int.lt_ceil.2 (by push_cast; linarith)
  obtain ⟨A, hA⟩ : ∃ A : Nat, ⌈rne (L.log 2 e * M)⌉ = A := ⟨_, (Int.toNat_of_nonneg (by omega)).symm⟩
  obtain ⟨T, hT⟩ : ∃ T : Nat, ⌈L.log t e⌉ = T := ⟨_, (Int.toNat_of_nonneg (by omega)).symm⟩
  rw [hA] at hA0 hA1
  rw [hT] at hT1 hT2
  refine ⟨A, T, hA, hT, by omega, by omega, by omega, by omega, ?_⟩
  unfold findFdRoundNumbers
  dsimp only
  rw [fdSearch_eq (r := A + T - 5) (fun f ρ => by
    rw [hs, hA, hT, decide_eq_decide]; omega) pyMargin_mono pyMargin_eq ht (by omega) (by omega)]
  dsimp only [fdBest]
  rw [pyMargin_eq _ (by omega) (by omega)]

end Poseidon
