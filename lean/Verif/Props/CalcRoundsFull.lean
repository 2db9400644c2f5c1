import Verif.Proofs.CalcRoundsFull
import Verif.Props.CalcRounds

/-!
# The whole round number script of the Poseidon authors (C84)

`vendor/hadeshash/code/calc_round_numbers.py` with its inverse S-box, with and without the security margin, with its cost functions and
the tables it prints.
-/

set_option linter.unusedSectionVars false
set_option linter.unnecessarySeqFocus false
set_option linter.unusedTactic false

namespace Poseidon

theorem scriptPair_eq (on : Bool) (r : Nat) : scriptPair on r = if on then (8, Spec.partialWithMargin r) else (6, r) := by
  rw [scriptPair, ceil_margin]

/-- `math.log(p, 2)` of an `n`-bit number. -/
theorem script_log_bounds {L : Libm} (hL : L.Accurate) {p n : Nat} (hn : 1 ≤ n) (hn' : n ≤ 1000) (h1 : 2 ^ (n - 1) ≤ p) (h2 : p < 2 ^ n) :
    ((n - 1 : ℕ) : ℝ) - 1e-6 ≤ L.log p 2 ∧ L.log p 2 ≤ n + 1e-6 := by
  have h := hL.log_ratio (t := p) (e := 2) (a := n - 1) (b := 1) (c := n) (d := 1) (le_trans Nat.one_le_two_pow h1) (by norm_num) (by norm_num)
    (by norm_num) (by rwa [pow_one]) (by rw [pow_one]; exact h2.le)
  have hnR : (n : ℝ) ≤ 1000 := by exact_mod_cast hn'
  have hnR' : ((n - 1 : ℕ) : ℝ) ≤ 1000 := by exact_mod_cast (by omega : n - 1 ≤ 1000)
  push_cast at h
  norm_num at h ⊢
  constructor <;> linarith [h.1, h.2]

theorem table_row {L : Libm} {p t M I rF rP n : Nat} {alpha : ℤ}
    (hI : ∀ on, findRoundNumbers L p t alpha M sboxCostFn on = some (scriptPair on (I - 5)))
    (h : rF = 8 ∧ ((43 * (I - 5) + 39) / 40 = rP ∨ n ≤ M ∧ (43 * (I - 5) + 39) / 40 + 1 = rP)) :
    ∃ r, findRoundNumbers L p t alpha M sboxCostFn false = some (6, r) ∧
      findRoundNumbers L p t alpha M sboxCostFn true = some (rF, Spec.partialWithMargin r) ∧
      (Spec.partialWithMargin r = rP ∨ n ≤ M ∧ Spec.partialWithMargin r + 1 = rP) := by
  obtain ⟨rfl, h⟩ := h
  refine ⟨I - 5, hI false, ?_, by rwa [ceil_margin]⟩
  rw [hI true, scriptPair_eq]; rfl

/-- **C84**, the tables the script prints for `x^3`: for every modulus of the size in a row of Table 7 the script returns, without the
security margin, 6 full rounds and some number of partial rounds, and with it the full rounds of the row and 7.5 % more partial rounds;
these are the partial rounds of the row or, if the modulus has no more bits than the security level, at most one less. -/
theorem C84_table7 (L : Libm) (hL : L.Accurate) (row : Spec.TableRow) (hrow : row ∈ Spec.table7) (p : Nat) (h1 : 2 ^ (row.n - 1) ≤ p)
    (h2 : p < 2 ^ row.n) :
    ∃ r, findRoundNumbers L p row.t 3 row.M sboxCostFn false = some (6, r) ∧
      findRoundNumbers L p row.t 3 row.M sboxCostFn true = some (row.rF, Spec.partialWithMargin r) ∧
      (Spec.partialWithMargin r = row.rP ∨ row.n ≤ row.M ∧ Spec.partialWithMargin r + 1 = row.rP) := by
  have hlp : 1 ≤ row.n → row.n ≤ 1000 → _ := fun a b => script_log_bounds hL a b h1 h2
  clear h1 h2
  have hC : L.log ((((3 : ℕ) : ℝ)) - 1) 2 ≤ 1.01 := by
    have h := (hL.log_ratio (t := 2) (e := 2) (a := 0) (b := 1) (c := 1) (d := 1) (by norm_num) (by norm_num) (by norm_num) (by norm_num)
      (by norm_num) (by norm_num)).2
    norm_num at h ⊢
    linarith
  have hl := log_3_gt
  have hu := log_3_lt
  have ha : 0.63024 ≤ L.log 2 ((3 : ℕ) : ℝ) := by
    push_cast
    exact hL.le_log (by norm_num) (by norm_num) Real.log_two_gt_d9.le hu.le (by norm_num) (by norm_num)
  have hb : L.log 2 ((3 : ℕ) : ℝ) ≤ 0.63163 := by
    push_cast
    exact hL.log_le (by norm_num) (by norm_num) Real.log_two_lt_d9.le hl.le (by norm_num) (by norm_num)
  have hc2 : 0.6301 ≤ L.log ((2 : ℕ) : ℝ) ((3 : ℕ) : ℝ) := by
    push_cast
    exact hL.le_log (by norm_num) (by norm_num) log_width_2.1 hu.le (by norm_num) (by norm_num)
  have hd2 : L.log ((2 : ℕ) : ℝ) ((3 : ℕ) : ℝ) ≤ 0.6325 := by
    push_cast
    exact hL.log_le (by norm_num) (by norm_num) log_width_2.2 hl.le (by norm_num) (by norm_num)
  have hc4 : 1.2602 ≤ L.log ((4 : ℕ) : ℝ) ((3 : ℕ) : ℝ) := by
    push_cast
    exact hL.le_log (by norm_num) (by norm_num) log_width_4.1 hu.le (by norm_num) (by norm_num)
  have hd4 : L.log ((4 : ℕ) : ℝ) ((3 : ℕ) : ℝ) ≤ 1.2639 := by
    push_cast
    exact hL.log_le (by norm_num) (by norm_num) log_width_4.2 hl.le (by norm_num) (by norm_num)
  have hc6 : 1.6284 ≤ L.log ((6 : ℕ) : ℝ) ((3 : ℕ) : ℝ) := by
    push_cast
    exact hL.le_log (by norm_num) (by norm_num) log_width_6.1 hu.le (by norm_num) (by norm_num)
  have hd6 : L.log ((6 : ℕ) : ℝ) ((3 : ℕ) : ℝ) ≤ 1.633 := by
    push_cast
    exact hL.log_le (by norm_num) (by norm_num) log_width_6.2 hl.le (by norm_num) (by norm_num)
  have hc8 : 1.8903 ≤ L.log ((8 : ℕ) : ℝ) ((3 : ℕ) : ℝ) := by
    push_cast
    exact hL.le_log (by norm_num) (by norm_num) log_width_8.1 hu.le (by norm_num) (by norm_num)
  have hd8 : L.log ((8 : ℕ) : ℝ) ((3 : ℕ) : ℝ) ≤ 1.8954 := by
    push_cast
    exact hL.log_le (by norm_num) (by norm_num) log_width_8.2 hl.le (by norm_num) (by norm_num)
  have hc16 : 2.5204 ≤ L.log ((16 : ℕ) : ℝ) ((3 : ℕ) : ℝ) := by
    push_cast
    exact hL.le_log (by norm_num) (by norm_num) log_width_16.1 hu.le (by norm_num) (by norm_num)
  have hd16 : L.log ((16 : ℕ) : ℝ) ((3 : ℕ) : ℝ) ≤ 2.5269 := by
    push_cast
    exact hL.log_le (by norm_num) (by norm_num) log_width_16.2 hl.le (by norm_num) (by norm_num)
  simp only [Spec.table7, List.mem_cons, List.not_mem_nil, or_false] at hrow
  rcases hrow with rfl | rfl | rfl | rfl | rfl | rfl | rfl | rfl | rfl | rfl
  · obtain ⟨hp1, hp2⟩ := hlp (by norm_num) (by norm_num)
    norm_num at hp1 hp2
    obtain ⟨I, hI1, hI2, hI⟩ := script_exponent (L := L) (M := 128) (t := 2) (e := 3) (p := p) (n := 766) (m1 := 128) (m2 := 128) (A := 81) (A' := 81) (T := 1)
      (by norm_num) (by norm_num) hC (by norm_num; linarith) (by norm_num) (by norm_num) (by norm_num) ha hb (by norm_num) hc2 hd2 (by norm_num)
      (by norm_num) (le_min (by norm_num) (by linarith)) ((min_le_left _ _).trans (by norm_num))
      (by norm_num) (by norm_num) (by norm_num) (by norm_num) (by norm_num) (by norm_num)
    exact table_row hI (by interval_cases I <;> simp)
  · obtain ⟨hp1, hp2⟩ := hlp (by norm_num) (by norm_num)
    norm_num at hp1 hp2
    obtain ⟨I, hI1, hI2, hI⟩ := script_exponent (L := L) (M := 128) (t := 4) (e := 3) (p := p) (n := 382) (m1 := 128) (m2 := 128) (A := 81) (A' := 81) (T := 2)
      (by norm_num) (by norm_num) hC (by norm_num; linarith) (by norm_num) (by norm_num) (by norm_num) ha hb (by norm_num) hc4 hd4 (by norm_num)
      (by norm_num) (le_min (by norm_num) (by linarith)) ((min_le_left _ _).trans (by norm_num))
      (by norm_num) (by norm_num) (by norm_num) (by norm_num) (by norm_num) (by norm_num)
    exact table_row hI (by interval_cases I <;> simp)
  · obtain ⟨hp1, hp2⟩ := hlp (by norm_num) (by norm_num)
    norm_num at hp1 hp2
    obtain ⟨I, hI1, hI2, hI⟩ := script_exponent (L := L) (M := 128) (t := 6) (e := 3) (p := p) (n := 254) (m1 := 128) (m2 := 128) (A := 81) (A' := 81) (T := 2)
      (by norm_num) (by norm_num) hC (by norm_num; linarith) (by norm_num) (by norm_num) (by norm_num) ha hb (by norm_num) hc6 hd6 (by norm_num)
      (by norm_num) (le_min (by norm_num) (by linarith)) ((min_le_left _ _).trans (by norm_num))
      (by norm_num) (by norm_num) (by norm_num) (by norm_num) (by norm_num) (by norm_num)
    exact table_row hI (by interval_cases I <;> simp)
  · obtain ⟨hp1, hp2⟩ := hlp (by norm_num) (by norm_num)
    norm_num at hp1 hp2
    obtain ⟨I, hI1, hI2, hI⟩ := script_exponent (L := L) (M := 128) (t := 8) (e := 3) (p := p) (n := 190) (m1 := 128) (m2 := 128) (A := 81) (A' := 81) (T := 2)
      (by norm_num) (by norm_num) hC (by norm_num; linarith) (by norm_num) (by norm_num) (by norm_num) ha hb (by norm_num) hc8 hd8 (by norm_num)
      (by norm_num) (le_min (by norm_num) (by linarith)) ((min_le_left _ _).trans (by norm_num))
      (by norm_num) (by norm_num) (by norm_num) (by norm_num) (by norm_num) (by norm_num)
    exact table_row hI (by interval_cases I <;> simp)
  · obtain ⟨hp1, hp2⟩ := hlp (by norm_num) (by norm_num)
    norm_num at hp1 hp2
    obtain ⟨I, hI1, hI2, hI⟩ := script_exponent (L := L) (M := 128) (t := 16) (e := 3) (p := p) (n := 94) (m1 := 94.999) (m2 := 96.001) (A := 60) (A' := 61) (T := 3)
      (by norm_num) (by norm_num) hC (by norm_num; linarith) (by norm_num) (by norm_num) (by norm_num) ha hb (by norm_num) hc16 hd16 (by norm_num)
      (by norm_num) (le_min (by norm_num) (by norm_num; linarith)) ((min_le_right _ _).trans (by norm_num; linarith))
      (by norm_num) (by norm_num) (by norm_num) (by norm_num) (by norm_num) (by norm_num)
    exact table_row hI (by interval_cases I <;> simp)
  · obtain ⟨hp1, hp2⟩ := hlp (by norm_num) (by norm_num)
    norm_num at hp1 hp2
    obtain ⟨I, hI1, hI2, hI⟩ := script_exponent (L := L) (M := 256) (t := 2) (e := 3) (p := p) (n := 766) (m1 := 256) (m2 := 256) (A := 162) (A' := 162) (T := 1)
      (by norm_num) (by norm_num) hC (by norm_num; linarith) (by norm_num) (by norm_num) (by norm_num) ha hb (by norm_num) hc2 hd2 (by norm_num)
      (by norm_num) (le_min (by norm_num) (by linarith)) ((min_le_left _ _).trans (by norm_num))
      (by norm_num) (by norm_num) (by norm_num) (by norm_num) (by norm_num) (by norm_num)
    exact table_row hI (by interval_cases I <;> simp)
  · obtain ⟨hp1, hp2⟩ := hlp (by norm_num) (by norm_num)
    norm_num at hp1 hp2
    obtain ⟨I, hI1, hI2, hI⟩ := script_exponent (L := L) (M := 256) (t := 4) (e := 3) (p := p) (n := 382) (m1 := 256) (m2 := 256) (A := 162) (A' := 162) (T := 2)
      (by norm_num) (by norm_num) hC (by norm_num; linarith) (by norm_num) (by norm_num) (by norm_num) ha hb (by norm_num) hc4 hd4 (by norm_num)
      (by norm_num) (le_min (by norm_num) (by linarith)) ((min_le_left _ _).trans (by norm_num))
      (by norm_num) (by norm_num) (by norm_num) (by norm_num) (by norm_num) (by norm_num)
    exact table_row hI (by interval_cases I <;> simp)
  · obtain ⟨hp1, hp2⟩ := hlp (by norm_num) (by norm_num)
    norm_num at hp1 hp2
    obtain ⟨I, hI1, hI2, hI⟩ := script_exponent (L := L) (M := 256) (t := 6) (e := 3) (p := p) (n := 254) (m1 := 254.999) (m2 := 256) (A := 161) (A' := 162) (T := 2)
      (by norm_num) (by norm_num) hC (by norm_num; linarith) (by norm_num) (by norm_num) (by norm_num) ha hb (by norm_num) hc6 hd6 (by norm_num)
      (by norm_num) (le_min (by norm_num) (by linarith)) ((min_le_left _ _).trans (by norm_num))
      (by norm_num) (by norm_num) (by norm_num) (by norm_num) (by norm_num) (by norm_num)
    exact table_row hI (by interval_cases I <;> simp)
  · obtain ⟨hp1, hp2⟩ := hlp (by norm_num) (by norm_num)
    norm_num at hp1 hp2
    obtain ⟨I, hI1, hI2, hI⟩ := script_exponent (L := L) (M := 256) (t := 8) (e := 3) (p := p) (n := 190) (m1 := 190.999) (m2 := 192.001) (A := 121) (A' := 122) (T := 2)
      (by norm_num) (by norm_num) hC (by norm_num; linarith) (by norm_num) (by norm_num) (by norm_num) ha hb (by norm_num) hc8 hd8 (by norm_num)
      (by norm_num) (le_min (by norm_num) (by norm_num; linarith)) ((min_le_right _ _).trans (by norm_num; linarith))
      (by norm_num) (by norm_num) (by norm_num) (by norm_num) (by norm_num) (by norm_num)
    exact table_row hI (by interval_cases I <;> simp)
  · obtain ⟨hp1, hp2⟩ := hlp (by norm_num) (by norm_num)
    norm_num at hp1 hp2
    obtain ⟨I, hI1, hI2, hI⟩ := script_exponent (L := L) (M := 256) (t := 16) (e := 3) (p := p) (n := 94) (m1 := 94.999) (m2 := 96.001) (A := 60) (A' := 61) (T := 3)
      (by norm_num) (by norm_num) hC (by norm_num; linarith) (by norm_num) (by norm_num) (by norm_num) ha hb (by norm_num) hc16 hd16 (by norm_num)
      (by norm_num) (le_min (by norm_num) (by norm_num; linarith)) ((min_le_right _ _).trans (by norm_num; linarith))
      (by norm_num) (by norm_num) (by norm_num) (by norm_num) (by norm_num) (by norm_num)
    exact table_row hI (by interval_cases I <;> simp)

/-- **C84**, the tables the script prints for `x^5`: for every modulus of the size in a row of Table 8 the script returns, without the
security margin, 6 full rounds and some number of partial rounds, and with it the full rounds of the row and 7.5 % more partial rounds;
these are the partial rounds of the row or, if the modulus has no more bits than the security level, at most one less. -/
theorem C84_table8 (L : Libm) (hL : L.Accurate) (row : Spec.TableRow) (hrow : row ∈ Spec.table8) (p : Nat) (h1 : 2 ^ (row.n - 1) ≤ p)
    (h2 : p < 2 ^ row.n) :
    ∃ r, findRoundNumbers L p row.t 5 row.M sboxCostFn false = some (6, r) ∧
      findRoundNumbers L p row.t 5 row.M sboxCostFn true = some (row.rF, Spec.partialWithMargin r) ∧
      (Spec.partialWithMargin r = row.rP ∨ row.n ≤ row.M ∧ Spec.partialWithMargin r + 1 = row.rP) := by
  have hlp : 1 ≤ row.n → row.n ≤ 1000 → _ := fun a b => script_log_bounds hL a b h1 h2
  clear h1 h2
  have hC : L.log ((((5 : ℕ) : ℝ)) - 1) 2 ≤ 2.01 := by
    have h := (hL.log_ratio (t := 4) (e := 2) (a := 0) (b := 1) (c := 2) (d := 1) (by norm_num) (by norm_num) (by norm_num) (by norm_num)
      (by norm_num) (by norm_num)).2
    norm_num at h ⊢
    linarith
  have hl := log_5_gt
  have hu := log_5_lt
  have ha : 0.4302 ≤ L.log 2 ((5 : ℕ) : ℝ) := by
    push_cast
    exact hL.le_log (by norm_num) (by norm_num) Real.log_two_gt_d9.le hu.le (by norm_num) (by norm_num)
  have hb : L.log 2 ((5 : ℕ) : ℝ) ≤ 0.43115 := by
    push_cast
    exact hL.log_le (by norm_num) (by norm_num) Real.log_two_lt_d9.le hl.le (by norm_num) (by norm_num)
  have hc2 : 0.4301 ≤ L.log ((2 : ℕ) : ℝ) ((5 : ℕ) : ℝ) := by
    push_cast
    exact hL.le_log (by norm_num) (by norm_num) log_width_2.1 hu.le (by norm_num) (by norm_num)
  have hd2 : L.log ((2 : ℕ) : ℝ) ((5 : ℕ) : ℝ) ≤ 0.4317 := by
    push_cast
    exact hL.log_le (by norm_num) (by norm_num) log_width_2.2 hl.le (by norm_num) (by norm_num)
  have hc4 : 0.8602 ≤ L.log ((4 : ℕ) : ℝ) ((5 : ℕ) : ℝ) := by
    push_cast
    exact hL.le_log (by norm_num) (by norm_num) log_width_4.1 hu.le (by norm_num) (by norm_num)
  have hd4 : L.log ((4 : ℕ) : ℝ) ((5 : ℕ) : ℝ) ≤ 0.8628 := by
    push_cast
    exact hL.log_le (by norm_num) (by norm_num) log_width_4.2 hl.le (by norm_num) (by norm_num)
  have hc6 : 1.1115 ≤ L.log ((6 : ℕ) : ℝ) ((5 : ℕ) : ℝ) := by
    push_cast
    exact hL.le_log (by norm_num) (by norm_num) log_width_6.1 hu.le (by norm_num) (by norm_num)
  have hd6 : L.log ((6 : ℕ) : ℝ) ((5 : ℕ) : ℝ) ≤ 1.1147 := by
    push_cast
    exact hL.log_le (by norm_num) (by norm_num) log_width_6.2 hl.le (by norm_num) (by norm_num)
  have hc8 : 1.2903 ≤ L.log ((8 : ℕ) : ℝ) ((5 : ℕ) : ℝ) := by
    push_cast
    exact hL.le_log (by norm_num) (by norm_num) log_width_8.1 hu.le (by norm_num) (by norm_num)
  have hd8 : L.log ((8 : ℕ) : ℝ) ((5 : ℕ) : ℝ) ≤ 1.2938 := by
    push_cast
    exact hL.log_le (by norm_num) (by norm_num) log_width_8.2 hl.le (by norm_num) (by norm_num)
  have hc16 : 1.7204 ≤ L.log ((16 : ℕ) : ℝ) ((5 : ℕ) : ℝ) := by
    push_cast
    exact hL.le_log (by norm_num) (by norm_num) log_width_16.1 hu.le (by norm_num) (by norm_num)
  have hd16 : L.log ((16 : ℕ) : ℝ) ((5 : ℕ) : ℝ) ≤ 1.7249 := by
    push_cast
    exact hL.log_le (by norm_num) (by norm_num) log_width_16.2 hl.le (by norm_num) (by norm_num)
  simp only [Spec.table8, List.mem_cons, List.not_mem_nil, or_false] at hrow
  rcases hrow with rfl | rfl | rfl | rfl | rfl | rfl | rfl | rfl | rfl | rfl
  · obtain ⟨hp1, hp2⟩ := hlp (by norm_num) (by norm_num)
    norm_num at hp1 hp2
    obtain ⟨I, hI1, hI2, hI⟩ := script_exponent (L := L) (M := 128) (t := 2) (e := 5) (p := p) (n := 766) (m1 := 128) (m2 := 128) (A := 56) (A' := 56) (T := 1)
      (by norm_num) (by norm_num) hC (by norm_num; linarith) (by norm_num) (by norm_num) (by norm_num) ha hb (by norm_num) hc2 hd2 (by norm_num)
      (by norm_num) (le_min (by norm_num) (by linarith)) ((min_le_left _ _).trans (by norm_num))
      (by norm_num) (by norm_num) (by norm_num) (by norm_num) (by norm_num) (by norm_num)
    exact table_row hI (by interval_cases I <;> simp)
  · obtain ⟨hp1, hp2⟩ := hlp (by norm_num) (by norm_num)
    norm_num at hp1 hp2
    obtain ⟨I, hI1, hI2, hI⟩ := script_exponent (L := L) (M := 128) (t := 4) (e := 5) (p := p) (n := 382) (m1 := 128) (m2 := 128) (A := 56) (A' := 56) (T := 1)
      (by norm_num) (by norm_num) hC (by norm_num; linarith) (by norm_num) (by norm_num) (by norm_num) ha hb (by norm_num) hc4 hd4 (by norm_num)
      (by norm_num) (le_min (by norm_num) (by linarith)) ((min_le_left _ _).trans (by norm_num))
      (by norm_num) (by norm_num) (by norm_num) (by norm_num) (by norm_num) (by norm_num)
    exact table_row hI (by interval_cases I <;> simp)
  · obtain ⟨hp1, hp2⟩ := hlp (by norm_num) (by norm_num)
    norm_num at hp1 hp2
    obtain ⟨I, hI1, hI2, hI⟩ := script_exponent (L := L) (M := 128) (t := 6) (e := 5) (p := p) (n := 254) (m1 := 128) (m2 := 128) (A := 56) (A' := 56) (T := 2)
      (by norm_num) (by norm_num) hC (by norm_num; linarith) (by norm_num) (by norm_num) (by norm_num) ha hb (by norm_num) hc6 hd6 (by norm_num)
      (by norm_num) (le_min (by norm_num) (by linarith)) ((min_le_left _ _).trans (by norm_num))
      (by norm_num) (by norm_num) (by norm_num) (by norm_num) (by norm_num) (by norm_num)
    exact table_row hI (by interval_cases I <;> simp)
  · obtain ⟨hp1, hp2⟩ := hlp (by norm_num) (by norm_num)
    norm_num at hp1 hp2
    obtain ⟨I, hI1, hI2, hI⟩ := script_exponent (L := L) (M := 128) (t := 8) (e := 5) (p := p) (n := 190) (m1 := 128) (m2 := 128) (A := 56) (A' := 56) (T := 2)
      (by norm_num) (by norm_num) hC (by norm_num; linarith) (by norm_num) (by norm_num) (by norm_num) ha hb (by norm_num) hc8 hd8 (by norm_num)
      (by norm_num) (le_min (by norm_num) (by linarith)) ((min_le_left _ _).trans (by norm_num))
      (by norm_num) (by norm_num) (by norm_num) (by norm_num) (by norm_num) (by norm_num)
    exact table_row hI (by interval_cases I <;> simp)
  · obtain ⟨hp1, hp2⟩ := hlp (by norm_num) (by norm_num)
    norm_num at hp1 hp2
    obtain ⟨I, hI1, hI2, hI⟩ := script_exponent (L := L) (M := 128) (t := 16) (e := 5) (p := p) (n := 94) (m1 := 94.999) (m2 := 96.001) (A := 41) (A' := 42) (T := 2)
      (by norm_num) (by norm_num) hC (by norm_num; linarith) (by norm_num) (by norm_num) (by norm_num) ha hb (by norm_num) hc16 hd16 (by norm_num)
      (by norm_num) (le_min (by norm_num) (by norm_num; linarith)) ((min_le_right _ _).trans (by norm_num; linarith))
      (by norm_num) (by norm_num) (by norm_num) (by norm_num) (by norm_num) (by norm_num)
    exact table_row hI (by interval_cases I <;> simp)
  · obtain ⟨hp1, hp2⟩ := hlp (by norm_num) (by norm_num)
    norm_num at hp1 hp2
    obtain ⟨I, hI1, hI2, hI⟩ := script_exponent (L := L) (M := 256) (t := 2) (e := 5) (p := p) (n := 766) (m1 := 256) (m2 := 256) (A := 111) (A' := 111) (T := 1)
      (by norm_num) (by norm_num) hC (by norm_num; linarith) (by norm_num) (by norm_num) (by norm_num) ha hb (by norm_num) hc2 hd2 (by norm_num)
      (by norm_num) (le_min (by norm_num) (by linarith)) ((min_le_left _ _).trans (by norm_num))
      (by norm_num) (by norm_num) (by norm_num) (by norm_num) (by norm_num) (by norm_num)
    exact table_row hI (by interval_cases I <;> simp)
  · obtain ⟨hp1, hp2⟩ := hlp (by norm_num) (by norm_num)
    norm_num at hp1 hp2
    obtain ⟨I, hI1, hI2, hI⟩ := script_exponent (L := L) (M := 256) (t := 4) (e := 5) (p := p) (n := 382) (m1 := 256) (m2 := 256) (A := 111) (A' := 111) (T := 1)
      (by norm_num) (by norm_num) hC (by norm_num; linarith) (by norm_num) (by norm_num) (by norm_num) ha hb (by norm_num) hc4 hd4 (by norm_num)
      (by norm_num) (le_min (by norm_num) (by linarith)) ((min_le_left _ _).trans (by norm_num))
      (by norm_num) (by norm_num) (by norm_num) (by norm_num) (by norm_num) (by norm_num)
    exact table_row hI (by interval_cases I <;> simp)
  · obtain ⟨hp1, hp2⟩ := hlp (by norm_num) (by norm_num)
    norm_num at hp1 hp2
    obtain ⟨I, hI1, hI2, hI⟩ := script_exponent (L := L) (M := 256) (t := 6) (e := 5) (p := p) (n := 254) (m1 := 254.999) (m2 := 256) (A := 110) (A' := 111) (T := 2)
      (by norm_num) (by norm_num) hC (by norm_num; linarith) (by norm_num) (by norm_num) (by norm_num) ha hb (by norm_num) hc6 hd6 (by norm_num)
      (by norm_num) (le_min (by norm_num) (by linarith)) ((min_le_left _ _).trans (by norm_num))
      (by norm_num) (by norm_num) (by norm_num) (by norm_num) (by norm_num) (by norm_num)
    exact table_row hI (by interval_cases I <;> simp)
  · obtain ⟨hp1, hp2⟩ := hlp (by norm_num) (by norm_num)
    norm_num at hp1 hp2
    obtain ⟨I, hI1, hI2, hI⟩ := script_exponent (L := L) (M := 256) (t := 8) (e := 5) (p := p) (n := 190) (m1 := 190.999) (m2 := 192.001) (A := 83) (A' := 83) (T := 2)
      (by norm_num) (by norm_num) hC (by norm_num; linarith) (by norm_num) (by norm_num) (by norm_num) ha hb (by norm_num) hc8 hd8 (by norm_num)
      (by norm_num) (le_min (by norm_num) (by norm_num; linarith)) ((min_le_right _ _).trans (by norm_num; linarith))
      (by norm_num) (by norm_num) (by norm_num) (by norm_num) (by norm_num) (by norm_num)
    exact table_row hI (by interval_cases I <;> simp)
  · obtain ⟨hp1, hp2⟩ := hlp (by norm_num) (by norm_num)
    norm_num at hp1 hp2
    obtain ⟨I, hI1, hI2, hI⟩ := script_exponent (L := L) (M := 256) (t := 16) (e := 5) (p := p) (n := 94) (m1 := 94.999) (m2 := 96.001) (A := 41) (A' := 42) (T := 2)
      (by norm_num) (by norm_num) hC (by norm_num; linarith) (by norm_num) (by norm_num) (by norm_num) ha hb (by norm_num) hc16 hd16 (by norm_num)
      (by norm_num) (le_min (by norm_num) (by norm_num; linarith)) ((min_le_right _ _).trans (by norm_num; linarith))
      (by norm_num) (by norm_num) (by norm_num) (by norm_num) (by norm_num) (by norm_num)
    exact table_row hI (by interval_cases I <;> simp)

end Poseidon
