import Verif.Proofs.PaperTables
import Verif.Props.SecurityV2
import Verif.Props.GenerateV2

/-!
# The round numbers of the paper (C69)

Tables 7 to 9 of the Poseidon paper (`Spec/PaperTables.lean`), for all moduli of the given sizes, and how the round numbers depend on
the modulus.
-/

set_option linter.unusedSectionVars false
set_option linter.unnecessarySeqFocus false

namespace Poseidon

/-- **C69**, Table 7: for every modulus of the size in the row the generator returns the numbers of the row for `x^3`, or, if the
modulus has no more bits than the security level, at most one partial round less. -/
theorem C69_table7 (L : Libm) (hL : L.Accurate) (hR : L.Regular) (allow : Bool) (row : Spec.TableRow) (hrow : row ∈ Spec.table7)
    (p : Nat) (h1 : 2 ^ (row.n - 1) ≤ p) (h2 : p < 2 ^ row.n) :
    ∃ rP, roundsV1Generate L ⟨allow, row.M, row.t, p⟩ (log2Big L p) (.exponent 3) = .ok ⟨rP, row.rF⟩ ∧
      (rP = row.rP ∨ row.n ≤ row.M ∧ rP + 1 = row.rP) := by
  have hlp : 1 ≤ row.n → row.n ≤ 2 ^ 53 → _ := fun a b => hR.log2Big_bounds a b h1 h2
  clear h1 h2
  generalize log2Big L p = lp at *
  have hC : L.log2 ((3 - 1 : ℕ) : ℝ) ≤ 1.01 := by
    refine (hL.log2_le (x := ((3 - 1 : ℕ) : ℝ)) (by norm_num) (logb2_le (n := 1) (by norm_num) (by norm_num))).trans ?_
    norm_num
  have hl := log_3_gt
  have hu := log_3_lt
  have ha : 0.63024 ≤ L.log 2 ((3 : ℕ) : ℝ) := by
    push_cast
    exact hL.le_log (by norm_num) (by norm_num) Real.log_two_gt_d9.le hu.le (by norm_num) (by norm_num)
  have hb : L.log 2 ((3 : ℕ) : ℝ) ≤ 0.63163 := by
    push_cast
    exact hL.log_le (by norm_num) (by norm_num) Real.log_two_lt_d9.le hl.le (by norm_num) (by norm_num)
  have hc2 : 0.6301 ≤ L.log ((2 : ℕ) : ℝ) ((3 : ℕ) : ℝ) := by
    push_cast
    exact hL.le_log (by norm_num) (by norm_num) log_width_2.1 hu.le (by norm_num) (by norm_num)
  have hd2 : L.log ((2 : ℕ) : ℝ) ((3 : ℕ) : ℝ) ≤ 0.6325 := by
    push_cast
    exact hL.log_le (by norm_num) (by norm_num) log_width_2.2 hl.le (by norm_num) (by norm_num)
  have hc4 : 1.2602 ≤ L.log ((4 : ℕ) : ℝ) ((3 : ℕ) : ℝ) := by
    push_cast
    exact hL.le_log (by norm_num) (by norm_num) log_width_4.1 hu.le (by norm_num) (by norm_num)
  have hd4 : L.log ((4 : ℕ) : ℝ) ((3 : ℕ) : ℝ) ≤ 1.2639 := by
    push_cast
    exact hL.log_le (by norm_num) (by norm_num) log_width_4.2 hl.le (by norm_num) (by norm_num)
  have hc6 : 1.6284 ≤ L.log ((6 : ℕ) : ℝ) ((3 : ℕ) : ℝ) := by
    push_cast
    exact hL.le_log (by norm_num) (by norm_num) log_width_6.1 hu.le (by norm_num) (by norm_num)
  have hd6 : L.log ((6 : ℕ) : ℝ) ((3 : ℕ) : ℝ) ≤ 1.633 := by
    push_cast
    exact hL.log_le (by norm_num) (by norm_num) log_width_6.2 hl.le (by norm_num) (by norm_num)
  have hc8 : 1.8903 ≤ L.log ((8 : ℕ) : ℝ) ((3 : ℕ) : ℝ) := by
    push_cast
    exact hL.le_log (by norm_num) (by norm_num) log_width_8.1 hu.le (by norm_num) (by norm_num)
  have hd8 : L.log ((8 : ℕ) : ℝ) ((3 : ℕ) : ℝ) ≤ 1.8954 := by
    push_cast
    exact hL.log_le (by norm_num) (by norm_num) log_width_8.2 hl.le (by norm_num) (by norm_num)
  have hc16 : 2.5204 ≤ L.log ((16 : ℕ) : ℝ) ((3 : ℕ) : ℝ) := by
    push_cast
    exact hL.le_log (by norm_num) (by norm_num) log_width_16.1 hu.le (by norm_num) (by norm_num)
  have hd16 : L.log ((16 : ℕ) : ℝ) ((3 : ℕ) : ℝ) ≤ 2.5269 := by
    push_cast
    exact hL.log_le (by norm_num) (by norm_num) log_width_16.2 hl.le (by norm_num) (by norm_num)
  simp only [Spec.table7, List.mem_cons, List.not_mem_nil, or_false] at hrow
  rcases hrow with rfl | rfl | rfl | rfl | rfl | rfl | rfl | rfl | rfl | rfl
  · obtain ⟨hp1, hp2⟩ := hlp (by norm_num) (by norm_num)
    norm_num at hp1 hp2
    obtain ⟨I, hI1, hI2, hI⟩ := rounds_exponent (M := 128) (t := 2) (e := 3) (allow := allow) (p := p) (lp := lp) (n := 767) (m1 := 128) (m2 := 128) (A := 81) (A' := 81) (B := 82) (B' := 82)
      (by norm_num) (by norm_num) (by norm_num) (by norm_num) (by norm_num) hC (by norm_num; linarith) (by norm_num) (by norm_num)
      (by norm_num) ha hb (by norm_num) hc2 hd2 (by norm_num) (le_min (by norm_num) (by linarith)) ((min_le_left _ _).trans (by norm_num))
      (by norm_num) (by norm_num) (by norm_num) (by norm_num) (by norm_num) (by norm_num) (by norm_num) (by norm_num)
    refine ⟨_, hI, ?_⟩
    interval_cases I <;> simp
  · obtain ⟨hp1, hp2⟩ := hlp (by norm_num) (by norm_num)
    norm_num at hp1 hp2
    obtain ⟨I, hI1, hI2, hI⟩ := rounds_exponent (M := 128) (t := 4) (e := 3) (allow := allow) (p := p) (lp := lp) (n := 383) (m1 := 128) (m2 := 128) (A := 81) (A' := 81) (B := 83) (B' := 83)
      (by norm_num) (by norm_num) (by norm_num) (by norm_num) (by norm_num) hC (by norm_num; linarith) (by norm_num) (by norm_num)
      (by norm_num) ha hb (by norm_num) hc4 hd4 (by norm_num) (le_min (by norm_num) (by linarith)) ((min_le_left _ _).trans (by norm_num))
      (by norm_num) (by norm_num) (by norm_num) (by norm_num) (by norm_num) (by norm_num) (by norm_num) (by norm_num)
    refine ⟨_, hI, ?_⟩
    interval_cases I <;> simp
  · obtain ⟨hp1, hp2⟩ := hlp (by norm_num) (by norm_num)
    norm_num at hp1 hp2
    obtain ⟨I, hI1, hI2, hI⟩ := rounds_exponent (M := 128) (t := 6) (e := 3) (allow := allow) (p := p) (lp := lp) (n := 255) (m1 := 128) (m2 := 128) (A := 81) (A' := 81) (B := 83) (B' := 83)
      (by norm_num) (by norm_num) (by norm_num) (by norm_num) (by norm_num) hC (by norm_num; linarith) (by norm_num) (by norm_num)
      (by norm_num) ha hb (by norm_num) hc6 hd6 (by norm_num) (le_min (by norm_num) (by linarith)) ((min_le_left _ _).trans (by norm_num))
      (by norm_num) (by norm_num) (by norm_num) (by norm_num) (by norm_num) (by norm_num) (by norm_num) (by norm_num)
    refine ⟨_, hI, ?_⟩
    interval_cases I <;> simp
  · obtain ⟨hp1, hp2⟩ := hlp (by norm_num) (by norm_num)
    norm_num at hp1 hp2
    obtain ⟨I, hI1, hI2, hI⟩ := rounds_exponent (M := 128) (t := 8) (e := 3) (allow := allow) (p := p) (lp := lp) (n := 191) (m1 := 128) (m2 := 128) (A := 81) (A' := 81) (B := 83) (B' := 83)
      (by norm_num) (by norm_num) (by norm_num) (by norm_num) (by norm_num) hC (by norm_num; linarith) (by norm_num) (by norm_num)
      (by norm_num) ha hb (by norm_num) hc8 hd8 (by norm_num) (le_min (by norm_num) (by linarith)) ((min_le_left _ _).trans (by norm_num))
      (by norm_num) (by norm_num) (by norm_num) (by norm_num) (by norm_num) (by norm_num) (by norm_num) (by norm_num)
    refine ⟨_, hI, ?_⟩
    interval_cases I <;> simp
  · obtain ⟨hp1, hp2⟩ := hlp (by norm_num) (by norm_num)
    norm_num at hp1 hp2
    obtain ⟨I, hI1, hI2, hI⟩ := rounds_exponent (M := 128) (t := 16) (e := 3) (allow := allow) (p := p) (lp := lp) (n := 95) (m1 := 95) (m2 := 96) (A := 60) (A' := 61) (B := 63) (B' := 64)
      (by norm_num) (by norm_num) (by norm_num) (by norm_num) (by norm_num) hC (by norm_num; linarith) (by norm_num) (by norm_num)
      (by norm_num) ha hb (by norm_num) hc16 hd16 (by norm_num) (le_min (by norm_num) (by linarith)) ((min_le_right _ _).trans (by linarith))
      (by norm_num) (by norm_num) (by norm_num) (by norm_num) (by norm_num) (by norm_num) (by norm_num) (by norm_num)
    refine ⟨_, hI, ?_⟩
    interval_cases I <;> simp
  · obtain ⟨hp1, hp2⟩ := hlp (by norm_num) (by norm_num)
    norm_num at hp1 hp2
    obtain ⟨I, hI1, hI2, hI⟩ := rounds_exponent (M := 256) (t := 2) (e := 3) (allow := allow) (p := p) (lp := lp) (n := 767) (m1 := 256) (m2 := 256) (A := 162) (A' := 162) (B := 163) (B' := 163)
      (by norm_num) (by norm_num) (by norm_num) (by norm_num) (by norm_num) hC (by norm_num; linarith) (by norm_num) (by norm_num)
      (by norm_num) ha hb (by norm_num) hc2 hd2 (by norm_num) (le_min (by norm_num) (by linarith)) ((min_le_left _ _).trans (by norm_num))
      (by norm_num) (by norm_num) (by norm_num) (by norm_num) (by norm_num) (by norm_num) (by norm_num) (by norm_num)
    refine ⟨_, hI, ?_⟩
    interval_cases I <;> simp
  · obtain ⟨hp1, hp2⟩ := hlp (by norm_num) (by norm_num)
    norm_num at hp1 hp2
    obtain ⟨I, hI1, hI2, hI⟩ := rounds_exponent (M := 256) (t := 4) (e := 3) (allow := allow) (p := p) (lp := lp) (n := 383) (m1 := 256) (m2 := 256) (A := 162) (A' := 162) (B := 164) (B' := 164)
      (by norm_num) (by norm_num) (by norm_num) (by norm_num) (by norm_num) hC (by norm_num; linarith) (by norm_num) (by norm_num)
      (by norm_num) ha hb (by norm_num) hc4 hd4 (by norm_num) (le_min (by norm_num) (by linarith)) ((min_le_left _ _).trans (by norm_num))
      (by norm_num) (by norm_num) (by norm_num) (by norm_num) (by norm_num) (by norm_num) (by norm_num) (by norm_num)
    refine ⟨_, hI, ?_⟩
    interval_cases I <;> simp
  · obtain ⟨hp1, hp2⟩ := hlp (by norm_num) (by norm_num)
    norm_num at hp1 hp2
    obtain ⟨I, hI1, hI2, hI⟩ := rounds_exponent (M := 256) (t := 6) (e := 3) (allow := allow) (p := p) (lp := lp) (n := 255) (m1 := 255) (m2 := 256) (A := 161) (A' := 162) (B := 163) (B' := 164)
      (by norm_num) (by norm_num) (by norm_num) (by norm_num) (by norm_num) hC (by norm_num; linarith) (by norm_num) (by norm_num)
      (by norm_num) ha hb (by norm_num) hc6 hd6 (by norm_num) (le_min (by norm_num) (by linarith)) ((min_le_left _ _).trans (by norm_num))
      (by norm_num) (by norm_num) (by norm_num) (by norm_num) (by norm_num) (by norm_num) (by norm_num) (by norm_num)
    refine ⟨_, hI, ?_⟩
    interval_cases I <;> simp
  · obtain ⟨hp1, hp2⟩ := hlp (by norm_num) (by norm_num)
    norm_num at hp1 hp2
    obtain ⟨I, hI1, hI2, hI⟩ := rounds_exponent (M := 256) (t := 8) (e := 3) (allow := allow) (p := p) (lp := lp) (n := 191) (m1 := 191) (m2 := 192) (A := 121) (A' := 122) (B := 123) (B' := 124)
      (by norm_num) (by norm_num) (by norm_num) (by norm_num) (by norm_num) hC (by norm_num; linarith) (by norm_num) (by norm_num)
      (by norm_num) ha hb (by norm_num) hc8 hd8 (by norm_num) (le_min (by norm_num) (by linarith)) ((min_le_right _ _).trans (by linarith))
      (by norm_num) (by norm_num) (by norm_num) (by norm_num) (by norm_num) (by norm_num) (by norm_num) (by norm_num)
    refine ⟨_, hI, ?_⟩
    interval_cases I <;> simp
  · obtain ⟨hp1, hp2⟩ := hlp (by norm_num) (by norm_num)
    norm_num at hp1 hp2
    obtain ⟨I, hI1, hI2, hI⟩ := rounds_exponent (M := 256) (t := 16) (e := 3) (allow := allow) (p := p) (lp := lp) (n := 95) (m1 := 95) (m2 := 96) (A := 60) (A' := 61) (B := 63) (B' := 64)
      (by norm_num) (by norm_num) (by norm_num) (by norm_num) (by norm_num) hC (by norm_num; linarith) (by norm_num) (by norm_num)
      (by norm_num) ha hb (by norm_num) hc16 hd16 (by norm_num) (le_min (by norm_num) (by linarith)) ((min_le_right _ _).trans (by linarith))
      (by norm_num) (by norm_num) (by norm_num) (by norm_num) (by norm_num) (by norm_num) (by norm_num) (by norm_num)
    refine ⟨_, hI, ?_⟩
    interval_cases I <;> simp

/-- **C69**, Table 8: for every modulus of the size in the row the generator returns the numbers of the row for `x^5`, or, if the
modulus has no more bits than the security level, at most one partial round less. -/
theorem C69_table8 (L : Libm) (hL : L.Accurate) (hR : L.Regular) (allow : Bool) (row : Spec.TableRow) (hrow : row ∈ Spec.table8)
    (p : Nat) (h1 : 2 ^ (row.n - 1) ≤ p) (h2 : p < 2 ^ row.n) :
    ∃ rP, roundsV1Generate L ⟨allow, row.M, row.t, p⟩ (log2Big L p) (.exponent 5) = .ok ⟨rP, row.rF⟩ ∧
      (rP = row.rP ∨ row.n ≤ row.M ∧ rP + 1 = row.rP) := by
  have hlp : 1 ≤ row.n → row.n ≤ 2 ^ 53 → _ := fun a b => hR.log2Big_bounds a b h1 h2
  clear h1 h2
  generalize log2Big L p = lp at *
  have hC : L.log2 ((5 - 1 : ℕ) : ℝ) ≤ 2.01 := by
    refine (hL.log2_le (x := ((5 - 1 : ℕ) : ℝ)) (by norm_num) (logb2_le (n := 2) (by norm_num) (by norm_num))).trans ?_
    norm_num
  have hl := log_5_gt
  have hu := log_5_lt
  have ha : 0.4302 ≤ L.log 2 ((5 : ℕ) : ℝ) := by
    push_cast
    exact hL.le_log (by norm_num) (by norm_num) Real.log_two_gt_d9.le hu.le (by norm_num) (by norm_num)
  have hb : L.log 2 ((5 : ℕ) : ℝ) ≤ 0.43115 := by
    push_cast
    exact hL.log_le (by norm_num) (by norm_num) Real.log_two_lt_d9.le hl.le (by norm_num) (by norm_num)
  have hc2 : 0.4301 ≤ L.log ((2 : ℕ) : ℝ) ((5 : ℕ) : ℝ) := by
    push_cast
    exact hL.le_log (by norm_num) (by norm_num) log_width_2.1 hu.le (by norm_num) (by norm_num)
  have hd2 : L.log ((2 : ℕ) : ℝ) ((5 : ℕ) : ℝ) ≤ 0.4317 := by
    push_cast
    exact hL.log_le (by norm_num) (by norm_num) log_width_2.2 hl.le (by norm_num) (by norm_num)
  have hc4 : 0.8602 ≤ L.log ((4 : ℕ) : ℝ) ((5 : ℕ) : ℝ) := by
    push_cast
    exact hL.le_log (by norm_num) (by norm_num) log_width_4.1 hu.le (by norm_num) (by norm_num)
  have hd4 : L.log ((4 : ℕ) : ℝ) ((5 : ℕ) : ℝ) ≤ 0.8628 := by
    push_cast
    exact hL.log_le (by norm_num) (by norm_num) log_width_4.2 hl.le (by norm_num) (by norm_num)
  have hc6 : 1.1115 ≤ L.log ((6 : ℕ) : ℝ) ((5 : ℕ) : ℝ) := by
    push_cast
    exact hL.le_log (by norm_num) (by norm_num) log_width_6.1 hu.le (by norm_num) (by norm_num)
  have hd6 : L.log ((6 : ℕ) : ℝ) ((5 : ℕ) : ℝ) ≤ 1.1147 := by
    push_cast
    exact hL.log_le (by norm_num) (by norm_num) log_width_6.2 hl.le (by norm_num) (by norm_num)
  have hc8 : 1.2903 ≤ L.log ((8 : ℕ) : ℝ) ((5 : ℕ) : ℝ) := by
    push_cast
    exact hL.le_log (by norm_num) (by norm_num) log_width_8.1 hu.le (by norm_num) (by norm_num)
  have hd8 : L.log ((8 : ℕ) : ℝ) ((5 : ℕ) : ℝ) ≤ 1.2938 := by
    push_cast
    exact hL.log_le (by norm_num) (by norm_num) log_width_8.2 hl.le (by norm_num) (by norm_num)
  have hc16 : 1.7204 ≤ L.log ((16 : ℕ) : ℝ) ((5 : ℕ) : ℝ) := by
    push_cast
    exact hL.le_log (by norm_num) (by norm_num) log_width_16.1 hu.le (by norm_num) (by norm_num)
  have hd16 : L.log ((16 : ℕ) : ℝ) ((5 : ℕ) : ℝ) ≤ 1.7249 := by
    push_cast
    exact hL.log_le (by norm_num) (by norm_num) log_width_16.2 hl.le (by norm_num) (by norm_num)
  simp only [Spec.table8, List.mem_cons, List.not_mem_nil, or_false] at hrow
  rcases hrow with rfl | rfl | rfl | rfl | rfl | rfl | rfl | rfl | rfl | rfl
  · obtain ⟨hp1, hp2⟩ := hlp (by norm_num) (by norm_num)
    norm_num at hp1 hp2
    obtain ⟨I, hI1, hI2, hI⟩ := rounds_exponent (M := 128) (t := 2) (e := 5) (allow := allow) (p := p) (lp := lp) (n := 767) (m1 := 128) (m2 := 128) (A := 56) (A' := 56) (B := 57) (B' := 57)
      (by norm_num) (by norm_num) (by norm_num) (by norm_num) (by norm_num) hC (by norm_num; linarith) (by norm_num) (by norm_num)
      (by norm_num) ha hb (by norm_num) hc2 hd2 (by norm_num) (le_min (by norm_num) (by linarith)) ((min_le_left _ _).trans (by norm_num))
      (by norm_num) (by norm_num) (by norm_num) (by norm_num) (by norm_num) (by norm_num) (by norm_num) (by norm_num)
    refine ⟨_, hI, ?_⟩
    interval_cases I <;> simp
  · obtain ⟨hp1, hp2⟩ := hlp (by norm_num) (by norm_num)
    norm_num at hp1 hp2
    obtain ⟨I, hI1, hI2, hI⟩ := rounds_exponent (M := 128) (t := 4) (e := 5) (allow := allow) (p := p) (lp := lp) (n := 383) (m1 := 128) (m2 := 128) (A := 56) (A' := 56) (B := 57) (B' := 57)
      (by norm_num) (by norm_num) (by norm_num) (by norm_num) (by norm_num) hC (by norm_num; linarith) (by norm_num) (by norm_num)
      (by norm_num) ha hb (by norm_num) hc4 hd4 (by norm_num) (le_min (by norm_num) (by linarith)) ((min_le_left _ _).trans (by norm_num))
      (by norm_num) (by norm_num) (by norm_num) (by norm_num) (by norm_num) (by norm_num) (by norm_num) (by norm_num)
    refine ⟨_, hI, ?_⟩
    interval_cases I <;> simp
  · obtain ⟨hp1, hp2⟩ := hlp (by norm_num) (by norm_num)
    norm_num at hp1 hp2
    obtain ⟨I, hI1, hI2, hI⟩ := rounds_exponent (M := 128) (t := 6) (e := 5) (allow := allow) (p := p) (lp := lp) (n := 255) (m1 := 128) (m2 := 128) (A := 56) (A' := 56) (B := 58) (B' := 58)
      (by norm_num) (by norm_num) (by norm_num) (by norm_num) (by norm_num) hC (by norm_num; linarith) (by norm_num) (by norm_num)
      (by norm_num) ha hb (by norm_num) hc6 hd6 (by norm_num) (le_min (by norm_num) (by linarith)) ((min_le_left _ _).trans (by norm_num))
      (by norm_num) (by norm_num) (by norm_num) (by norm_num) (by norm_num) (by norm_num) (by norm_num) (by norm_num)
    refine ⟨_, hI, ?_⟩
    interval_cases I <;> simp
  · obtain ⟨hp1, hp2⟩ := hlp (by norm_num) (by norm_num)
    norm_num at hp1 hp2
    obtain ⟨I, hI1, hI2, hI⟩ := rounds_exponent (M := 128) (t := 8) (e := 5) (allow := allow) (p := p) (lp := lp) (n := 191) (m1 := 128) (m2 := 128) (A := 56) (A' := 56) (B := 58) (B' := 58)
      (by norm_num) (by norm_num) (by norm_num) (by norm_num) (by norm_num) hC (by norm_num; linarith) (by norm_num) (by norm_num)
      (by norm_num) ha hb (by norm_num) hc8 hd8 (by norm_num) (le_min (by norm_num) (by linarith)) ((min_le_left _ _).trans (by norm_num))
      (by norm_num) (by norm_num) (by norm_num) (by norm_num) (by norm_num) (by norm_num) (by norm_num) (by norm_num)
    refine ⟨_, hI, ?_⟩
    interval_cases I <;> simp
  · obtain ⟨hp1, hp2⟩ := hlp (by norm_num) (by norm_num)
    norm_num at hp1 hp2
    obtain ⟨I, hI1, hI2, hI⟩ := rounds_exponent (M := 128) (t := 16) (e := 5) (allow := allow) (p := p) (lp := lp) (n := 95) (m1 := 95) (m2 := 96) (A := 41) (A' := 42) (B := 43) (B' := 44)
      (by norm_num) (by norm_num) (by norm_num) (by norm_num) (by norm_num) hC (by norm_num; linarith) (by norm_num) (by norm_num)
      (by norm_num) ha hb (by norm_num) hc16 hd16 (by norm_num) (le_min (by norm_num) (by linarith)) ((min_le_right _ _).trans (by linarith))
      (by norm_num) (by norm_num) (by norm_num) (by norm_num) (by norm_num) (by norm_num) (by norm_num) (by norm_num)
    refine ⟨_, hI, ?_⟩
    interval_cases I <;> simp
  · obtain ⟨hp1, hp2⟩ := hlp (by norm_num) (by norm_num)
    norm_num at hp1 hp2
    obtain ⟨I, hI1, hI2, hI⟩ := rounds_exponent (M := 256) (t := 2) (e := 5) (allow := allow) (p := p) (lp := lp) (n := 767) (m1 := 256) (m2 := 256) (A := 111) (A' := 111) (B := 112) (B' := 112)
      (by norm_num) (by norm_num) (by norm_num) (by norm_num) (by norm_num) hC (by norm_num; linarith) (by norm_num) (by norm_num)
      (by norm_num) ha hb (by norm_num) hc2 hd2 (by norm_num) (le_min (by norm_num) (by linarith)) ((min_le_left _ _).trans (by norm_num))
      (by norm_num) (by norm_num) (by norm_num) (by norm_num) (by norm_num) (by norm_num) (by norm_num) (by norm_num)
    refine ⟨_, hI, ?_⟩
    interval_cases I <;> simp
  · obtain ⟨hp1, hp2⟩ := hlp (by norm_num) (by norm_num)
    norm_num at hp1 hp2
    obtain ⟨I, hI1, hI2, hI⟩ := rounds_exponent (M := 256) (t := 4) (e := 5) (allow := allow) (p := p) (lp := lp) (n := 383) (m1 := 256) (m2 := 256) (A := 111) (A' := 111) (B := 112) (B' := 112)
      (by norm_num) (by norm_num) (by norm_num) (by norm_num) (by norm_num) hC (by norm_num; linarith) (by norm_num) (by norm_num)
      (by norm_num) ha hb (by norm_num) hc4 hd4 (by norm_num) (le_min (by norm_num) (by linarith)) ((min_le_left _ _).trans (by norm_num))
      (by norm_num) (by norm_num) (by norm_num) (by norm_num) (by norm_num) (by norm_num) (by norm_num) (by norm_num)
    refine ⟨_, hI, ?_⟩
    interval_cases I <;> simp
  · obtain ⟨hp1, hp2⟩ := hlp (by norm_num) (by norm_num)
    norm_num at hp1 hp2
    obtain ⟨I, hI1, hI2, hI⟩ := rounds_exponent (M := 256) (t := 6) (e := 5) (allow := allow) (p := p) (lp := lp) (n := 255) (m1 := 255) (m2 := 256) (A := 110) (A' := 111) (B := 112) (B' := 113)
      (by norm_num) (by norm_num) (by norm_num) (by norm_num) (by norm_num) hC (by norm_num; linarith) (by norm_num) (by norm_num)
      (by norm_num) ha hb (by norm_num) hc6 hd6 (by norm_num) (le_min (by norm_num) (by linarith)) ((min_le_left _ _).trans (by norm_num))
      (by norm_num) (by norm_num) (by norm_num) (by norm_num) (by norm_num) (by norm_num) (by norm_num) (by norm_num)
    refine ⟨_, hI, ?_⟩
    interval_cases I <;> simp
  · obtain ⟨hp1, hp2⟩ := hlp (by norm_num) (by norm_num)
    norm_num at hp1 hp2
    obtain ⟨I, hI1, hI2, hI⟩ := rounds_exponent (M := 256) (t := 8) (e := 5) (allow := allow) (p := p) (lp := lp) (n := 191) (m1 := 191) (m2 := 192) (A := 83) (A' := 83) (B := 85) (B' := 85)
      (by norm_num) (by norm_num) (by norm_num) (by norm_num) (by norm_num) hC (by norm_num; linarith) (by norm_num) (by norm_num)
      (by norm_num) ha hb (by norm_num) hc8 hd8 (by norm_num) (le_min (by norm_num) (by linarith)) ((min_le_right _ _).trans (by linarith))
      (by norm_num) (by norm_num) (by norm_num) (by norm_num) (by norm_num) (by norm_num) (by norm_num) (by norm_num)
    refine ⟨_, hI, ?_⟩
    interval_cases I <;> simp
  · obtain ⟨hp1, hp2⟩ := hlp (by norm_num) (by norm_num)
    norm_num at hp1 hp2
    obtain ⟨I, hI1, hI2, hI⟩ := rounds_exponent (M := 256) (t := 16) (e := 5) (allow := allow) (p := p) (lp := lp) (n := 95) (m1 := 95) (m2 := 96) (A := 41) (A' := 42) (B := 43) (B' := 44)
      (by norm_num) (by norm_num) (by norm_num) (by norm_num) (by norm_num) hC (by norm_num; linarith) (by norm_num) (by norm_num)
      (by norm_num) ha hb (by norm_num) hc16 hd16 (by norm_num) (le_min (by norm_num) (by linarith)) ((min_le_right _ _).trans (by linarith))
      (by norm_num) (by norm_num) (by norm_num) (by norm_num) (by norm_num) (by norm_num) (by norm_num) (by norm_num)
    refine ⟨_, hI, ?_⟩
    interval_cases I <;> simp

/-- **C69**, Table 9: for every modulus of the size in the row the generator returns exactly the numbers of the row for `x^(-1)`. -/
theorem C69_table9 (L : Libm) (hL : L.Accurate) (hR : L.Regular) (allow : Bool) (row : Spec.TableRow) (hrow : row ∈ Spec.table9)
    (p : Nat) (h1 : 2 ^ (row.n - 1) ≤ p) (h2 : p < 2 ^ row.n) :
    roundsV1Generate L ⟨allow, row.M, row.t, p⟩ (log2Big L p) .inverse = .ok ⟨row.rP, row.rF⟩ := by
  have hlp : 1 ≤ row.n → row.n ≤ 2 ^ 53 → _ := fun a b => hR.log2Big_bounds a b h1 h2
  clear h1 h2
  generalize log2Big L p = lp at *
  have hpow : ∀ j : Nat, j ≤ 50 → L.log2 ((2 ^ j : ℕ) : ℝ) = j := fun j hj => by
    rw [← hR.pow j hj]; push_cast; rfl
  have hpowJ : ∀ j : Nat, j ≤ 50 → ⌈L.log2 ((2 ^ j : ℕ) : ℝ)⌉ = (j : ℤ) := fun j hj => by rw [hpow j hj, Int.ceil_natCast]
  have hpowF : ∀ j k : Nat, j ≤ 50 → k ≤ 100 → asUsize ⌊rne ((k : ℝ) * L.log2 ((2 ^ j : ℕ) : ℝ))⌋ = k * j := fun j k hj hk => by
    have := rne_natCast (n := k * j) ((Nat.mul_le_mul hk hj).trans (by norm_num))
    push_cast at this
    rw [hpow j hj, this, asUsize, show (k : ℝ) * j = ((k * j : ℕ) : ℝ) by push_cast; ring, Int.floor_natCast, Int.cast_natCast,
      Nat.floor_natCast]
  have hl2 : L.log2 2 = 1 := by have := hR.pow 1 (by norm_num); simpa using this
  have hfl8 : ∀ t : ℕ, 2 ≤ t → t ≤ 8 → ∀ S k, S = 6 ∨ S = 10 → 1 ≤ k → S + k < 100 →
      43 * asUsize ⌊rne (rne ((S + k : ℕ) : ℝ) * L.log2 (rne (t : ℝ)))⌋ ≤
        43 * asUsize ⌊rne (rne (S : ℝ) * L.log2 (rne (t : ℝ)))⌋ + 40 * (t * k) := fun t h2 h8 S k _ hk hk' =>
    inverse_fl (input := ⟨allow, 128, t, p⟩) hL h2 h8 hl2 S k hk hk'
  have hfl16 : ∀ S k, S = 6 ∨ S = 10 → 1 ≤ k → S + k < 100 →
      43 * asUsize ⌊rne (rne ((S + k : ℕ) : ℝ) * L.log2 (rne ((16 : ℕ) : ℝ)))⌋ ≤
        43 * asUsize ⌊rne (rne (S : ℝ) * L.log2 (rne ((16 : ℕ) : ℝ)))⌋ + 40 * (16 * k) := fun S k _ hk hk' => by
    rw [rne_natCast (n := S + k) (by omega), rne_natCast (n := S) (by omega), rne_natCast (n := 16) (by norm_num)]
    have a := hpowF 4 (S + k) (by norm_num) (by omega)
    have b := hpowF 4 S (by norm_num) (by omega)
    norm_num at a b
    push_cast
    rw [a, b]
    omega
  -- 2.58 < log2 6 < 2.59
  have h6a : (2.58 : ℝ) ≤ L.log2 ((6 : ℕ) : ℝ) := by
    have h : (258 / 100 : ℝ) * 1.0001 ≤ Real.logb 2 ((6 : ℕ) : ℝ) := by
      have h5 : (137 : ℕ) ≤ Real.logb 2 ((6 : ℝ) ^ 53) := le_logb2 (n := 137) (by norm_num) (by norm_num)
      rw [Real.logb_pow] at h5
      push_cast at h5 ⊢
      linarith
    refine le_trans ?_ (hL.le_log2 (by norm_num) h)
    norm_num
  have h6b : L.log2 ((6 : ℕ) : ℝ) ≤ 2.59 := by
    have h : Real.logb 2 ((6 : ℕ) : ℝ) ≤ 2.589 := by
      have h5 : Real.logb 2 ((6 : ℝ) ^ 41) ≤ (106 : ℕ) := logb2_le (n := 106) (by norm_num) (by norm_num)
      rw [Real.logb_pow] at h5
      push_cast at h5 ⊢
      linarith
    refine (hL.log2_le (by norm_num) h).trans ?_
    norm_num
  have h6J : ⌈L.log2 ((6 : ℕ) : ℝ)⌉ = ((3 : ℕ) : ℤ) := by
    rw [Int.ceil_eq_iff]
    constructor
    · push_cast at h6a ⊢; linarith
    · push_cast at h6b ⊢; linarith
  have h6F : asUsize ⌊rne (((6 : ℕ) : ℝ) * L.log2 ((6 : ℕ) : ℝ))⌋ = 15 := by
    have : ⌊rne (((6 : ℕ) : ℝ) * L.log2 ((6 : ℕ) : ℝ))⌋ = (15 : ℤ) := by
      rw [Int.floor_eq_iff]
      constructor
      · exact le_rne_of (a := 15.4) (by push_cast at h6a ⊢; linarith) (by norm_num) (by norm_num)
      · exact lt_of_le_of_lt (rne_le_of (b := 15.6) (c := 15.7) (by push_cast at h6b ⊢; linarith) (by norm_num) (by norm_num)) (by norm_num)
    rw [this, asUsize]
    norm_num
  simp only [Spec.table9, List.mem_cons, List.not_mem_nil, or_false] at hrow
  rcases hrow with rfl | rfl | rfl | rfl | rfl | rfl | rfl | rfl | rfl | rfl
  · obtain ⟨hp1, hp2⟩ := hlp (by norm_num) (by norm_num)
    norm_num at hp1 hp2
    exact rounds_inverse (M := 128) (t := 2) (n := 767) (m1 := 128) (j := 1) (h := 64) (F := 6) (by norm_num) (by norm_num) (by norm_num)
      (by norm_num; linarith) (by norm_num) (by norm_num) (hpowJ 1 (by norm_num)) (by norm_num) (hpowF 1 6 (by norm_num) (by norm_num)) (hfl8 2 (by norm_num) (by norm_num)) (by norm_num)
      (le_min (by norm_num) (by linarith)) ((min_le_left _ _).trans (by norm_num)) (by norm_num) (by norm_num) (by norm_num)
  · obtain ⟨hp1, hp2⟩ := hlp (by norm_num) (by norm_num)
    norm_num at hp1 hp2
    exact rounds_inverse (M := 128) (t := 4) (n := 383) (m1 := 128) (j := 2) (h := 64) (F := 12) (by norm_num) (by norm_num) (by norm_num)
      (by norm_num; linarith) (by norm_num) (by norm_num) (hpowJ 2 (by norm_num)) (by norm_num) (hpowF 2 6 (by norm_num) (by norm_num)) (hfl8 4 (by norm_num) (by norm_num)) (by norm_num)
      (le_min (by norm_num) (by linarith)) ((min_le_left _ _).trans (by norm_num)) (by norm_num) (by norm_num) (by norm_num)
  · obtain ⟨hp1, hp2⟩ := hlp (by norm_num) (by norm_num)
    norm_num at hp1 hp2
    exact rounds_inverse (M := 128) (t := 6) (n := 255) (m1 := 128) (j := 3) (h := 64) (F := 15) (by norm_num) (by norm_num) (by norm_num)
      (by norm_num; linarith) (by norm_num) (by norm_num) (h6J) (by norm_num) h6F (hfl8 6 (by norm_num) (by norm_num)) (by norm_num)
      (le_min (by norm_num) (by linarith)) ((min_le_left _ _).trans (by norm_num)) (by norm_num) (by norm_num) (by norm_num)
  · obtain ⟨hp1, hp2⟩ := hlp (by norm_num) (by norm_num)
    norm_num at hp1 hp2
    exact rounds_inverse (M := 128) (t := 8) (n := 191) (m1 := 128) (j := 3) (h := 64) (F := 18) (by norm_num) (by norm_num) (by norm_num)
      (by norm_num; linarith) (by norm_num) (by norm_num) (hpowJ 3 (by norm_num)) (by norm_num) (hpowF 3 6 (by norm_num) (by norm_num)) (hfl8 8 (by norm_num) (by norm_num)) (by norm_num)
      (le_min (by norm_num) (by linarith)) ((min_le_left _ _).trans (by norm_num)) (by norm_num) (by norm_num) (by norm_num)
  · obtain ⟨hp1, hp2⟩ := hlp (by norm_num) (by norm_num)
    norm_num at hp1 hp2
    exact rounds_inverse (M := 128) (t := 16) (n := 95) (m1 := 95) (j := 4) (h := 48) (F := 24) (by norm_num) (by norm_num) (by norm_num)
      (by norm_num; linarith) (by norm_num) (by norm_num) (hpowJ 4 (by norm_num)) (by norm_num) (hpowF 4 6 (by norm_num) (by norm_num)) hfl16 (by norm_num)
      (le_min (by norm_num) (by linarith)) ((min_le_right _ _).trans (by norm_num; linarith)) (by norm_num) (by norm_num) (by norm_num)
  · obtain ⟨hp1, hp2⟩ := hlp (by norm_num) (by norm_num)
    norm_num at hp1 hp2
    exact rounds_inverse (M := 256) (t := 2) (n := 767) (m1 := 256) (j := 1) (h := 128) (F := 6) (by norm_num) (by norm_num) (by norm_num)
      (by norm_num; linarith) (by norm_num) (by norm_num) (hpowJ 1 (by norm_num)) (by norm_num) (hpowF 1 6 (by norm_num) (by norm_num)) (hfl8 2 (by norm_num) (by norm_num)) (by norm_num)
      (le_min (by norm_num) (by linarith)) ((min_le_left _ _).trans (by norm_num)) (by norm_num) (by norm_num) (by norm_num)
  · obtain ⟨hp1, hp2⟩ := hlp (by norm_num) (by norm_num)
    norm_num at hp1 hp2
    exact rounds_inverse (M := 256) (t := 4) (n := 383) (m1 := 256) (j := 2) (h := 128) (F := 12) (by norm_num) (by norm_num) (by norm_num)
      (by norm_num; linarith) (by norm_num) (by norm_num) (hpowJ 2 (by norm_num)) (by norm_num) (hpowF 2 6 (by norm_num) (by norm_num)) (hfl8 4 (by norm_num) (by norm_num)) (by norm_num)
      (le_min (by norm_num) (by linarith)) ((min_le_left _ _).trans (by norm_num)) (by norm_num) (by norm_num) (by norm_num)
  · obtain ⟨hp1, hp2⟩ := hlp (by norm_num) (by norm_num)
    norm_num at hp1 hp2
    exact rounds_inverse (M := 256) (t := 6) (n := 255) (m1 := 255) (j := 3) (h := 128) (F := 15) (by norm_num) (by norm_num) (by norm_num)
      (by norm_num; linarith) (by norm_num) (by norm_num) (h6J) (by norm_num) h6F (hfl8 6 (by norm_num) (by norm_num)) (by norm_num)
      (le_min (by norm_num) (by linarith)) ((min_le_left _ _).trans (by norm_num)) (by norm_num) (by norm_num) (by norm_num)
  · obtain ⟨hp1, hp2⟩ := hlp (by norm_num) (by norm_num)
    norm_num at hp1 hp2
    exact rounds_inverse (M := 256) (t := 8) (n := 191) (m1 := 191) (j := 3) (h := 96) (F := 18) (by norm_num) (by norm_num) (by norm_num)
      (by norm_num; linarith) (by norm_num) (by norm_num) (hpowJ 3 (by norm_num)) (by norm_num) (hpowF 3 6 (by norm_num) (by norm_num)) (hfl8 8 (by norm_num) (by norm_num)) (by norm_num)
      (le_min (by norm_num) (by linarith)) ((min_le_right _ _).trans (by norm_num; linarith)) (by norm_num) (by norm_num) (by norm_num)
  · obtain ⟨hp1, hp2⟩ := hlp (by norm_num) (by norm_num)
    norm_num at hp1 hp2
    exact rounds_inverse (M := 256) (t := 16) (n := 95) (m1 := 95) (j := 4) (h := 48) (F := 24) (by norm_num) (by norm_num) (by norm_num)
      (by norm_num; linarith) (by norm_num) (by norm_num) (hpowJ 4 (by norm_num)) (by norm_num) (hpowF 4 6 (by norm_num) (by norm_num)) hfl16 (by norm_num)
      (le_min (by norm_num) (by linarith)) ((min_le_right _ _).trans (by norm_num; linarith)) (by norm_num) (by norm_num) (by norm_num)

/-! ### Poseidon2 -/

theorem binomialLarge_of {M t e rP i U : Nat} (h1 : 1 ≤ i) (h2 : i ≤ t / 3 * 3 + rP + e)
    (hU : U = 5 * t + rP + t / 3 + (t / 3 * 3 + rP + e)) (hc : 2 ^ ((M + 1) / 2 - 1) ≤ U.factorial / (i.factorial * (U - i).factorial)) :
    Spec.BinomialLarge M t e rP 6 := by
  have hiU : i ≤ U := by omega
  rw [← Nat.choose_eq_factorial_div_factorial hiU] at hc
  have h0 : Nat.choose U i ≠ 0 := (Nat.choose_pos hiU).ne'
  have hb := numBits_spec h0
  subst hU
  refine ⟨i, _, h1, h2, hb, ?_⟩
  have := (Nat.pow_lt_pow_iff_right (a := 2) (by norm_num)).1 (hc.trans_lt hb.2.1)
  omega

/-- If the choice of the first search has enough rounds for the additional condition, the second search makes it too. -/
theorem v2_of_v1 {L : Libm} {input : GenInput} {lp : ℝ} {e out lo : Nat} (hM : input.security ≤ 256) (ht : 1 ≤ input.t)
    (ht' : input.t < 2 ^ 50) (h : roundsV1Generate L input lp (.exponent e) = .ok ⟨out, 8⟩) (hlo : (43 * (lo - 1) + 39) / 40 < out)
    (hbin : Spec.BinomialLarge input.security input.t e lo 6) :
    roundsV2Generate L input lp (.exponent e) = .ok ⟨out, 8⟩ := by
  rcases C37_v1 L input lp (.exponent e) hM ht ht' with ⟨-, h2⟩ | ⟨rP, rF, hb, h2⟩
  · rw [h2] at h; cases h
  rw [h2, ceil_margin] at h
  obtain ⟨h3, h4⟩ := RoundNumbers.mk.inj (Except.ok.inj h)
  obtain rfl : rF = 6 := by omega
  have hbin' : Spec.BinomialLarge input.security input.t e rP 6 := binomialLarge_mono (by omega) le_rfl hbin
  have hs := (C56_v2 L input lp e rP 6 ht ht' (by norm_num)).2 ⟨hb.2.1, hbin'⟩
  have hbest : Spec.IsBest (fun rP rF => isSecureV2 L input lp (.exponent e) ⟨rP, rF⟩ = .ok true) input.t rP 6 :=
    ⟨hb.1, hs, fun sP sF hr hs' => hb.2.2 sP sF hr (secureV2_secureV1 hs')⟩
  rcases C37_v2 L input lp e ht ht' with ⟨h5, -⟩ | ⟨sP, sF, hb', h5⟩
  · rw [h5 rP 6 hb.1] at hs; cases hs
  · obtain ⟨rfl, rfl⟩ := best_unique hbest hb'
    rw [h5, ceil_margin, h3]

/-- **C69**, Table 7: the second search returns the same numbers, also for the fields smaller than the security level. -/
theorem C69_table7_v2 (L : Libm) (hL : L.Accurate) (hR : L.Regular) (allow : Bool) (row : Spec.TableRow) (hrow : row ∈ Spec.table7)
    (p : Nat) (h1 : 2 ^ (row.n - 1) ≤ p) (h2 : p < 2 ^ row.n) :
    roundsV2Generate L ⟨allow, row.M, row.t, p⟩ (log2Big L p) (.exponent 3) =
      roundsV1Generate L ⟨allow, row.M, row.t, p⟩ (log2Big L p) (.exponent 3) := by
  obtain ⟨rP, h, hrP⟩ := C69_table7 L hL hR allow row hrow p h1 h2
  rw [h]
  clear h1 h2
  simp only [Spec.table7, List.mem_cons, List.not_mem_nil, or_false] at hrow
  rcases hrow with rfl | rfl | rfl | rfl | rfl | rfl | rfl | rfl | rfl | rfl
  · exact v2_of_v1 (lo := 76) (by norm_num) (by norm_num) (by norm_num) h (by dsimp only at hrP; omega)
      (binomialLarge_of (i := 79) (U := 165) (by norm_num) (by norm_num) (by norm_num) (by dsimp only; decide +kernel))
  · exact v2_of_v1 (lo := 77) (by norm_num) (by norm_num) (by norm_num) h (by dsimp only at hrP; omega)
      (binomialLarge_of (i := 83) (U := 181) (by norm_num) (by norm_num) (by norm_num) (by dsimp only; decide +kernel))
  · exact v2_of_v1 (lo := 77) (by norm_num) (by norm_num) (by norm_num) h (by dsimp only at hrP; omega)
      (binomialLarge_of (i := 86) (U := 195) (by norm_num) (by norm_num) (by norm_num) (by dsimp only; decide +kernel))
  · exact v2_of_v1 (lo := 77) (by norm_num) (by norm_num) (by norm_num) h (by dsimp only at hrP; omega)
      (binomialLarge_of (i := 86) (U := 205) (by norm_num) (by norm_num) (by norm_num) (by dsimp only; decide +kernel))
  · exact v2_of_v1 (lo := 58) (by norm_num) (by norm_num) (by norm_num) h (by dsimp only at hrP; omega)
      (binomialLarge_of (i := 76) (U := 219) (by norm_num) (by norm_num) (by norm_num) (by dsimp only; decide +kernel))
  · exact v2_of_v1 (lo := 157) (by norm_num) (by norm_num) (by norm_num) h (by dsimp only at hrP; omega)
      (binomialLarge_of (i := 160) (U := 327) (by norm_num) (by norm_num) (by norm_num) (by dsimp only; decide +kernel))
  · exact v2_of_v1 (lo := 158) (by norm_num) (by norm_num) (by norm_num) h (by dsimp only at hrP; omega)
      (binomialLarge_of (i := 164) (U := 343) (by norm_num) (by norm_num) (by norm_num) (by dsimp only; decide +kernel))
  · exact v2_of_v1 (lo := 158) (by norm_num) (by norm_num) (by norm_num) h (by dsimp only at hrP; omega)
      (binomialLarge_of (i := 167) (U := 357) (by norm_num) (by norm_num) (by norm_num) (by dsimp only; decide +kernel))
  · exact v2_of_v1 (lo := 118) (by norm_num) (by norm_num) (by norm_num) h (by dsimp only at hrP; omega)
      (binomialLarge_of (i := 127) (U := 287) (by norm_num) (by norm_num) (by norm_num) (by dsimp only; decide +kernel))
  · exact v2_of_v1 (lo := 58) (by norm_num) (by norm_num) (by norm_num) h (by dsimp only at hrP; omega)
      (binomialLarge_of (i := 76) (U := 219) (by norm_num) (by norm_num) (by norm_num) (by dsimp only; decide +kernel))

/-- **C69**, Table 8: the second search returns the same numbers, also for the fields smaller than the security level. -/
theorem C69_table8_v2 (L : Libm) (hL : L.Accurate) (hR : L.Regular) (allow : Bool) (row : Spec.TableRow) (hrow : row ∈ Spec.table8)
    (p : Nat) (h1 : 2 ^ (row.n - 1) ≤ p) (h2 : p < 2 ^ row.n) :
    roundsV2Generate L ⟨allow, row.M, row.t, p⟩ (log2Big L p) (.exponent 5) =
      roundsV1Generate L ⟨allow, row.M, row.t, p⟩ (log2Big L p) (.exponent 5) := by
  obtain ⟨rP, h, hrP⟩ := C69_table8 L hL hR allow row hrow p h1 h2
  rw [h]
  clear h1 h2
  simp only [Spec.table8, List.mem_cons, List.not_mem_nil, or_false] at hrow
  rcases hrow with rfl | rfl | rfl | rfl | rfl | rfl | rfl | rfl | rfl | rfl
  · exact v2_of_v1 (lo := 51) (by norm_num) (by norm_num) (by norm_num) h (by dsimp only at hrP; omega)
      (binomialLarge_of (i := 56) (U := 117) (by norm_num) (by norm_num) (by norm_num) (by dsimp only; decide +kernel))
  · exact v2_of_v1 (lo := 51) (by norm_num) (by norm_num) (by norm_num) h (by dsimp only at hrP; omega)
      (binomialLarge_of (i := 59) (U := 131) (by norm_num) (by norm_num) (by norm_num) (by dsimp only; decide +kernel))
  · exact v2_of_v1 (lo := 52) (by norm_num) (by norm_num) (by norm_num) h (by dsimp only at hrP; omega)
      (binomialLarge_of (i := 63) (U := 147) (by norm_num) (by norm_num) (by norm_num) (by dsimp only; decide +kernel))
  · exact v2_of_v1 (lo := 52) (by norm_num) (by norm_num) (by norm_num) h (by dsimp only at hrP; omega)
      (binomialLarge_of (i := 63) (U := 157) (by norm_num) (by norm_num) (by norm_num) (by dsimp only; decide +kernel))
  · exact v2_of_v1 (lo := 38) (by norm_num) (by norm_num) (by norm_num) h (by dsimp only at hrP; omega)
      (binomialLarge_of (i := 58) (U := 181) (by norm_num) (by norm_num) (by norm_num) (by dsimp only; decide +kernel))
  · exact v2_of_v1 (lo := 107) (by norm_num) (by norm_num) (by norm_num) h (by dsimp only at hrP; omega)
      (binomialLarge_of (i := 112) (U := 229) (by norm_num) (by norm_num) (by norm_num) (by dsimp only; decide +kernel))
  · exact v2_of_v1 (lo := 107) (by norm_num) (by norm_num) (by norm_num) h (by dsimp only at hrP; omega)
      (binomialLarge_of (i := 115) (U := 243) (by norm_num) (by norm_num) (by norm_num) (by dsimp only; decide +kernel))
  · exact v2_of_v1 (lo := 107) (by norm_num) (by norm_num) (by norm_num) h (by dsimp only at hrP; omega)
      (binomialLarge_of (i := 118) (U := 257) (by norm_num) (by norm_num) (by norm_num) (by dsimp only; decide +kernel))
  · exact v2_of_v1 (lo := 79) (by norm_num) (by norm_num) (by norm_num) h (by dsimp only at hrP; omega)
      (binomialLarge_of (i := 90) (U := 211) (by norm_num) (by norm_num) (by norm_num) (by dsimp only; decide +kernel))
  · exact v2_of_v1 (lo := 38) (by norm_num) (by norm_num) (by norm_num) h (by dsimp only at hrP; omega)
      (binomialLarge_of (i := 58) (U := 181) (by norm_num) (by norm_num) (by norm_num) (by dsimp only; decide +kernel))

/-! ### Independence of the modulus -/

theorem le_log2Big {L : Libm} (hL : L.Accurate) {M p : Nat} (hM : M ≤ 256) (h : 2 ^ (M + 1) ≤ p) : (M : ℝ) ≤ log2Big L p := by
  have hp : p ≠ 0 := by
    have := Nat.one_le_two_pow (n := M + 1)
    omega
  obtain ⟨l, -, -, h3, h4⟩ := C43_float L hL p (by omega)
  have h5 : M + 1 ≤ Nat.log 2 p := (Nat.le_log_iff_pow_le (by norm_num) hp).2 h
  have h6 : ((M + 1 : ℕ) : ℤ) ≤ ⌊l⌋ := by rw [h3]; exact_mod_cast h5
  have h7 : ((M + 1 : ℕ) : ℝ) ≤ l := by
    have := Int.le_floor.1 h6
    exact_mod_cast this
  have h8 := (abs_le.1 h4).1
  have hMR : (M : ℝ) ≤ 256 := by exact_mod_cast hM
  push_cast at h7
  have h9 : l * (1 - 2⁻¹ ^ 39) ≤ log2Big L p := by linarith
  have h10 : ((M : ℝ) + 1) * (1 - 2⁻¹ ^ 39) ≤ l * (1 - 2⁻¹ ^ 39) := mul_le_mul_of_nonneg_right h7 (by norm_num)
  norm_num at h9 h10
  linarith

/-- The S-boxes of the generator: the inverse, or an exponent that fits a `u32`. -/
def AlphaOk : Alpha → Prop
  | .inverse => True
  | .exponent e => 2 ≤ e ∧ e < 2 ^ 32

section
variable {L : Libm} {M t p p' : Nat} {allow allow' : Bool} {lp lp' : ℝ} {alpha : Alpha}

theorem statistical_large (hL : L.Accurate) (hM : 80 ≤ M) (hM' : M ≤ 256) (ht : 1 ≤ t) (ht' : t < 2 ^ 50) (ha : AlphaOk alpha)
    (hlp : (M : ℝ) ≤ lp) : statisticalAttackFullRounds L ⟨allow, M, t, p⟩ lp alpha = 6 := by
  have hMR : (80 : ℝ) ≤ M := by exact_mod_cast hM
  have htR : (1 : ℝ) ≤ t := by exact_mod_cast ht
  cases alpha with
  | exponent e =>
    obtain ⟨h2, h32⟩ := ha
    have hC : L.log2 ((e - 1 : ℕ) : ℝ) ≤ 33 := by
      have h1 : (1 : ℝ) ≤ ((e - 1 : ℕ) : ℝ) := by exact_mod_cast (by omega : 1 ≤ e - 1)
      have h3 : ((e - 1 : ℕ) : ℝ) ≤ 2 ^ 32 := by exact_mod_cast (by omega : e - 1 ≤ 2 ^ 32)
      refine (hL.log2_le h1 (logb2_le (n := 32) (by linarith) h3)).trans ?_
      norm_num
    exact statistical_six hM' ht (by omega) h2 (by omega) hC hlp (by linarith) (by nlinarith)
  | inverse =>
    unfold statisticalAttackFullRounds
    dsimp only
    rw [if_pos]
    have rt1 : rne ((t : ℝ) + 1) = t + 1 := by
      have := rne_natCast (n := t + 1) (by omega)
      push_cast at this; exact this
    rw [rne_natCast (n := M) (by omega), rne_natCast (n := t) (by omega), rt1]
    have hfl : (M : ℝ) ≤ ((⌊lp⌋ : ℤ) : ℝ) := by exact_mod_cast Int.le_floor.2 (by exact_mod_cast hlp)
    have h1 : ((M : ℝ) - 2) * 0.9999 ≤ rne (((⌊lp⌋ : ℤ) : ℝ) - 2) := le_rne_of (a := M - 2) (by linarith) (by linarith) le_rfl
    have hp : (0 : ℝ) ≤ (M - 2) * ((t : ℝ) + 1) := mul_nonneg (by linarith) (by linarith)
    refine le_rne_of (a := (M - 2) * 0.9999 * (t + 1)) (mul_le_mul_of_nonneg_right h1 (by linarith)) (by nlinarith) ?_
    nlinarith

theorem interpolation_large (hM' : M ≤ 256) (hlp : (M : ℝ) ≤ lp) (hlp' : (M : ℝ) ≤ lp') :
    algebraicAttackInterpolation L ⟨allow, M, t, p⟩ lp alpha = algebraicAttackInterpolation L ⟨allow', M, t, p'⟩ lp' alpha := by
  unfold algebraicAttackInterpolation
  dsimp only
  rw [rne_natCast (n := M) (by omega), min_eq_left hlp, min_eq_left hlp']

theorem grobner_large (hL : L.Accurate) (hM' : M ≤ 256) (ht : 1 ≤ t) (ht' : t < 2 ^ 50) (ha : AlphaOk alpha) (hlp : (M : ℝ) ≤ lp)
    (hlp' : (M : ℝ) ≤ lp') :
    algebraicAttackGrobnerBasisV1 L ⟨allow, M, t, p⟩ lp alpha = algebraicAttackGrobnerBasisV1 L ⟨allow', M, t, p'⟩ lp' alpha := by
  have hM0 : (0 : ℝ) ≤ M := Nat.cast_nonneg _
  have htR : (1 : ℝ) ≤ t := by exact_mod_cast ht
  have rt1 : rne ((t : ℝ) + 1) = t + 1 := by
    have := rne_natCast (n := t + 1) (by omega)
    push_cast at this; exact this
  rw [algebraicAttackGrobnerBasisV1, algebraicAttackGrobnerBasisV1]
  dsimp only
  rw [rne_natCast (n := M) (by omega), rne_natCast (n := t) (by omega), rt1, min_eq_left hlp, min_eq_left hlp']
  have hdiv : ∀ x y : ℝ, 0 ≤ x → x ≤ y → x / (t + 1) ≤ y / 2 := fun x y hx hxy => by
    rw [div_le_div_iff₀ (by linarith) (by norm_num)]; nlinarith
  have hceil : ∀ l : ℝ, (M : ℝ) ≤ l → ((⌈rne ((M : ℝ) / (t + 1))⌉ : ℤ) : ℝ) ≤ ((⌈rne (0.5 * l)⌉ : ℤ) : ℝ) := fun l hl => by
    have : ⌈rne ((M : ℝ) / (t + 1))⌉ ≤ ⌈rne (0.5 * l)⌉ := Int.ceil_mono (rne_mono (by
      have := hdiv M l hM0 hl; linarith))
    exact_mod_cast this
  rw [min_eq_left (hceil lp hlp), min_eq_left (hceil lp' hlp')]
  cases alpha with
  | inverse => rfl
  | exponent e =>
    obtain ⟨h2, h32⟩ := ha
    have heR : (1 : ℝ) ≤ e := by exact_mod_cast (by omega : 1 ≤ e)
    dsimp only
    rw [rne_natCast (n := e) (by omega)]
    have hl0 : 0 ≤ L.log 2 (e : ℝ) := hL.log_nonneg (by norm_num) heR
    have g1 : ∀ l : ℝ, (M : ℝ) ≤ l → rne ((M : ℝ) / 3) ≤ rne (l / 2) := fun l hl => rne_mono (by linarith)
    have g2 : ∀ l : ℝ, (M : ℝ) ≤ l → rne (rne (L.log 2 (e : ℝ) * M) / ((t : ℝ) + 1)) ≤ rne (rne (L.log 2 (e : ℝ) * l) / 2) :=
      fun l hl => rne_mono (hdiv _ _ (rne_nonneg (mul_nonneg hl0 hM0)) (rne_mono (mul_le_mul_of_nonneg_left hl hl0)))
    rw [min_eq_left (g1 lp hlp), min_eq_left (g1 lp' hlp'), min_eq_left (g2 lp hlp), min_eq_left (g2 lp' hlp')]

/-- **C69**, the modulus does not matter: two moduli of at least `M + 2` bits get the same round numbers, from either version. -/
theorem C69_independent (L : Libm) (hL : L.Accurate) (M t p p' : Nat) (allow allow' : Bool) (alpha : Alpha) (hM : 80 ≤ M) (hM' : M ≤ 256)
    (ht : 1 ≤ t) (ht' : t < 2 ^ 50) (ha : AlphaOk alpha) (hp : 2 ^ (M + 1) ≤ p) (hp' : 2 ^ (M + 1) ≤ p') :
    roundsV1Generate L ⟨allow, M, t, p⟩ (log2Big L p) alpha = roundsV1Generate L ⟨allow', M, t, p'⟩ (log2Big L p') alpha ∧
      roundsV2Generate L ⟨allow, M, t, p⟩ (log2Big L p) alpha = roundsV2Generate L ⟨allow', M, t, p'⟩ (log2Big L p') alpha := by
  have hlp := le_log2Big hL hM' hp
  have hlp' := le_log2Big hL hM' hp'
  generalize log2Big L p = lp at *
  generalize log2Big L p' = lp' at *
  have e1 : statisticalAttackFullRounds L ⟨allow, M, t, p⟩ lp alpha = statisticalAttackFullRounds L ⟨allow', M, t, p'⟩ lp' alpha := by
    rw [statistical_large hL hM hM' ht ht' ha hlp, statistical_large hL hM hM' ht ht' ha hlp']
  have e2 := interpolation_large (L := L) (t := t) (p := p) (p' := p') (allow := allow) (allow' := allow') (alpha := alpha) hM' hlp hlp'
  have e3 := grobner_large (p := p) (p' := p') (allow := allow) (allow' := allow') hL hM' ht ht' ha hlp hlp'
  have s1 : isSecureV1 L ⟨allow, M, t, p⟩ lp alpha = isSecureV1 L ⟨allow', M, t, p'⟩ lp' alpha := by
    funext r
    unfold isSecureV1
    rw [e1, e2, e3]
    rfl
  have s2 : isSecureV2 L ⟨allow, M, t, p⟩ lp alpha = isSecureV2 L ⟨allow', M, t, p'⟩ lp' alpha := by
    funext r
    unfold isSecureV2
    rw [e1, e2, e3]
    rfl
  unfold roundsV1Generate roundsV2Generate
  rw [s1, s2]
  exact ⟨rfl, rfl⟩

end

/-! ### The limits of C59 -/

/-- **C59**, a field the generator accepts: at 256 bits of security, width 2 and `x ↦ x^17`, for every 128-bit modulus the first search
returns 31 partial and 8 full rounds, and the second does not. -/
theorem C59_accepted_field (L : Libm) (hL : L.Accurate) (hR : L.Regular) (allow : Bool) (p : Nat) (h1 : 2 ^ 127 ≤ p) (h2 : p < 2 ^ 128) :
    roundsV1Generate L ⟨allow, 256, 2, p⟩ (log2Big L p) (.exponent 17) = .ok ⟨31, 8⟩ ∧
      roundsV2Generate L ⟨allow, 256, 2, p⟩ (log2Big L p) (.exponent 17) ≠ .ok ⟨31, 8⟩ := by
  obtain ⟨hp1, hp2⟩ := hR.log2Big_bounds (n := 128) (by norm_num) (by norm_num) h1 h2
  norm_num at hp1 hp2
  generalize log2Big L p = lp at *
  have hC : L.log2 ((17 - 1 : ℕ) : ℝ) ≤ 4.01 := by
    refine (hL.log2_le (x := ((17 - 1 : ℕ) : ℝ)) (by norm_num) (logb2_le (n := 4) (by norm_num) (by norm_num))).trans ?_
    norm_num
  have g2 := Real.log_two_gt_d9
  have l2 := Real.log_two_lt_d9
  have h17 : Real.log 17 = 4 * Real.log 2 + Real.log (17 / 16) := by
    have := log_two_pow 4
    push_cast at this
    rw [← this, ← Real.log_mul (by norm_num) (by norm_num)]; norm_num
  have hl : (2.83 : ℝ) ≤ Real.log 17 := by
    have := Real.one_sub_inv_le_log_of_pos (x := 17 / 16) (by norm_num)
    rw [h17]; norm_num at this g2 ⊢; linarith
  have hu : Real.log 17 ≤ 2.8352 := by
    have := Real.log_le_sub_one_of_pos (x := 17 / 16) (by norm_num)
    rw [h17]; norm_num at this l2 ⊢; linarith
  have ha : 0.2442 ≤ L.log 2 ((17 : ℕ) : ℝ) := by
    push_cast
    exact hL.le_log (by norm_num) (by norm_num) g2.le hu (by norm_num) (by norm_num)
  have hb : L.log 2 ((17 : ℕ) : ℝ) ≤ 0.249 := by
    push_cast
    exact hL.log_le (by norm_num) (by norm_num) l2.le hl (by norm_num) (by norm_num)
  obtain ⟨I, hI1, hI2, hI⟩ := rounds_exponent (L := L) (M := 256) (t := 2) (e := 17) (allow := allow) (p := p) (lp := lp) (n := 127)
    (c := 0.2442) (d := 0.249) (m1 := 127) (m2 := 128) (A := 32) (A' := 32) (B := 33) (B' := 33)
    (by norm_num) (by norm_num) (by norm_num) (by norm_num) (by norm_num) hC (by norm_num; linarith) (by norm_num) (by norm_num)
    (by norm_num) ha hb (by norm_num) (by exact_mod_cast ha) (by exact_mod_cast hb) (by norm_num) (le_min (by norm_num) (by linarith))
    ((min_le_right _ _).trans (by linarith)) (by norm_num) (by norm_num) (by norm_num) (by norm_num) (by norm_num) (by norm_num)
    (by norm_num) (by norm_num)
  obtain rfl : I = 33 := by omega
  refine ⟨hI, fun hv2 => ?_⟩
  rcases C37_v2 L ⟨allow, 256, 2, p⟩ lp 17 (by norm_num) (by norm_num) with ⟨-, h3⟩ | ⟨sP, sF, hb', h3⟩
  · rw [h3] at hv2; cases hv2
  · rw [h3, ceil_margin] at hv2
    obtain ⟨h4, h5⟩ := RoundNumbers.mk.inj (Except.ok.inj hv2)
    obtain rfl : sP = 28 := by omega
    obtain rfl : sF = 6 := by omega
    obtain ⟨i, b, i1, i2, ⟨hb1, -, hb3⟩, hb4⟩ :=
      ((C56_v2 L ⟨allow, 256, 2, p⟩ lp 17 28 6 (by norm_num) (by norm_num) (by norm_num)).1 hb'.2.1).2
    norm_num at i2 hb1 hb4
    have hle : Nat.choose 83 i ≤ 2 ^ 83 := by
      rw [← Nat.sum_range_choose]
      exact Finset.single_le_sum (f := fun i => Nat.choose 83 i) (fun _ _ => Nat.zero_le _) (Finset.mem_range.2 (by omega))
    have h6 : 2 ^ 127 ≤ 2 ^ (b - 1) := Nat.pow_le_pow_right (by norm_num) (by omega)
    have : (2 : ℕ) ^ 127 ≤ 2 ^ 83 := (h6.trans hb1).trans hle
    norm_num at this

/-! ### Concrete cases -/

set_option exponentiation.threshold 1000 in
/-- The hypotheses of the tables are met by the correctly rounded library and, for the first row, by `2^767 + 1`. -/
example : ∃ rP, roundsV1Generate roundedLibm ⟨true, 128, 2, 2 ^ 767 + 1⟩ (log2Big roundedLibm (2 ^ 767 + 1)) (.exponent 3) = .ok ⟨rP, 8⟩ ∧
    (rP = 83 ∨ 768 ≤ 128 ∧ rP + 1 = 83) :=
  C69_table7 roundedLibm roundedLibm_accurate roundedLibm_regular true ⟨128, 768, 2, 8, 83⟩ (by simp [Spec.table7]) (2 ^ 767 + 1)
    (Nat.le_add_right _ _) (by
      have h : (2 : ℕ) ^ 768 = 2 ^ 767 + 2 ^ 767 := by rw [show 768 = 767 + 1 from rfl, pow_succ]; omega
      have h1 : (1 : ℕ) < 2 ^ 767 := Nat.one_lt_two_pow (by norm_num)
      show 2 ^ 767 + 1 < 2 ^ 768
      omega)

/-- Every 256-bit modulus gets, at 128 bits of security and for the S-box `x^17`, the round numbers of this repository. -/
example (p : Nat) (hp : 2 ^ 255 ≤ p) (t : Nat) (ht : 2 ≤ t) (ht' : t ≤ 8) :
    roundsV1Generate roundedLibm ⟨true, 128, t, p⟩ (log2Big roundedLibm p) (.exponent 17) = .ok ⟨31, 8⟩ := by
  rw [(C69_independent roundedLibm roundedLibm_accurate 128 t p q true true (.exponent 17) (by norm_num) (by norm_num) (by omega) (by omega)
    ⟨by norm_num, by norm_num⟩ (le_trans (Nat.pow_le_pow_right (by norm_num) (by norm_num)) hp) (by norm_num [q])).1]
  exact C39_rounds _ roundedLibm_accurate _ _ ht ht'

end Poseidon
