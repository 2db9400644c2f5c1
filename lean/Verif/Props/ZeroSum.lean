import Verif.Spec.ZeroSum
import Verif.Props.Degree
import Mathlib.FieldTheory.Finite.Basic
import Mathlib.GroupTheory.SpecificGroups.Cyclic

/-!
# Sums of digests (C99)

A polynomial of degree less than `q - 1` has sum zero over the field.  The hash is one in each argument.
-/

set_option linter.unusedSectionVars false

namespace Poseidon

open Polynomial

/-! ## Sums of values of polynomials -/

section
variable {K : Type} [Field K] [Fintype K]

theorem sum_pow_mul_eval (f : K[X]) (k : Nat) : ∑ z, z ^ k * f.eval z = ∑ n ∈ Finset.range (f.natDegree + 1), f.coeff n * ∑ z : K, z ^ (k + n) := by
  simp only [eval_eq_sum_range, Finset.mul_sum]
  rw [Finset.sum_comm]
  refine Finset.sum_congr rfl fun n _ => Finset.sum_congr rfl fun z _ => ?_
  rw [pow_add]
  ring

theorem moment_zero (f : K[X]) {k D : Nat} (hD : f.natDegree ≤ D) (h : k + D < Fintype.card K - 1) : ∑ z, z ^ k * f.eval z = 0 := by
  rw [sum_pow_mul_eval]
  refine Finset.sum_eq_zero fun n hn => ?_
  have := Finset.mem_range.1 hn
  rw [FiniteField.sum_pow_lt_card_sub_one _ _ (by omega), mul_zero]

theorem sum_pow_card_sub_one : ∑ z : K, z ^ (Fintype.card K - 1) = -1 := by
  classical
  have h1 : 1 < Fintype.card K := Fintype.one_lt_card
  have h2 : ∀ z : K, z ^ (Fintype.card K - 1) = if z = 0 then 0 else 1 := by
    intro z
    split
    · rename_i h
      rw [h, zero_pow (by omega)]
    · rename_i h
      exact FiniteField.pow_card_sub_one_eq_one z h
  have h3 : ∑ z : K, (if z = 0 then (0 : K) else 1) + ∑ z : K, (if z = 0 then (1 : K) else 0) = 0 := by
    rw [← Finset.sum_add_distrib]
    have : ∀ z : K, (if z = 0 then (0 : K) else 1) + (if z = 0 then (1 : K) else 0) = 1 := fun z => by split <;> simp
    simp only [this, Finset.sum_const, Finset.card_univ, nsmul_eq_mul, mul_one, FiniteField.cast_card_eq_zero]
  rw [Finset.sum_ite_eq' Finset.univ (0 : K), if_pos (Finset.mem_univ _)] at h3
  simp only [h2]
  exact eq_neg_of_add_eq_zero_left h3

theorem moment_top (f : K[X]) {k : Nat} (h : k + f.natDegree = Fintype.card K - 1) : ∑ z, z ^ k * f.eval z = -f.leadingCoeff := by
  rw [sum_pow_mul_eval, Finset.sum_range_succ, h, sum_pow_card_sub_one, Finset.sum_eq_zero, zero_add, mul_neg, mul_one]
  · rfl
  · intro n hn
    have := Finset.mem_range.1 hn
    rw [FiniteField.sum_pow_lt_card_sub_one _ _ (by omega), mul_zero]

theorem coset_sum (f : K[X]) (G : Subgroup Kˣ) (h : f.natDegree < Nat.card G) (a : K) :
    ∑ᶠ g : G, f.eval (a * (g : Kˣ)) = Nat.card G * f.eval 0 := by
  have := Fintype.ofFinite G
  rw [Nat.card_eq_fintype_card] at h ⊢
  rw [finsum_eq_sum_of_fintype, ← coeff_zero_eq_eval_zero]
  simp only [eval_eq_sum_range]
  rw [Finset.sum_comm, Finset.sum_range_succ', Finset.sum_eq_zero, zero_add]
  · simp only [pow_zero, mul_one, Finset.sum_const, Finset.card_univ, nsmul_eq_mul]
  · intro n hn
    have hn := Finset.mem_range.1 hn
    have h0 := FiniteField.sum_subgroup_pow_eq_zero (G := G) (k := n + 1) (Nat.succ_ne_zero n) (by omega)
    simp only [mul_pow, ← mul_assoc]
    rw [← Finset.mul_sum, h0, mul_zero]

end

/-! ## The hash -/

/-- A function that is the digest of a shipped permutation in one word. -/
theorem perm377_zeroSums (i : Fin 7) (x : Fin (i.val + 2) → Fq) (j : Fin (i.val + 2)) {h : Fq → R Fq}
    (hh : ∀ z, ∃ y, spec377 i (Function.update x j z) = some y ∧ h z = .ok (y 1)) : ZeroSums (17 ^ 39) h := by
  obtain ⟨g, h1, h2⟩ := perm377_degree i x j 1
  refine ⟨fun z => g.eval z, fun z => ?_, fun k hk => ?_, fun k hk => ?_, fun G hG a => ?_⟩
  · obtain ⟨y, hy, e⟩ := hh z
    rw [spec377_eq] at hy
    rw [e, ← Option.some.inj hy]
    exact congrArg Except.ok (h2 z)
  · exact moment_zero g h1.le (by rw [card_Fq]; exact hk)
  · show ∑ z, z ^ k * g.eval z ≠ 0
    rw [moment_top g (by rw [h1, card_Fq]; exact hk)]
    refine neg_ne_zero.2 (leadingCoeff_ne_zero.2 fun h0 => ?_)
    rw [h0, natDegree_zero] at h1
    exact absurd h1 (by norm_num)
  · exact coset_sum g G (by rw [h1]; exact hG) a

/-- **C99.** For every shipped rate, with all input words but one fixed: the sums of the digests over all values of the word, their moments, and
the sums over cosets of large subgroups. -/
theorem C99_instance (i : Fin 7) (s : Vector Fq (i.val + 2)) (x : Fin (i.val + 2) → Fq) (j : Fin (i.val + 2)) :
    ZeroSums (17 ^ 39) fun z => (Instance.nTo1FixedHash ⟨shippedParams i, s⟩ (Vector.ofFn (Function.update x j z))).map Prod.fst := by
  refine perm377_zeroSums i x j fun z => ?_
  obtain ⟨y, hy, e⟩ := C02_instance i s (Function.update x j z)
  exact ⟨y, hy, by rw [e]; rfl⟩

/-- **C99** for `hash_1` and each of its arguments. -/
theorem C99_hash_1 (ds v1 : Fq) :
    ZeroSums (17 ^ 39) (fun z => hash1 z v1) ∧
    ZeroSums (17 ^ 39) (fun z => hash1 ds z) := by
  refine ⟨?_, ?_⟩
  · refine perm377_zeroSums 0 ![ds, v1] 0 fun z => ?_
    rw [update_vec (w := ![z, v1]) (by intro a; fin_cases a <;> rfl)]
    exact C02_hash_1 z v1
  · refine perm377_zeroSums 0 ![ds, v1] 1 fun z => ?_
    rw [update_vec (w := ![ds, z]) (by intro a; fin_cases a <;> rfl)]
    exact C02_hash_1 ds z

/-- **C99** for `hash_2` and each of its arguments. -/
theorem C99_hash_2 (ds v1 v2 : Fq) :
    ZeroSums (17 ^ 39) (fun z => hash2 z (v1, v2)) ∧
    ZeroSums (17 ^ 39) (fun z => hash2 ds (z, v2)) ∧
    ZeroSums (17 ^ 39) (fun z => hash2 ds (v1, z)) := by
  refine ⟨?_, ?_, ?_⟩
  · refine perm377_zeroSums 1 ![ds, v1, v2] 0 fun z => ?_
    rw [update_vec (w := ![z, v1, v2]) (by intro a; fin_cases a <;> rfl)]
    exact C02_hash_2 z (v1, v2)
  · refine perm377_zeroSums 1 ![ds, v1, v2] 1 fun z => ?_
    rw [update_vec (w := ![ds, z, v2]) (by intro a; fin_cases a <;> rfl)]
    exact C02_hash_2 ds (z, v2)
  · refine perm377_zeroSums 1 ![ds, v1, v2] 2 fun z => ?_
    rw [update_vec (w := ![ds, v1, z]) (by intro a; fin_cases a <;> rfl)]
    exact C02_hash_2 ds (v1, z)

/-- **C99** for `hash_3` and each of its arguments. -/
theorem C99_hash_3 (ds v1 v2 v3 : Fq) :
    ZeroSums (17 ^ 39) (fun z => hash3 z (v1, v2, v3)) ∧
    ZeroSums (17 ^ 39) (fun z => hash3 ds (z, v2, v3)) ∧
    ZeroSums (17 ^ 39) (fun z => hash3 ds (v1, z, v3)) ∧
    ZeroSums (17 ^ 39) (fun z => hash3 ds (v1, v2, z)) := by
  refine ⟨?_, ?_, ?_, ?_⟩
  · refine perm377_zeroSums 2 ![ds, v1, v2, v3] 0 fun z => ?_
    rw [update_vec (w := ![z, v1, v2, v3]) (by intro a; fin_cases a <;> rfl)]
    exact C02_hash_3 z (v1, v2, v3)
  · refine perm377_zeroSums 2 ![ds, v1, v2, v3] 1 fun z => ?_
    rw [update_vec (w := ![ds, z, v2, v3]) (by intro a; fin_cases a <;> rfl)]
    exact C02_hash_3 ds (z, v2, v3)
  · refine perm377_zeroSums 2 ![ds, v1, v2, v3] 2 fun z => ?_
    rw [update_vec (w := ![ds, v1, z, v3]) (by intro a; fin_cases a <;> rfl)]
    exact C02_hash_3 ds (v1, z, v3)
  · refine perm377_zeroSums 2 ![ds, v1, v2, v3] 3 fun z => ?_
    rw [update_vec (w := ![ds, v1, v2, z]) (by intro a; fin_cases a <;> rfl)]
    exact C02_hash_3 ds (v1, v2, z)

/-- **C99** for `hash_4` and each of its arguments. -/
theorem C99_hash_4 (ds v1 v2 v3 v4 : Fq) :
    ZeroSums (17 ^ 39) (fun z => hash4 z (v1, v2, v3, v4)) ∧
    ZeroSums (17 ^ 39) (fun z => hash4 ds (z, v2, v3, v4)) ∧
    ZeroSums (17 ^ 39) (fun z => hash4 ds (v1, z, v3, v4)) ∧
    ZeroSums (17 ^ 39) (fun z => hash4 ds (v1, v2, z, v4)) ∧
    ZeroSums (17 ^ 39) (fun z => hash4 ds (v1, v2, v3, z)) := by
  refine ⟨?_, ?_, ?_, ?_, ?_⟩
  · refine perm377_zeroSums 3 ![ds, v1, v2, v3, v4] 0 fun z => ?_
    rw [update_vec (w := ![z, v1, v2, v3, v4]) (by intro a; fin_cases a <;> rfl)]
    exact C02_hash_4 z (v1, v2, v3, v4)
  · refine perm377_zeroSums 3 ![ds, v1, v2, v3, v4] 1 fun z => ?_
    rw [update_vec (w := ![ds, z, v2, v3, v4]) (by intro a; fin_cases a <;> rfl)]
    exact C02_hash_4 ds (z, v2, v3, v4)
  · refine perm377_zeroSums 3 ![ds, v1, v2, v3, v4] 2 fun z => ?_
    rw [update_vec (w := ![ds, v1, z, v3, v4]) (by intro a; fin_cases a <;> rfl)]
    exact C02_hash_4 ds (v1, z, v3, v4)
  · refine perm377_zeroSums 3 ![ds, v1, v2, v3, v4] 3 fun z => ?_
    rw [update_vec (w := ![ds, v1, v2, z, v4]) (by intro a; fin_cases a <;> rfl)]
    exact C02_hash_4 ds (v1, v2, z, v4)
  · refine perm377_zeroSums 3 ![ds, v1, v2, v3, v4] 4 fun z => ?_
    rw [update_vec (w := ![ds, v1, v2, v3, z]) (by intro a; fin_cases a <;> rfl)]
    exact C02_hash_4 ds (v1, v2, v3, z)

/-- **C99** for `hash_5` and each of its arguments. -/
theorem C99_hash_5 (ds v1 v2 v3 v4 v5 : Fq) :
    ZeroSums (17 ^ 39) (fun z => hash5 z (v1, v2, v3, v4, v5)) ∧
    ZeroSums (17 ^ 39) (fun z => hash5 ds (z, v2, v3, v4, v5)) ∧
    ZeroSums (17 ^ 39) (fun z => hash5 ds (v1, z, v3, v4, v5)) ∧
    ZeroSums (17 ^ 39) (fun z => hash5 ds (v1, v2, z, v4, v5)) ∧
    ZeroSums (17 ^ 39) (fun z => hash5 ds (v1, v2, v3, z, v5)) ∧
    ZeroSums (17 ^ 39) (fun z => hash5 ds (v1, v2, v3, v4, z)) := by
  refine ⟨?_, ?_, ?_, ?_, ?_, ?_⟩
  · refine perm377_zeroSums 4 ![ds, v1, v2, v3, v4, v5] 0 fun z => ?_
    rw [update_vec (w := ![z, v1, v2, v3, v4, v5]) (by intro a; fin_cases a <;> rfl)]
    exact C02_hash_5 z (v1, v2, v3, v4, v5)
  · refine perm377_zeroSums 4 ![ds, v1, v2, v3, v4, v5] 1 fun z => ?_
    rw [update_vec (w := ![ds, z, v2, v3, v4, v5]) (by intro a; fin_cases a <;> rfl)]
    exact C02_hash_5 ds (z, v2, v3, v4, v5)
  · refine perm377_zeroSums 4 ![ds, v1, v2, v3, v4, v5] 2 fun z => ?_
    rw [update_vec (w := ![ds, v1, z, v3, v4, v5]) (by intro a; fin_cases a <;> rfl)]
    exact C02_hash_5 ds (v1, z, v3, v4, v5)
  · refine perm377_zeroSums 4 ![ds, v1, v2, v3, v4, v5] 3 fun z => ?_
    rw [update_vec (w := ![ds, v1, v2, z, v4, v5]) (by intro a; fin_cases a <;> rfl)]
    exact C02_hash_5 ds (v1, v2, z, v4, v5)
  · refine perm377_zeroSums 4 ![ds, v1, v2, v3, v4, v5] 4 fun z => ?_
    rw [update_vec (w := ![ds, v1, v2, v3, z, v5]) (by intro a; fin_cases a <;> rfl)]
    exact C02_hash_5 ds (v1, v2, v3, z, v5)
  · refine perm377_zeroSums 4 ![ds, v1, v2, v3, v4, v5] 5 fun z => ?_
    rw [update_vec (w := ![ds, v1, v2, v3, v4, z]) (by intro a; fin_cases a <;> rfl)]
    exact C02_hash_5 ds (v1, v2, v3, v4, z)

/-- **C99** for `hash_6` and each of its arguments. -/
theorem C99_hash_6 (ds v1 v2 v3 v4 v5 v6 : Fq) :
    ZeroSums (17 ^ 39) (fun z => hash6 z (v1, v2, v3, v4, v5, v6)) ∧
    ZeroSums (17 ^ 39) (fun z => hash6 ds (z, v2, v3, v4, v5, v6)) ∧
    ZeroSums (17 ^ 39) (fun z => hash6 ds (v1, z, v3, v4, v5, v6)) ∧
    ZeroSums (17 ^ 39) (fun z => hash6 ds (v1, v2, z, v4, v5, v6)) ∧
    ZeroSums (17 ^ 39) (fun z => hash6 ds (v1, v2, v3, z, v5, v6)) ∧
    ZeroSums (17 ^ 39) (fun z => hash6 ds (v1, v2, v3, v4, z, v6)) ∧
    ZeroSums (17 ^ 39) (fun z => hash6 ds (v1, v2, v3, v4, v5, z)) := by
  refine ⟨?_, ?_, ?_, ?_, ?_, ?_, ?_⟩
  · refine perm377_zeroSums 5 ![ds, v1, v2, v3, v4, v5, v6] 0 fun z => ?_
    rw [update_vec (w := ![z, v1, v2, v3, v4, v5, v6]) (by intro a; fin_cases a <;> rfl)]
    exact C02_hash_6 z (v1, v2, v3, v4, v5, v6)
  · refine perm377_zeroSums 5 ![ds, v1, v2, v3, v4, v5, v6] 1 fun z => ?_
    rw [update_vec (w := ![ds, z, v2, v3, v4, v5, v6]) (by intro a; fin_cases a <;> rfl)]
    exact C02_hash_6 ds (z, v2, v3, v4, v5, v6)
  · refine perm377_zeroSums 5 ![ds, v1, v2, v3, v4, v5, v6] 2 fun z => ?_
    rw [update_vec (w := ![ds, v1, z, v3, v4, v5, v6]) (by intro a; fin_cases a <;> rfl)]
    exact C02_hash_6 ds (v1, z, v3, v4, v5, v6)
  · refine perm377_zeroSums 5 ![ds, v1, v2, v3, v4, v5, v6] 3 fun z => ?_
    rw [update_vec (w := ![ds, v1, v2, z, v4, v5, v6]) (by intro a; fin_cases a <;> rfl)]
    exact C02_hash_6 ds (v1, v2, z, v4, v5, v6)
  · refine perm377_zeroSums 5 ![ds, v1, v2, v3, v4, v5, v6] 4 fun z => ?_
    rw [update_vec (w := ![ds, v1, v2, v3, z, v5, v6]) (by intro a; fin_cases a <;> rfl)]
    exact C02_hash_6 ds (v1, v2, v3, z, v5, v6)
  · refine perm377_zeroSums 5 ![ds, v1, v2, v3, v4, v5, v6] 5 fun z => ?_
    rw [update_vec (w := ![ds, v1, v2, v3, v4, z, v6]) (by intro a; fin_cases a <;> rfl)]
    exact C02_hash_6 ds (v1, v2, v3, v4, z, v6)
  · refine perm377_zeroSums 5 ![ds, v1, v2, v3, v4, v5, v6] 6 fun z => ?_
    rw [update_vec (w := ![ds, v1, v2, v3, v4, v5, z]) (by intro a; fin_cases a <;> rfl)]
    exact C02_hash_6 ds (v1, v2, v3, v4, v5, z)

/-- **C99** for `hash_7` and each of its arguments. -/
theorem C99_hash_7 (ds v1 v2 v3 v4 v5 v6 v7 : Fq) :
    ZeroSums (17 ^ 39) (fun z => hash7 z (v1, v2, v3, v4, v5, v6, v7)) ∧
    ZeroSums (17 ^ 39) (fun z => hash7 ds (z, v2, v3, v4, v5, v6, v7)) ∧
    ZeroSums (17 ^ 39) (fun z => hash7 ds (v1, z, v3, v4, v5, v6, v7)) ∧
    ZeroSums (17 ^ 39) (fun z => hash7 ds (v1, v2, z, v4, v5, v6, v7)) ∧
    ZeroSums (17 ^ 39) (fun z => hash7 ds (v1, v2, v3, z, v5, v6, v7)) ∧
    ZeroSums (17 ^ 39) (fun z => hash7 ds (v1, v2, v3, v4, z, v6, v7)) ∧
    ZeroSums (17 ^ 39) (fun z => hash7 ds (v1, v2, v3, v4, v5, z, v7)) ∧
    ZeroSums (17 ^ 39) (fun z => hash7 ds (v1, v2, v3, v4, v5, v6, z)) := by
  refine ⟨?_, ?_, ?_, ?_, ?_, ?_, ?_, ?_⟩
  · refine perm377_zeroSums 6 ![ds, v1, v2, v3, v4, v5, v6, v7] 0 fun z => ?_
    rw [update_vec (w := ![z, v1, v2, v3, v4, v5, v6, v7]) (by intro a; fin_cases a <;> rfl)]
    exact C02_hash_7 z (v1, v2, v3, v4, v5, v6, v7)
  · refine perm377_zeroSums 6 ![ds, v1, v2, v3, v4, v5, v6, v7] 1 fun z => ?_
    rw [update_vec (w := ![ds, z, v2, v3, v4, v5, v6, v7]) (by intro a; fin_cases a <;> rfl)]
    exact C02_hash_7 ds (z, v2, v3, v4, v5, v6, v7)
  · refine perm377_zeroSums 6 ![ds, v1, v2, v3, v4, v5, v6, v7] 2 fun z => ?_
    rw [update_vec (w := ![ds, v1, z, v3, v4, v5, v6, v7]) (by intro a; fin_cases a <;> rfl)]
    exact C02_hash_7 ds (v1, z, v3, v4, v5, v6, v7)
  · refine perm377_zeroSums 6 ![ds, v1, v2, v3, v4, v5, v6, v7] 3 fun z => ?_
    rw [update_vec (w := ![ds, v1, v2, z, v4, v5, v6, v7]) (by intro a; fin_cases a <;> rfl)]
    exact C02_hash_7 ds (v1, v2, z, v4, v5, v6, v7)
  · refine perm377_zeroSums 6 ![ds, v1, v2, v3, v4, v5, v6, v7] 4 fun z => ?_
    rw [update_vec (w := ![ds, v1, v2, v3, z, v5, v6, v7]) (by intro a; fin_cases a <;> rfl)]
    exact C02_hash_7 ds (v1, v2, v3, z, v5, v6, v7)
  · refine perm377_zeroSums 6 ![ds, v1, v2, v3, v4, v5, v6, v7] 5 fun z => ?_
    rw [update_vec (w := ![ds, v1, v2, v3, v4, z, v6, v7]) (by intro a; fin_cases a <;> rfl)]
    exact C02_hash_7 ds (v1, v2, v3, v4, z, v6, v7)
  · refine perm377_zeroSums 6 ![ds, v1, v2, v3, v4, v5, v6, v7] 6 fun z => ?_
    rw [update_vec (w := ![ds, v1, v2, v3, v4, v5, z, v7]) (by intro a; fin_cases a <;> rfl)]
    exact C02_hash_7 ds (v1, v2, v3, v4, v5, z, v7)
  · refine perm377_zeroSums 6 ![ds, v1, v2, v3, v4, v5, v6, v7] 7 fun z => ?_
    rw [update_vec (w := ![ds, v1, v2, v3, v4, v5, v6, z]) (by intro a; fin_cases a <;> rfl)]
    exact C02_hash_7 ds (v1, v2, v3, v4, v5, v6, z)

/-- **C99, all values.** The sum of the digests over all values of one word is zero. -/
theorem C99_sum {h : Fq → R Fq} (hh : ZeroSums (17 ^ 39) h) : ∃ d : Fq → Fq, (∀ z, h z = .ok (d z)) ∧ ∑ z, d z = 0 := by
  obtain ⟨d, h1, h2, -⟩ := hh
  refine ⟨d, h1, ?_⟩
  have := h2 0 (by decide +kernel)
  simpa only [pow_zero, one_mul] using this

/-- **C99, curves.** When the input words are polynomials of degree at most `d` of one value, the sums of the digests over all its values are zero,
and so are their moments, as long as `17^39 d` is small enough. -/
theorem C99_curve (i : Fin 7) (s : Vector Fq (i.val + 2)) (P : Fin (i.val + 2) → Fq[X]) {n : Nat} (hn : 1 ≤ n) (hP : ∀ a, (P a).natDegree ≤ n) :
    ∃ d : Fq → Fq,
      (∀ z, ∃ inst', Instance.nTo1FixedHash ⟨shippedParams i, s⟩ (Vector.ofFn fun a => (P a).eval z) = .ok (d z, inst')) ∧
      (∀ k, k + n * 17 ^ 39 < q - 1 → ∑ z, z ^ k * d z = 0) ∧
      ∀ (G : Subgroup Fqˣ), n * 17 ^ 39 < Nat.card G → ∀ a : Fq, ∑ᶠ g : G, d (a * (g : Fqˣ)) = Nat.card G * d 0 := by
  obtain ⟨Q, h1, h2⟩ := rounds_poly (e := 17) (cauchyMds Fq (i.val + 2)) (fun r : Fin (4 + 31 + 4) => decide (r.val < 4 ∨ 4 + 31 ≤ r.val))
    (shippedArc i) (by norm_num) (List.finRange (4 + 31 + 4)) hn (fun a => ⟨hP a, rfl⟩ : Top n P fun a => (P a).coeff n)
  rw [List.length_finRange] at h1
  refine ⟨fun z => (Q 1).eval z, fun z => ?_, fun k hk => ?_, fun G hG a => ?_⟩
  · have h3 : perm377 i (fun a => (P a).eval z) = fun a => (Q a).eval z := (h2 z).symm
    have h4 := nTo1_perm377 i s fun a => (P a).eval z
    rw [congrFun h3 1] at h4
    exact ⟨_, h4⟩
  · exact moment_zero (Q 1) (h1 1).1 (by rw [card_Fq]; exact hk)
  · exact coset_sum (Q 1) G (lt_of_le_of_lt (h1 1).1 hG) a

/-- **C99, lines.** The digests of the points of any line of the space of input words add up to zero. -/
theorem C99_line (i : Fin 7) (s : Vector Fq (i.val + 2)) (x u : Fin (i.val + 2) → Fq) :
    ∃ d : Fq → Fq,
      (∀ z, ∃ inst', Instance.nTo1FixedHash ⟨shippedParams i, s⟩ (Vector.ofFn fun a => x a + z * u a) = .ok (d z, inst')) ∧ ∑ z, d z = 0 := by
  obtain ⟨d, h1, h2, -⟩ := C99_curve i s (fun a => C (x a) + C (u a) * X) (le_refl 1)
    (fun a => natDegree_add_le_of_degree_le (by rw [natDegree_C]; omega) ((natDegree_C_mul_le _ _).trans natDegree_X_le))
  refine ⟨d, fun z => ?_, ?_⟩
  · have h := h1 z
    simp only [eval_add, eval_mul, eval_C, eval_X] at h
    simpa only [mul_comm] using h
  · have := h2 0 (by decide +kernel)
    simpa only [pow_zero, one_mul] using this

section

variable {F : Type} [Field F] [DecidableEq F] {k nmds nhat rows nround npart : Nat}

/-- **C99, generated parameters.** If the S-box is a power `e` and `e^(r_F + r_P)` is small enough for the field, the moments of the digests over all
values of any one input word are zero. -/
theorem C99_generated [Fintype F] {L : Libm} {debug : Bool} {nlimbs p security : Nat} [CharP F p] {allow : Bool}
    {P : Params F (k + 1) k nmds nhat rows (k + 1) nround npart} (g : GeneratedBy L debug nlimbs p security allow P)
    {e : Nat} (he : P.alpha = .exponent e) (j : Fin (k + 1)) (x : Fin (k + 1) → F) (s : Vector F (k + 1)) (m : Nat)
    (hm : m + e ^ (P.rounds.rF + P.rounds.rP) < Fintype.card F - 1) :
    ∃ d : F → F, (∀ z, ∃ inst', Instance.nTo1FixedHash ⟨P, s⟩ (Vector.ofFn (Function.update x j z)) = .ok (d z, inst')) ∧ ∑ z, z ^ m * d z = 0 := by
  obtain ⟨c, hc⟩ := C72_generated g he j
  obtain ⟨f, h1, -, h2⟩ := hc x
  exact ⟨fun z => f.eval z, h2 s, moment_zero f h1 hm⟩

end

/-! ## The hypotheses are met -/

/-- There are moments of both kinds. -/
example : 5 + 17 ^ 39 < q - 1 ∧ (q - 1 - 17 ^ 39) + 17 ^ 39 = q - 1 := by decide +kernel

/-- There are proper subgroups with enough elements, for instance that of the `2^47`-th powers. -/
example : ∃ G : Subgroup Fqˣ, Nat.card G = (q - 1) / 2 ^ 47 ∧ 17 ^ 39 < Nat.card G := by
  have h : Nat.card (powMonoidHom (2 ^ 47) : Fqˣ →* Fqˣ).range = (q - 1) / 2 ^ 47 := by
    rw [IsCyclic.card_powMonoidHom_range, Nat.card_units, Nat.card_eq_fintype_card, card_Fq]
    decide +kernel
  exact ⟨_, h, by rw [h]; decide +kernel⟩

end Poseidon
