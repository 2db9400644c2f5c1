import Verif.Proofs.Degree
import Verif.Props.CircuitGenerated
import Mathlib.Algebra.Polynomial.Roots

/-!
# The algebraic degree of the hash (C72)

With all words but one fixed, the digest is a polynomial in the remaining word.  Its degree is what interpolation has to overcome.
-/

set_option linter.unusedSectionVars false

namespace Poseidon

open Polynomial

/-! ## Shipped parameters -/

theorem shipped_lead (i : Fin 7) (a j : Fin (i.val + 2)) :
    leadRounds 17 (cauchyMds Fq (i.val + 2)) (fullFlags 4 31) (Pi.single j 1) a ≠ 0 := by
  have hM : ∀ (m : List Nat), (shippedParams i).mds.toM rfl = natM (i.val + 2) (i.val + 2) m → checkLead (i.val + 2) m (fullFlags 4 31) = true →
      leadRounds 17 (cauchyMds Fq (i.val + 2)) (fullFlags 4 31) (Pi.single j 1) a ≠ 0 := by
    intro m h1 h2
    rw [← shipped_mds_cauchy, h1]
    exact checkLead_spec h2 a j
  fin_cases i
  · exact hM (canons rate1_mds) (vecM _ _ rfl) (by decide +kernel)
  · exact hM (canons rate2_mds) (vecM _ _ rfl) (by decide +kernel)
  · exact hM (canons rate3_mds) (vecM _ _ rfl) (by decide +kernel)
  · exact hM (canons rate4_mds) (vecM _ _ rfl) (by decide +kernel)
  · exact hM (canons rate5_mds) (vecM _ _ rfl) (by decide +kernel)
  · exact hM (canons rate6_mds) (vecM _ _ rfl) (by decide +kernel)
  · exact hM (canons rate7_mds) (vecM _ _ rfl) (by decide +kernel)

/-- Every output word of a shipped permutation is a polynomial of degree exactly `17^39` in any input word. -/
theorem perm377_degree (i : Fin 7) (x : Fin (i.val + 2) → Fq) (j a : Fin (i.val + 2)) :
    ∃ g : Fq[X], g.natDegree = 17 ^ 39 ∧ ∀ z, perm377 i (Function.update x j z) a = g.eval z := by
  obtain ⟨Q, h1, h2⟩ := permE_poly (e := 17) (cauchyMds Fq (i.val + 2)) (rf := 4) (rp := 31) (shippedArc i) (by norm_num) x j
  refine ⟨Q a, ?_, fun z => congrFun (h2 z) a⟩
  apply le_antisymm (h1 a).1
  apply le_natDegree_of_ne_zero
  rw [(h1 a).2]
  exact shipped_lead i a j

/-- **C72.** For every shipped rate, with all input words but one fixed, the digest is a polynomial of degree exactly `17^39` in that word;
so is every word the instance is left with. -/
theorem C72_degree (i : Fin 7) (x : Fin (i.val + 2) → Fq) (j : Fin (i.val + 2)) :
    ∃ g : Fin (i.val + 2) → Fq[X], (∀ a, (g a).natDegree = 17 ^ 39) ∧
      ∀ (s : Vector Fq (i.val + 2)) (z : Fq), Instance.nTo1FixedHash ⟨shippedParams i, s⟩ (Vector.ofFn (Function.update x j z)) =
        .ok ((g 1).eval z, ⟨shippedParams i, Vector.ofFn fun a => (g a).eval z⟩) := by
  choose g hg hz using fun a => perm377_degree i x j a
  refine ⟨g, hg, fun s z => ?_⟩
  rw [nTo1_perm377, hz 1 z]
  congr 4
  funext a
  exact hz a z

theorem card_eval_eq {g f : Fq[X]} (h : f.natDegree < g.natDegree) : Nat.card {z : Fq // g.eval z = f.eval z} ≤ g.natDegree := by
  have h0 : g - f ≠ 0 := fun h0 => absurd (congrArg natDegree (sub_eq_zero.1 h0)) h.ne'
  have h1 : {z : Fq | g.eval z = f.eval z} = ((g - f).roots.toFinset : Set Fq) := by
    ext z
    rw [Set.mem_ofPred_eq, Finset.mem_coe, Multiset.mem_toFinset, mem_roots h0, IsRoot.def, eval_sub, sub_eq_zero]
  have h2 : Nat.card {z : Fq // g.eval z = f.eval z} = (g - f).roots.toFinset.card := by
    rw [← Set.ncard_coe_finset, ← h1]; rfl
  rw [h2]
  calc (g - f).roots.toFinset.card ≤ Multiset.card (g - f).roots := Multiset.toFinset_card_le _
    _ ≤ (g - f).natDegree := card_roots' _
    _ = g.natDegree := natDegree_sub_eq_left_of_natDegree_lt h

/-- **C72, interpolation.** No polynomial of lower degree agrees with the digest for more than `17^39` values of the word. -/
theorem C72_interpolation (i : Fin 7) (s : Vector Fq (i.val + 2)) (x : Fin (i.val + 2) → Fq) (j : Fin (i.val + 2)) (f : Fq[X])
    (hf : f.natDegree < 17 ^ 39) :
    Nat.card {z : Fq // ∃ inst', Instance.nTo1FixedHash ⟨shippedParams i, s⟩ (Vector.ofFn (Function.update x j z)) =
      .ok (f.eval z, inst')} ≤ 17 ^ 39 := by
  obtain ⟨g, hg, h⟩ := C72_degree i x j
  rw [← hg 1]
  refine le_trans (le_of_eq ?_) (card_eval_eq (g := g 1) (f := f) (by rw [hg 1]; exact hf))
  apply Nat.card_congr
  apply Equiv.subtypeEquivRight
  intro z
  rw [h s z]
  constructor
  · rintro ⟨inst', h1⟩
    injection h1 with h1
    exact congrArg Prod.fst h1
  · intro h1
    exact ⟨_, by rw [h1]⟩

/-- **C72, preimages.** With the other words fixed, every field element is the digest for at most `17^39` values of the word: fewer than one
in `2^92`. -/
theorem C72_preimages (i : Fin 7) (s : Vector Fq (i.val + 2)) (x : Fin (i.val + 2) → Fq) (j : Fin (i.val + 2)) (y : Fq) :
    Nat.card {z : Fq // ∃ inst', Instance.nTo1FixedHash ⟨shippedParams i, s⟩ (Vector.ofFn (Function.update x j z)) =
      .ok (y, inst')} ≤ 17 ^ 39 ∧ 17 ^ 39 * 2 ^ 92 < q := by
  refine ⟨?_, by decide +kernel⟩
  have h := C72_interpolation i s x j (C y) (by rw [natDegree_C]; norm_num)
  simpa only [eval_C] using h

/-- **C72, image.** With the other words fixed, the digest takes more than `2^92` values. -/
theorem C72_image (i : Fin 7) (s : Vector Fq (i.val + 2)) (x : Fin (i.val + 2) → Fq) (j : Fin (i.val + 2)) :
    2 ^ 92 < Nat.card {y : Fq // ∃ z inst', Instance.nTo1FixedHash ⟨shippedParams i, s⟩ (Vector.ofFn (Function.update x j z)) =
      .ok (y, inst')} := by
  classical
  obtain ⟨g, hg, h⟩ := C72_degree i x j
  have h1 : (Finset.univ : Finset Fq).card ≤ 17 ^ 39 * (Finset.univ.image fun z => (g 1).eval z).card := by
    apply Finset.card_le_mul_card_image
    intro y _
    have h2 := card_eval_eq (g := g 1) (f := C y) (by rw [hg 1, natDegree_C]; norm_num)
    rw [hg 1] at h2
    simp only [eval_C] at h2
    refine le_trans (le_of_eq ?_) h2
    rw [Nat.card_eq_fintype_card, Fintype.card_subtype]
  rw [Finset.card_univ, card_Fq] at h1
  have h3 : Nat.card {y : Fq // ∃ z inst', Instance.nTo1FixedHash ⟨shippedParams i, s⟩ (Vector.ofFn (Function.update x j z)) =
      .ok (y, inst')} = (Finset.univ.image fun z => (g 1).eval z).card := by
    rw [← Set.ncard_coe_finset]
    have : {y : Fq | ∃ z inst', Instance.nTo1FixedHash ⟨shippedParams i, s⟩ (Vector.ofFn (Function.update x j z)) =
      .ok (y, inst')} = ((Finset.univ.image fun z => (g 1).eval z : Finset Fq) : Set Fq) := by
      ext y
      rw [Set.mem_ofPred_eq, Finset.mem_coe, Finset.mem_image]
      constructor
      · rintro ⟨z, inst', h4⟩
        rw [h s z] at h4
        injection h4 with h4
        exact ⟨z, Finset.mem_univ _, congrArg Prod.fst h4⟩
      · rintro ⟨z, -, h4⟩
        exact ⟨z, _, by rw [h s z, h4]⟩
    rw [← this]; rfl
  rw [h3]
  by_contra hc
  push Not at hc
  have h5 : 17 ^ 39 * 2 ^ 92 < q := by decide +kernel
  have h6 := Nat.mul_le_mul_left (17 ^ 39) hc
  omega

/-! ## `hash_1` to `hash_7` -/

theorem perm377_preimages (i : Fin 7) (x : Fin (i.val + 2) → Fq) (j : Fin (i.val + 2)) (y : Fq) {h : Fq → R Fq}
    (hh : ∀ z, ∃ w, spec377 i (Function.update x j z) = some w ∧ h z = .ok (w 1)) : Nat.card {z : Fq // h z = .ok y} ≤ 17 ^ 39 := by
  obtain ⟨g, hg, he⟩ := perm377_degree i x j 1
  have h2 := card_eval_eq (g := g) (f := C y) (by rw [hg, natDegree_C]; norm_num)
  rw [hg] at h2
  simp only [eval_C] at h2
  refine le_trans (le_of_eq ?_) h2
  apply Nat.card_congr
  apply Equiv.subtypeEquivRight
  intro z
  obtain ⟨w, h3, h4⟩ := hh z
  rw [spec377_eq] at h3
  injection h3 with h3
  rw [h4, ← he z, h3]
  exact ⟨fun h => by injection h, fun h => by rw [h]⟩

theorem update_vec {n : Nat} {x w : Fin n → Fq} {j : Fin n} {z : Fq} (h : ∀ a, w a = if a = j then z else x a) : Function.update x j z = w := by
  funext a
  rw [Function.update_apply, h a]

/-- C72 for `hash_1`: with all arguments but one fixed, every field element is the digest of at most `17^39` values of that argument. -/
theorem C72_hash_1 (ds v1 y : Fq) :
    Nat.card {z : Fq // hash1 z v1 = .ok y} ≤ 17 ^ 39 ∧
    Nat.card {z : Fq // hash1 ds z = .ok y} ≤ 17 ^ 39 := by
  refine ⟨?_, ?_⟩
  · refine perm377_preimages 0 ![ds, v1] 0 y fun z => ?_
    rw [update_vec (w := ![z, v1]) (by intro a; fin_cases a <;> rfl)]
    exact C02_hash_1 z v1
  · refine perm377_preimages 0 ![ds, v1] 1 y fun z => ?_
    rw [update_vec (w := ![ds, z]) (by intro a; fin_cases a <;> rfl)]
    exact C02_hash_1 ds z

/-- C72 for `hash_2`: with all arguments but one fixed, every field element is the digest of at most `17^39` values of that argument. -/
theorem C72_hash_2 (ds v1 v2 y : Fq) :
    Nat.card {z : Fq // hash2 z (v1, v2) = .ok y} ≤ 17 ^ 39 ∧
    Nat.card {z : Fq // hash2 ds (z, v2) = .ok y} ≤ 17 ^ 39 ∧
    Nat.card {z : Fq // hash2 ds (v1, z) = .ok y} ≤ 17 ^ 39 := by
  refine ⟨?_, ?_, ?_⟩
  · refine perm377_preimages 1 ![ds, v1, v2] 0 y fun z => ?_
    rw [update_vec (w := ![z, v1, v2]) (by intro a; fin_cases a <;> rfl)]
    exact C02_hash_2 z (v1, v2)
  · refine perm377_preimages 1 ![ds, v1, v2] 1 y fun z => ?_
    rw [update_vec (w := ![ds, z, v2]) (by intro a; fin_cases a <;> rfl)]
    exact C02_hash_2 ds (z, v2)
  · refine perm377_preimages 1 ![ds, v1, v2] 2 y fun z => ?_
    rw [update_vec (w := ![ds, v1, z]) (by intro a; fin_cases a <;> rfl)]
    exact C02_hash_2 ds (v1, z)

/-- C72 for `hash_3`: with all arguments but one fixed, every field element is the digest of at most `17^39` values of that argument. -/
theorem C72_hash_3 (ds v1 v2 v3 y : Fq) :
    Nat.card {z : Fq // hash3 z (v1, v2, v3) = .ok y} ≤ 17 ^ 39 ∧
    Nat.card {z : Fq // hash3 ds (z, v2, v3) = .ok y} ≤ 17 ^ 39 ∧
    Nat.card {z : Fq // hash3 ds (v1, z, v3) = .ok y} ≤ 17 ^ 39 ∧
    Nat.card {z : Fq // hash3 ds (v1, v2, z) = .ok y} ≤ 17 ^ 39 := by
  refine ⟨?_, ?_, ?_, ?_⟩
  · refine perm377_preimages 2 ![ds, v1, v2, v3] 0 y fun z => ?_
    rw [update_vec (w := ![z, v1, v2, v3]) (by intro a; fin_cases a <;> rfl)]
    exact C02_hash_3 z (v1, v2, v3)
  · refine perm377_preimages 2 ![ds, v1, v2, v3] 1 y fun z => ?_
    rw [update_vec (w := ![ds, z, v2, v3]) (by intro a; fin_cases a <;> rfl)]
    exact C02_hash_3 ds (z, v2, v3)
  · refine perm377_preimages 2 ![ds, v1, v2, v3] 2 y fun z => ?_
    rw [update_vec (w := ![ds, v1, z, v3]) (by intro a; fin_cases a <;> rfl)]
    exact C02_hash_3 ds (v1, z, v3)
  · refine perm377_preimages 2 ![ds, v1, v2, v3] 3 y fun z => ?_
    rw [update_vec (w := ![ds, v1, v2, z]) (by intro a; fin_cases a <;> rfl)]
    exact C02_hash_3 ds (v1, v2, z)

/-- C72 for `hash_4`: with all arguments but one fixed, every field element is the digest of at most `17^39` values of that argument. -/
theorem C72_hash_4 (ds v1 v2 v3 v4 y : Fq) :
    Nat.card {z : Fq // hash4 z (v1, v2, v3, v4) = .ok y} ≤ 17 ^ 39 ∧
    Nat.card {z : Fq // hash4 ds (z, v2, v3, v4) = .ok y} ≤ 17 ^ 39 ∧
    Nat.card {z : Fq // hash4 ds (v1, z, v3, v4) = .ok y} ≤ 17 ^ 39 ∧
    Nat.card {z : Fq // hash4 ds (v1, v2, z, v4) = .ok y} ≤ 17 ^ 39 ∧
    Nat.card {z : Fq // hash4 ds (v1, v2, v3, z) = .ok y} ≤ 17 ^ 39 := by
  refine ⟨?_, ?_, ?_, ?_, ?_⟩
  · refine perm377_preimages 3 ![ds, v1, v2, v3, v4] 0 y fun z => ?_
    rw [update_vec (w := ![z, v1, v2, v3, v4]) (by intro a; fin_cases a <;> rfl)]
    exact C02_hash_4 z (v1, v2, v3, v4)
  · refine perm377_preimages 3 ![ds, v1, v2, v3, v4] 1 y fun z => ?_
    rw [update_vec (w := ![ds, z, v2, v3, v4]) (by intro a; fin_cases a <;> rfl)]
    exact C02_hash_4 ds (z, v2, v3, v4)
  · refine perm377_preimages 3 ![ds, v1, v2, v3, v4] 2 y fun z => ?_
    rw [update_vec (w := ![ds, v1, z, v3, v4]) (by intro a; fin_cases a <;> rfl)]
    exact C02_hash_4 ds (v1, z, v3, v4)
  · refine perm377_preimages 3 ![ds, v1, v2, v3, v4] 3 y fun z => ?_
    rw [update_vec (w := ![ds, v1, v2, z, v4]) (by intro a; fin_cases a <;> rfl)]
    exact C02_hash_4 ds (v1, v2, z, v4)
  · refine perm377_preimages 3 ![ds, v1, v2, v3, v4] 4 y fun z => ?_
    rw [update_vec (w := ![ds, v1, v2, v3, z]) (by intro a; fin_cases a <;> rfl)]
    exact C02_hash_4 ds (v1, v2, v3, z)

/-- C72 for `hash_5`: with all arguments but one fixed, every field element is the digest of at most `17^39` values of that argument. -/
theorem C72_hash_5 (ds v1 v2 v3 v4 v5 y : Fq) :
    Nat.card {z : Fq // hash5 z (v1, v2, v3, v4, v5) = .ok y} ≤ 17 ^ 39 ∧
    Nat.card {z : Fq // hash5 ds (z, v2, v3, v4, v5) = .ok y} ≤ 17 ^ 39 ∧
    Nat.card {z : Fq // hash5 ds (v1, z, v3, v4, v5) = .ok y} ≤ 17 ^ 39 ∧
    Nat.card {z : Fq // hash5 ds (v1, v2, z, v4, v5) = .ok y} ≤ 17 ^ 39 ∧
    Nat.card {z : Fq // hash5 ds (v1, v2, v3, z, v5) = .ok y} ≤ 17 ^ 39 ∧
    Nat.card {z : Fq // hash5 ds (v1, v2, v3, v4, z) = .ok y} ≤ 17 ^ 39 := by
  refine ⟨?_, ?_, ?_, ?_, ?_, ?_⟩
  · refine perm377_preimages 4 ![ds, v1, v2, v3, v4, v5] 0 y fun z => ?_
    rw [update_vec (w := ![z, v1, v2, v3, v4, v5]) (by intro a; fin_cases a <;> rfl)]
    exact C02_hash_5 z (v1, v2, v3, v4, v5)
  · refine perm377_preimages 4 ![ds, v1, v2, v3, v4, v5] 1 y fun z => ?_
    rw [update_vec (w := ![ds, z, v2, v3, v4, v5]) (by intro a; fin_cases a <;> rfl)]
    exact C02_hash_5 ds (z, v2, v3, v4, v5)
  · refine perm377_preimages 4 ![ds, v1, v2, v3, v4, v5] 2 y fun z => ?_
    rw [update_vec (w := ![ds, v1, z, v3, v4, v5]) (by intro a; fin_cases a <;> rfl)]
    exact C02_hash_5 ds (v1, z, v3, v4, v5)
  · refine perm377_preimages 4 ![ds, v1, v2, v3, v4, v5] 3 y fun z => ?_
    rw [update_vec (w := ![ds, v1, v2, z, v4, v5]) (by intro a; fin_cases a <;> rfl)]
    exact C02_hash_5 ds (v1, v2, z, v4, v5)
  · refine perm377_preimages 4 ![ds, v1, v2, v3, v4, v5] 4 y fun z => ?_
    rw [update_vec (w := ![ds, v1, v2, v3, z, v5]) (by intro a; fin_cases a <;> rfl)]
    exact C02_hash_5 ds (v1, v2, v3, z, v5)
  · refine perm377_preimages 4 ![ds, v1, v2, v3, v4, v5] 5 y fun z => ?_
    rw [update_vec (w := ![ds, v1, v2, v3, v4, z]) (by intro a; fin_cases a <;> rfl)]
    exact C02_hash_5 ds (v1, v2, v3, v4, z)

/-- C72 for `hash_6`: with all arguments but one fixed, every field element is the digest of at most `17^39` values of that argument. -/
theorem C72_hash_6 (ds v1 v2 v3 v4 v5 v6 y : Fq) :
    Nat.card {z : Fq // hash6 z (v1, v2, v3, v4, v5, v6) = .ok y} ≤ 17 ^ 39 ∧
    Nat.card {z : Fq // hash6 ds (z, v2, v3, v4, v5, v6) = .ok y} ≤ 17 ^ 39 ∧
    Nat.card {z : Fq // hash6 ds (v1, z, v3, v4, v5, v6) = .ok y} ≤ 17 ^ 39 ∧
    Nat.card {z : Fq // hash6 ds (v1, v2, z, v4, v5, v6) = .ok y} ≤ 17 ^ 39 ∧
    Nat.card {z : Fq // hash6 ds (v1, v2, v3, z, v5, v6) = .ok y} ≤ 17 ^ 39 ∧
    Nat.card {z : Fq // hash6 ds (v1, v2, v3, v4, z, v6) = .ok y} ≤ 17 ^ 39 ∧
    Nat.card {z : Fq // hash6 ds (v1, v2, v3, v4, v5, z) = .ok y} ≤ 17 ^ 39 := by
  refine ⟨?_, ?_, ?_, ?_, ?_, ?_, ?_⟩
  · refine perm377_preimages 5 ![ds, v1, v2, v3, v4, v5, v6] 0 y fun z => ?_
    rw [update_vec (w := ![z, v1, v2, v3, v4, v5, v6]) (by intro a; fin_cases a <;> rfl)]
    exact C02_hash_6 z (v1, v2, v3, v4, v5, v6)
  · refine perm377_preimages 5 ![ds, v1, v2, v3, v4, v5, v6] 1 y fun z => ?_
    rw [update_vec (w := ![ds, z, v2, v3, v4, v5, v6]) (by intro a; fin_cases a <;> rfl)]
    exact C02_hash_6 ds (z, v2, v3, v4, v5, v6)
  · refine perm377_preimages 5 ![ds, v1, v2, v3, v4, v5, v6] 2 y fun z => ?_
    rw [update_vec (w := ![ds, v1, z, v3, v4, v5, v6]) (by intro a; fin_cases a <;> rfl)]
    exact C02_hash_6 ds (v1, z, v3, v4, v5, v6)
  · refine perm377_preimages 5 ![ds, v1, v2, v3, v4, v5, v6] 3 y fun z => ?_
    rw [update_vec (w := ![ds, v1, v2, z, v4, v5, v6]) (by intro a; fin_cases a <;> rfl)]
    exact C02_hash_6 ds (v1, v2, z, v4, v5, v6)
  · refine perm377_preimages 5 ![ds, v1, v2, v3, v4, v5, v6] 4 y fun z => ?_
    rw [update_vec (w := ![ds, v1, v2, v3, z, v5, v6]) (by intro a; fin_cases a <;> rfl)]
    exact C02_hash_6 ds (v1, v2, v3, z, v5, v6)
  · refine perm377_preimages 5 ![ds, v1, v2, v3, v4, v5, v6] 5 y fun z => ?_
    rw [update_vec (w := ![ds, v1, v2, v3, v4, z, v6]) (by intro a; fin_cases a <;> rfl)]
    exact C02_hash_6 ds (v1, v2, v3, v4, z, v6)
  · refine perm377_preimages 5 ![ds, v1, v2, v3, v4, v5, v6] 6 y fun z => ?_
    rw [update_vec (w := ![ds, v1, v2, v3, v4, v5, z]) (by intro a; fin_cases a <;> rfl)]
    exact C02_hash_6 ds (v1, v2, v3, v4, v5, z)

/-- C72 for `hash_7`: with all arguments but one fixed, every field element is the digest of at most `17^39` values of that argument. -/
theorem C72_hash_7 (ds v1 v2 v3 v4 v5 v6 v7 y : Fq) :
    Nat.card {z : Fq // hash7 z (v1, v2, v3, v4, v5, v6, v7) = .ok y} ≤ 17 ^ 39 ∧
    Nat.card {z : Fq // hash7 ds (z, v2, v3, v4, v5, v6, v7) = .ok y} ≤ 17 ^ 39 ∧
    Nat.card {z : Fq // hash7 ds (v1, z, v3, v4, v5, v6, v7) = .ok y} ≤ 17 ^ 39 ∧
    Nat.card {z : Fq // hash7 ds (v1, v2, z, v4, v5, v6, v7) = .ok y} ≤ 17 ^ 39 ∧
    Nat.card {z : Fq // hash7 ds (v1, v2, v3, z, v5, v6, v7) = .ok y} ≤ 17 ^ 39 ∧
    Nat.card {z : Fq // hash7 ds (v1, v2, v3, v4, z, v6, v7) = .ok y} ≤ 17 ^ 39 ∧
    Nat.card {z : Fq // hash7 ds (v1, v2, v3, v4, v5, z, v7) = .ok y} ≤ 17 ^ 39 ∧
    Nat.card {z : Fq // hash7 ds (v1, v2, v3, v4, v5, v6, z) = .ok y} ≤ 17 ^ 39 := by
  refine ⟨?_, ?_, ?_, ?_, ?_, ?_, ?_, ?_⟩
  · refine perm377_preimages 6 ![ds, v1, v2, v3, v4, v5, v6, v7] 0 y fun z => ?_
    rw [update_vec (w := ![z, v1, v2, v3, v4, v5, v6, v7]) (by intro a; fin_cases a <;> rfl)]
    exact C02_hash_7 z (v1, v2, v3, v4, v5, v6, v7)
  · refine perm377_preimages 6 ![ds, v1, v2, v3, v4, v5, v6, v7] 1 y fun z => ?_
    rw [update_vec (w := ![ds, z, v2, v3, v4, v5, v6, v7]) (by intro a; fin_cases a <;> rfl)]
    exact C02_hash_7 ds (z, v2, v3, v4, v5, v6, v7)
  · refine perm377_preimages 6 ![ds, v1, v2, v3, v4, v5, v6, v7] 2 y fun z => ?_
    rw [update_vec (w := ![ds, v1, z, v3, v4, v5, v6, v7]) (by intro a; fin_cases a <;> rfl)]
    exact C02_hash_7 ds (v1, z, v3, v4, v5, v6, v7)
  · refine perm377_preimages 6 ![ds, v1, v2, v3, v4, v5, v6, v7] 3 y fun z => ?_
    rw [update_vec (w := ![ds, v1, v2, z, v4, v5, v6, v7]) (by intro a; fin_cases a <;> rfl)]
    exact C02_hash_7 ds (v1, v2, z, v4, v5, v6, v7)
  · refine perm377_preimages 6 ![ds, v1, v2, v3, v4, v5, v6, v7] 4 y fun z => ?_
    rw [update_vec (w := ![ds, v1, v2, v3, z, v5, v6, v7]) (by intro a; fin_cases a <;> rfl)]
    exact C02_hash_7 ds (v1, v2, v3, z, v5, v6, v7)
  · refine perm377_preimages 6 ![ds, v1, v2, v3, v4, v5, v6, v7] 5 y fun z => ?_
    rw [update_vec (w := ![ds, v1, v2, v3, v4, z, v6, v7]) (by intro a; fin_cases a <;> rfl)]
    exact C02_hash_7 ds (v1, v2, v3, v4, z, v6, v7)
  · refine perm377_preimages 6 ![ds, v1, v2, v3, v4, v5, v6, v7] 6 y fun z => ?_
    rw [update_vec (w := ![ds, v1, v2, v3, v4, v5, z, v7]) (by intro a; fin_cases a <;> rfl)]
    exact C02_hash_7 ds (v1, v2, v3, v4, v5, z, v7)
  · refine perm377_preimages 6 ![ds, v1, v2, v3, v4, v5, v6, v7] 7 y fun z => ?_
    rw [update_vec (w := ![ds, v1, v2, v3, v4, v5, v6, z]) (by intro a; fin_cases a <;> rfl)]
    exact C02_hash_7 ds (v1, v2, v3, v4, v5, v6, z)

/-! ## Generated parameters -/

section
variable {F : Type} [Field F] [DecidableEq F] {k rows nmds nhat nround npart : Nat}

/-- **C72, generated parameters.** If the S-box is a power, the digest is a polynomial of degree at most `e^(r_F + r_P)` in any one input
word; its coefficient at that power does not depend on the other words or on the round constants: it is given by the matrix alone. -/
theorem C72_generated {L : Libm} {debug : Bool} {nlimbs p security : Nat} [CharP F p] {allow : Bool}
    {P : Params F (k + 1) k nmds nhat rows (k + 1) nround npart} (g : GeneratedBy L debug nlimbs p security allow P)
    {e : Nat} (he : P.alpha = .exponent e) (j : Fin (k + 1)) :
    ∃ c : F, ∀ x : Fin (k + 1) → F, ∃ f : F[X], f.natDegree ≤ e ^ (P.rounds.rF + P.rounds.rP) ∧
      f.coeff (e ^ (P.rounds.rF + P.rounds.rP)) = c ∧
      ∀ (s : Vector F (k + 1)) (z : F), ∃ inst', Instance.nTo1FixedHash ⟨P, s⟩ (Vector.ofFn (Function.update x j z)) =
        .ok (f.eval z, inst') := by
  have r := v1Generate_result g.accurate g.log2_two debug g.limbs g.bits g.nmds_eq g.nhat_eq g.nround_eq g.run
  have hr := alphaGenerate_range (he ▸ r.alpha)
  have hw := r.width
  have hsum : P.rounds.rF / 2 + P.rounds.rP + P.rounds.rF / 2 = P.rounds.rF + P.rounds.rP := by
    rcases r.full with h | h <;> omega
  have hc := r.consistent
  refine ⟨leadRounds e (P.mds.toM g.nmds_eq) (fullFlags (P.rounds.rF / 2) P.rounds.rP) (Pi.single j 1) ⟨1, by omega⟩, fun x => ?_⟩
  obtain ⟨Q, h1, h2⟩ := permE_poly (e := e) (P.mds.toM g.nmds_eq) (rf := P.rounds.rF / 2) (rp := P.rounds.rP)
    (fun r => P.arc.toM g.nround_eq ⟨r.val, lt_of_lt_of_le r.isLt hc.rows_le⟩) (by omega) x j
  rw [hsum] at h1
  refine ⟨Q ⟨1, by omega⟩, (h1 _).1, (h1 _).2, fun s z => ?_⟩
  rw [nTo1FixedHash_eq P g.nmds_eq g.nround_eq hc (by omega), he, textbook_exponent, h2 z]
  exact ⟨_, congrArg Except.ok (Prod.ext (Vector.getElem_ofFn _) rfl)⟩

end

/-! ## The hypotheses are met -/

/-- `hash_2`, the second message word variable. -/
example : ∃ g : Fin 3 → Fq[X], (∀ a, (g a).natDegree = 17 ^ 39) ∧
    ∀ (s : Vector Fq 3) (z : Fq), Instance.nTo1FixedHash ⟨shippedParams 1, s⟩ (Vector.ofFn (Function.update ![1, 2, 3] 2 z)) =
      .ok ((g 1).eval z, ⟨shippedParams 1, Vector.ofFn fun a => (g a).eval z⟩) := C72_degree 1 ![1, 2, 3] 2

/-- The shipped parameters are generated, with exponent 17. -/
example (i : Fin 7) : GeneratedBy roundedLibm true 4 q 128 true (shippedParams i) ∧ (shippedParams i).alpha = .exponent 17 :=
  ⟨⟨roundedLibm_accurate, by
    show rne (Real.logb 2 2) = 1
    rw [Real.logb_self_eq_one (by norm_num)]
    simpa using rne_natCast (n := 1) (by norm_num), by norm_num, by decide +kernel, rfl, rfl, rfl,
    C20_shipped _ roundedLibm_accurate true true i⟩, shipped_alpha i⟩

end Poseidon
