import Verif.Props.Degree
import Verif.Params.Lead

/-!
# Separation of positions, arities and domain separators (C73)

How often can two hashes with the same variable word agree?  If the word stands at different positions, or the hashes are of different
arity, the two polynomials of C72 have different leading coefficients; if the position is the same and another word differs, for instance
the domain separator, the leading coefficients cancel and the next coefficient that depends on the other word is used.
-/

set_option linter.unusedSectionVars false

namespace Poseidon

open Polynomial

/-! ## The leading coefficients -/

/-- Row `l` holds the leading coefficients of word 1, for each input word. -/
def checkRow (t : Nat) (m : List Nat) (fulls : List Bool) (l : List Nat) : Bool :=
  allN t fun j => forceL (fulls.foldl (fun L full => leadN t m full L) (unitN t j)) fun L => Nat.beq (nth L 1 % q) (nth l j % q)

theorem checkRow_spec {t : Nat} {m : List Nat} {fulls : List Bool} {l : List Nat} (h : checkRow t m fulls l = true) (j o : Fin t)
    (ho : o.val = 1) : leadRounds 17 (natM t t m) fulls (Pi.single j 1) o = (nth l j : Nat) := by
  have h1 := allN_iff.1 h j j.isLt
  rw [forceL_eq] at h1
  have h2 := Nat.eq_of_beq_eq_true h1
  rw [← unitN_cast, leadRounds_cast, natV, ho, ← cast_mod, h2, cast_mod]

/-- The table holds the leading coefficients of the digest. -/
theorem lead_value (i : Fin 7) (j : Fin (i.val + 2)) :
    leadRounds 17 (cauchyMds Fq (i.val + 2)) (fullFlags 4 31) (Pi.single j 1) 1 = (nth (nthL leadTable i) j : Nat) := by
  have hM : ∀ (m : List Nat), (shippedParams i).mds.toM rfl = natM (i.val + 2) (i.val + 2) m →
      checkRow (i.val + 2) m (fullFlags 4 31) (nthL leadTable i) = true →
      leadRounds 17 (cauchyMds Fq (i.val + 2)) (fullFlags 4 31) (Pi.single j 1) 1 = (nth (nthL leadTable i) j : Nat) := by
    intro m h1 h2
    rw [← shipped_mds_cauchy, h1]
    exact checkRow_spec h2 j 1 rfl
  fin_cases i
  · exact hM (canons rate1_mds) (vecM _ _ rfl) (by decide +kernel)
  · exact hM (canons rate2_mds) (vecM _ _ rfl) (by decide +kernel)
  · exact hM (canons rate3_mds) (vecM _ _ rfl) (by decide +kernel)
  · exact hM (canons rate4_mds) (vecM _ _ rfl) (by decide +kernel)
  · exact hM (canons rate5_mds) (vecM _ _ rfl) (by decide +kernel)
  · exact hM (canons rate6_mds) (vecM _ _ rfl) (by decide +kernel)
  · exact hM (canons rate7_mds) (vecM _ _ rfl) (by decide +kernel)

/-- No two entries of the table are equal. -/
def checkDistinct (l : List (List Nat)) : Bool :=
  allN 7 fun i => allN (i + 2) fun j => allN 7 fun i' => allN (i' + 2) fun j' =>
    (Nat.beq i i' && Nat.beq j j') || !Nat.beq (nth (nthL l i) j % q) (nth (nthL l i') j' % q)

theorem lead_distinct (i i' : Fin 7) (j : Fin (i.val + 2)) (j' : Fin (i'.val + 2)) (h : i.val ≠ i'.val ∨ j.val ≠ j'.val) :
    leadRounds 17 (cauchyMds Fq (i.val + 2)) (fullFlags 4 31) (Pi.single j 1) 1 ≠
      leadRounds 17 (cauchyMds Fq (i'.val + 2)) (fullFlags 4 31) (Pi.single j' 1) 1 := by
  rw [lead_value, lead_value]
  intro h0
  have hc : checkDistinct leadTable = true := by decide +kernel
  have h1 := allN_iff.1 (allN_iff.1 (allN_iff.1 (allN_iff.1 hc i i.isLt) j j.isLt) i' i'.isLt) j' j'.isLt
  rw [Bool.or_eq_true, Bool.and_eq_true] at h1
  rcases h1 with ⟨h1, h2⟩ | h1
  · rcases h with h | h
    · exact h (Nat.eq_of_beq_eq_true h1)
    · exact h (Nat.eq_of_beq_eq_true h2)
  · have h3 := (ZMod.natCast_eq_natCast_iff _ _ q).1 h0
    rw [show nth (nthL leadTable i) j % q = nth (nthL leadTable i') j' % q from h3, show Nat.beq _ _ = true from Nat.beq_refl _] at h1
    exact absurd h1 (by decide)

theorem shipped_delta (i : Fin 7) (a k j : Fin (i.val + 2)) (hkj : k ≠ j) :
    deltaRounds 17 (cauchyMds Fq (i.val + 2)) (fullFlags 4 31).tail
      (leadRound 17 (cauchyMds Fq (i.val + 2)) true (Pi.single j 1)) (fun a => cauchyMds Fq (i.val + 2) a k) a ≠ 0 := by
  have hM : ∀ (m : List Nat), (shippedParams i).mds.toM rfl = natM (i.val + 2) (i.val + 2) m →
      checkDelta (i.val + 2) m (fullFlags 4 31).tail = true →
      deltaRounds 17 (cauchyMds Fq (i.val + 2)) (fullFlags 4 31).tail
        (leadRound 17 (cauchyMds Fq (i.val + 2)) true (Pi.single j 1)) (fun a => cauchyMds Fq (i.val + 2) a k) a ≠ 0 := by
    intro m h1 h2
    rw [← shipped_mds_cauchy, h1]
    exact checkDelta_spec h2 a k j hkj
  fin_cases i
  · exact hM (canons rate1_mds) (vecM _ _ rfl) (by decide +kernel)
  · exact hM (canons rate2_mds) (vecM _ _ rfl) (by decide +kernel)
  · exact hM (canons rate3_mds) (vecM _ _ rfl) (by decide +kernel)
  · exact hM (canons rate4_mds) (vecM _ _ rfl) (by decide +kernel)
  · exact hM (canons rate5_mds) (vecM _ _ rfl) (by decide +kernel)
  · exact hM (canons rate6_mds) (vecM _ _ rfl) (by decide +kernel)
  · exact hM (canons rate7_mds) (vecM _ _ rfl) (by decide +kernel)

/-! ## Agreements -/

theorem card_roots_le {f g : Fq[X]} {d : Nat} (hd : (f - g).natDegree ≤ d) (h0 : (f - g).coeff d ≠ 0) :
    Nat.card {z : Fq // f.eval z = g.eval z} ≤ d := by
  have hne : f - g ≠ 0 := fun h => h0 (by rw [h, coeff_zero])
  have h1 : {z : Fq | f.eval z = g.eval z} = ((f - g).roots.toFinset : Set Fq) := by
    ext z
    rw [Set.mem_ofPred_eq, Finset.mem_coe, Multiset.mem_toFinset, mem_roots hne, IsRoot.def, eval_sub, sub_eq_zero]
  have h2 : Nat.card {z : Fq // f.eval z = g.eval z} = (f - g).roots.toFinset.card := by
    rw [← Set.ncard_coe_finset, ← h1]; rfl
  rw [h2]
  exact (Multiset.toFinset_card_le _).trans ((card_roots' _).trans hd)

theorem perm377_positions (i i' : Fin 7) (x : Fin (i.val + 2) → Fq) (x' : Fin (i'.val + 2) → Fq) (j : Fin (i.val + 2)) (j' : Fin (i'.val + 2))
    (h : i.val ≠ i'.val ∨ j.val ≠ j'.val) :
    Nat.card {z : Fq // perm377 i (Function.update x j z) 1 = perm377 i' (Function.update x' j' z) 1} ≤ 17 ^ 39 := by
  obtain ⟨Q, h1, h2⟩ := permE_poly (e := 17) (cauchyMds Fq (i.val + 2)) (rf := 4) (rp := 31) (shippedArc i) (by norm_num) x j
  obtain ⟨Q', h1', h2'⟩ := permE_poly (e := 17) (cauchyMds Fq (i'.val + 2)) (rf := 4) (rp := 31) (shippedArc i') (by norm_num) x' j'
  have h3 := card_roots_le (f := Q 1) (g := Q' 1) (d := 17 ^ 39) ((natDegree_sub_le _ _).trans (max_le (h1 1).1 (h1' 1).1)) (by
    rw [coeff_sub, sub_ne_zero]
    have e1 := (h1 1).2
    have e2 := (h1' 1).2
    intro h4
    exact lead_distinct i i' j j' h (e1.symm.trans (h4.trans e2)))
  refine le_trans (le_of_eq ?_) h3
  apply Nat.card_congr
  apply Equiv.subtypeEquivRight
  intro z
  rw [perm377, perm377, h2 z, h2' z]

theorem perm377_one_word (i : Fin 7) {x x' : Fin (i.val + 2) → Fq} {k j : Fin (i.val + 2)} (hkj : k ≠ j) (hk : x k ≠ x' k)
    (hx : ∀ a, a ≠ k → x a = x' a) (a : Fin (i.val + 2)) :
    Nat.card {z : Fq // perm377 i (Function.update x j z) a = perm377 i (Function.update x' j z) a} ≤ 17 ^ 39 - 17 := by
  obtain ⟨w, Q, Q', hw, h1, h2, h3⟩ := permE_delta (e := 17) (cauchyMds Fq (i.val + 2)) (rf := 4) (rp := 31) (by norm_num) (shippedArc i)
    (by norm_num) hkj hx
  have hw0 : w ≠ 0 := by
    rw [hw, sub_ne_zero]
    intro h
    exact hk (add_right_cancel (pow17_bijective.1 h))
  have h4 := card_roots_le (f := Q a) (g := Q' a) (d := 17 ^ 39 - 17) (h1 a).1 (by
    intro h
    have := (h1 a).2.symm.trans h
    rw [Pi.smul_apply, smul_eq_mul] at this
    exact (mul_ne_zero hw0 (shipped_delta i a k j hkj)) this)
  refine le_trans (le_of_eq ?_) h4
  apply Nat.card_congr
  apply Equiv.subtypeEquivRight
  intro z
  rw [perm377, h2 z, h3 z]

/-- **C73, positions and arities.** Take two shipped rates and an input word for each, not the same word of the same rate.  Whatever the
other words, the digests with the same value in the two words agree for at most `17^39` values: fewer than one in `2^92`. -/
theorem C73_positions (i i' : Fin 7) (s : Vector Fq (i.val + 2)) (s' : Vector Fq (i'.val + 2)) (x : Fin (i.val + 2) → Fq)
    (x' : Fin (i'.val + 2) → Fq) (j : Fin (i.val + 2)) (j' : Fin (i'.val + 2)) (h : i.val ≠ i'.val ∨ j.val ≠ j'.val) :
    Nat.card {z : Fq // ∃ y inst inst',
      Instance.nTo1FixedHash ⟨shippedParams i, s⟩ (Vector.ofFn (Function.update x j z)) = .ok (y, inst) ∧
      Instance.nTo1FixedHash ⟨shippedParams i', s'⟩ (Vector.ofFn (Function.update x' j' z)) = .ok (y, inst')} ≤ 17 ^ 39 ∧
    17 ^ 39 * 2 ^ 92 < q := by
  refine ⟨?_, by decide +kernel⟩
  refine le_trans (le_of_eq ?_) (perm377_positions i i' x x' j j' h)
  apply Nat.card_congr
  apply Equiv.subtypeEquivRight
  intro z
  rw [nTo1_perm377, nTo1_perm377]
  constructor
  · rintro ⟨y, o, o', h1, h2⟩
    injection h1 with h1
    injection h2 with h2
    exact (congrArg Prod.fst h1).trans (congrArg Prod.fst h2).symm
  · intro h1
    exact ⟨_, _, _, rfl, by rw [h1]⟩

/-- **C73, one other word.** Two inputs of one shipped rate that differ in one word: with the same value in any other word, the digests
agree for at most `17^39 - 17` values. -/
theorem C73_one_word (i : Fin 7) (s s' : Vector Fq (i.val + 2)) {x x' : Fin (i.val + 2) → Fq} {k j : Fin (i.val + 2)} (hkj : k ≠ j)
    (hk : x k ≠ x' k) (hx : ∀ a, a ≠ k → x a = x' a) :
    Nat.card {z : Fq // ∃ y inst inst',
      Instance.nTo1FixedHash ⟨shippedParams i, s⟩ (Vector.ofFn (Function.update x j z)) = .ok (y, inst) ∧
      Instance.nTo1FixedHash ⟨shippedParams i, s'⟩ (Vector.ofFn (Function.update x' j z)) = .ok (y, inst')} ≤ 17 ^ 39 - 17 := by
  refine le_trans (le_of_eq ?_) (perm377_one_word i hkj hk hx 1)
  apply Nat.card_congr
  apply Equiv.subtypeEquivRight
  intro z
  rw [nTo1_perm377, nTo1_perm377]
  constructor
  · rintro ⟨y, o, o', h1, h2⟩
    injection h1 with h1
    injection h2 with h2
    exact (congrArg Prod.fst h1).trans (congrArg Prod.fst h2).symm
  · intro h1
    exact ⟨_, _, _, rfl, by rw [h1]⟩

/-! ## `hash_1` to `hash_7` -/

theorem hash_eq_iff {i i' : Fin 7} {x : Fin (i.val + 2) → Fq} {x' : Fin (i'.val + 2) → Fq} {h h' : R Fq}
    (hh : ∃ w, spec377 i x = some w ∧ h = .ok (w 1)) (hh' : ∃ w, spec377 i' x' = some w ∧ h' = .ok (w 1)) :
    h = h' ↔ perm377 i x 1 = perm377 i' x' 1 := by
  obtain ⟨w, h1, h2⟩ := hh
  obtain ⟨w', h1', h2'⟩ := hh'
  rw [spec377_eq] at h1 h1'
  injection h1 with h1
  injection h1' with h1'
  rw [h2, h2', h1, h1']
  exact ⟨fun h => by injection h, fun h => by rw [h]⟩

theorem hash_positions (i i' : Fin 7) (x : Fin (i.val + 2) → Fq) (x' : Fin (i'.val + 2) → Fq) (j : Fin (i.val + 2)) (j' : Fin (i'.val + 2))
    (hne : i.val ≠ i'.val ∨ j.val ≠ j'.val) {h h' : Fq → R Fq}
    (hh : ∀ z, ∃ w, spec377 i (Function.update x j z) = some w ∧ h z = .ok (w 1))
    (hh' : ∀ z, ∃ w, spec377 i' (Function.update x' j' z) = some w ∧ h' z = .ok (w 1)) :
    Nat.card {z : Fq // h z = h' z} ≤ 17 ^ 39 := by
  refine le_trans (le_of_eq ?_) (perm377_positions i i' x x' j j' hne)
  exact Nat.card_congr (Equiv.subtypeEquivRight fun z => hash_eq_iff (hh z) (hh' z))

theorem hash_one_word (i : Fin 7) {x x' : Fin (i.val + 2) → Fq} {k j : Fin (i.val + 2)} (hkj : k ≠ j) (hk : x k ≠ x' k)
    (hx : ∀ a, a ≠ k → x a = x' a) {h h' : Fq → R Fq}
    (hh : ∀ z, ∃ w, spec377 i (Function.update x j z) = some w ∧ h z = .ok (w 1))
    (hh' : ∀ z, ∃ w, spec377 i (Function.update x' j z) = some w ∧ h' z = .ok (w 1)) :
    Nat.card {z : Fq // h z = h' z} ≤ 17 ^ 39 - 17 := by
  refine le_trans (le_of_eq ?_) (perm377_one_word i hkj hk hx 1)
  exact Nat.card_congr (Equiv.subtypeEquivRight fun z => hash_eq_iff (hh z) (hh' z))

/-- **C73, `hash_1`.** With different domain separators, equal messages have equal digests for at most `17^39 - 17` values of any one
message word. -/
theorem C73_domain_1 {ds ds' : Fq} (hds : ds ≠ ds') (v1 : Fq) :
    Nat.card {z : Fq // hash1 ds z = hash1 ds' z} ≤ 17 ^ 39 - 17 := by
  refine hash_one_word 0 (x := ![ds, v1]) (x' := ![ds', v1]) (k := 0) (j := 1) (by decide) hds
    (by intro a ha; fin_cases a <;> first | exact absurd rfl ha | rfl) (fun z => ?_) fun z => ?_
  · rw [update_vec (w := ![ds, z]) (by intro a; fin_cases a <;> rfl)]
    exact C02_hash_1 ds z
  · rw [update_vec (w := ![ds', z]) (by intro a; fin_cases a <;> rfl)]
    exact C02_hash_1 ds' z

/-- **C73, `hash_2`.** With different domain separators, equal messages have equal digests for at most `17^39 - 17` values of any one
message word. -/
theorem C73_domain_2 {ds ds' : Fq} (hds : ds ≠ ds') (v1 v2 : Fq) :
    Nat.card {z : Fq // hash2 ds (z, v2) = hash2 ds' (z, v2)} ≤ 17 ^ 39 - 17 ∧
    Nat.card {z : Fq // hash2 ds (v1, z) = hash2 ds' (v1, z)} ≤ 17 ^ 39 - 17 := by
  refine ⟨?_, ?_⟩
  · refine hash_one_word 1 (x := ![ds, v1, v2]) (x' := ![ds', v1, v2]) (k := 0) (j := 1) (by decide) hds
      (by intro a ha; fin_cases a <;> first | exact absurd rfl ha | rfl) (fun z => ?_) fun z => ?_
    · rw [update_vec (w := ![ds, z, v2]) (by intro a; fin_cases a <;> rfl)]
      exact C02_hash_2 ds (z, v2)
    · rw [update_vec (w := ![ds', z, v2]) (by intro a; fin_cases a <;> rfl)]
      exact C02_hash_2 ds' (z, v2)
  · refine hash_one_word 1 (x := ![ds, v1, v2]) (x' := ![ds', v1, v2]) (k := 0) (j := 2) (by decide) hds
      (by intro a ha; fin_cases a <;> first | exact absurd rfl ha | rfl) (fun z => ?_) fun z => ?_
    · rw [update_vec (w := ![ds, v1, z]) (by intro a; fin_cases a <;> rfl)]
      exact C02_hash_2 ds (v1, z)
    · rw [update_vec (w := ![ds', v1, z]) (by intro a; fin_cases a <;> rfl)]
      exact C02_hash_2 ds' (v1, z)

/-- **C73, `hash_3`.** With different domain separators, equal messages have equal digests for at most `17^39 - 17` values of any one
message word. -/
theorem C73_domain_3 {ds ds' : Fq} (hds : ds ≠ ds') (v1 v2 v3 : Fq) :
    Nat.card {z : Fq // hash3 ds (z, v2, v3) = hash3 ds' (z, v2, v3)} ≤ 17 ^ 39 - 17 ∧
    Nat.card {z : Fq // hash3 ds (v1, z, v3) = hash3 ds' (v1, z, v3)} ≤ 17 ^ 39 - 17 ∧
    Nat.card {z : Fq // hash3 ds (v1, v2, z) = hash3 ds' (v1, v2, z)} ≤ 17 ^ 39 - 17 := by
  refine ⟨?_, ?_, ?_⟩
  · refine hash_one_word 2 (x := ![ds, v1, v2, v3]) (x' := ![ds', v1, v2, v3]) (k := 0) (j := 1) (by decide) hds
      (by intro a ha; fin_cases a <;> first | exact absurd rfl ha | rfl) (fun z => ?_) fun z => ?_
    · rw [update_vec (w := ![ds, z, v2, v3]) (by intro a; fin_cases a <;> rfl)]
      exact C02_hash_3 ds (z, v2, v3)
    · rw [update_vec (w := ![ds', z, v2, v3]) (by intro a; fin_cases a <;> rfl)]
      exact C02_hash_3 ds' (z, v2, v3)
  · refine hash_one_word 2 (x := ![ds, v1, v2, v3]) (x' := ![ds', v1, v2, v3]) (k := 0) (j := 2) (by decide) hds
      (by intro a ha; fin_cases a <;> first | exact absurd rfl ha | rfl) (fun z => ?_) fun z => ?_
    · rw [update_vec (w := ![ds, v1, z, v3]) (by intro a; fin_cases a <;> rfl)]
      exact C02_hash_3 ds (v1, z, v3)
    · rw [update_vec (w := ![ds', v1, z, v3]) (by intro a; fin_cases a <;> rfl)]
      exact C02_hash_3 ds' (v1, z, v3)
  · refine hash_one_word 2 (x := ![ds, v1, v2, v3]) (x' := ![ds', v1, v2, v3]) (k := 0) (j := 3) (by decide) hds
      (by intro a ha; fin_cases a <;> first | exact absurd rfl ha | rfl) (fun z => ?_) fun z => ?_
    · rw [update_vec (w := ![ds, v1, v2, z]) (by intro a; fin_cases a <;> rfl)]
      exact C02_hash_3 ds (v1, v2, z)
    · rw [update_vec (w := ![ds', v1, v2, z]) (by intro a; fin_cases a <;> rfl)]
      exact C02_hash_3 ds' (v1, v2, z)

/-- **C73, `hash_4`.** With different domain separators, equal messages have equal digests for at most `17^39 - 17` values of any one
message word. -/
theorem C73_domain_4 {ds ds' : Fq} (hds : ds ≠ ds') (v1 v2 v3 v4 : Fq) :
    Nat.card {z : Fq // hash4 ds (z, v2, v3, v4) = hash4 ds' (z, v2, v3, v4)} ≤ 17 ^ 39 - 17 ∧
    Nat.card {z : Fq // hash4 ds (v1, z, v3, v4) = hash4 ds' (v1, z, v3, v4)} ≤ 17 ^ 39 - 17 ∧
    Nat.card {z : Fq // hash4 ds (v1, v2, z, v4) = hash4 ds' (v1, v2, z, v4)} ≤ 17 ^ 39 - 17 ∧
    Nat.card {z : Fq // hash4 ds (v1, v2, v3, z) = hash4 ds' (v1, v2, v3, z)} ≤ 17 ^ 39 - 17 := by
  refine ⟨?_, ?_, ?_, ?_⟩
  · refine hash_one_word 3 (x := ![ds, v1, v2, v3, v4]) (x' := ![ds', v1, v2, v3, v4]) (k := 0) (j := 1) (by decide) hds
      (by intro a ha; fin_cases a <;> first | exact absurd rfl ha | rfl) (fun z => ?_) fun z => ?_
    · rw [update_vec (w := ![ds, z, v2, v3, v4]) (by intro a; fin_cases a <;> rfl)]
      exact C02_hash_4 ds (z, v2, v3, v4)
    · rw [update_vec (w := ![ds', z, v2, v3, v4]) (by intro a; fin_cases a <;> rfl)]
      exact C02_hash_4 ds' (z, v2, v3, v4)
  · refine hash_one_word 3 (x := ![ds, v1, v2, v3, v4]) (x' := ![ds', v1, v2, v3, v4]) (k := 0) (j := 2) (by decide) hds
      (by intro a ha; fin_cases a <;> first | exact absurd rfl ha | rfl) (fun z => ?_) fun z => ?_
    · rw [update_vec (w := ![ds, v1, z, v3, v4]) (by intro a; fin_cases a <;> rfl)]
      exact C02_hash_4 ds (v1, z, v3, v4)
    · rw [update_vec (w := ![ds', v1, z, v3, v4]) (by intro a; fin_cases a <;> rfl)]
      exact C02_hash_4 ds' (v1, z, v3, v4)
  · refine hash_one_word 3 (x := ![ds, v1, v2, v3, v4]) (x' := ![ds', v1, v2, v3, v4]) (k := 0) (j := 3) (by decide) hds
      (by intro a ha; fin_cases a <;> first | exact absurd rfl ha | rfl) (fun z => ?_) fun z => ?_
    · rw [update_vec (w := ![ds, v1, v2, z, v4]) (by intro a; fin_cases a <;> rfl)]
      exact C02_hash_4 ds (v1, v2, z, v4)
    · rw [update_vec (w := ![ds', v1, v2, z, v4]) (by intro a; fin_cases a <;> rfl)]
      exact C02_hash_4 ds' (v1, v2, z, v4)
  · refine hash_one_word 3 (x := ![ds, v1, v2, v3, v4]) (x' := ![ds', v1, v2, v3, v4]) (k := 0) (j := 4) (by decide) hds
      (by intro a ha; fin_cases a <;> first | exact absurd rfl ha | rfl) (fun z => ?_) fun z => ?_
    · rw [update_vec (w := ![ds, v1, v2, v3, z]) (by intro a; fin_cases a <;> rfl)]
      exact C02_hash_4 ds (v1, v2, v3, z)
    · rw [update_vec (w := ![ds', v1, v2, v3, z]) (by intro a; fin_cases a <;> rfl)]
      exact C02_hash_4 ds' (v1, v2, v3, z)

/-- **C73, `hash_5`.** With different domain separators, equal messages have equal digests for at most `17^39 - 17` values of any one
message word. -/
theorem C73_domain_5 {ds ds' : Fq} (hds : ds ≠ ds') (v1 v2 v3 v4 v5 : Fq) :
    Nat.card {z : Fq // hash5 ds (z, v2, v3, v4, v5) = hash5 ds' (z, v2, v3, v4, v5)} ≤ 17 ^ 39 - 17 ∧
    Nat.card {z : Fq // hash5 ds (v1, z, v3, v4, v5) = hash5 ds' (v1, z, v3, v4, v5)} ≤ 17 ^ 39 - 17 ∧
    Nat.card {z : Fq // hash5 ds (v1, v2, z, v4, v5) = hash5 ds' (v1, v2, z, v4, v5)} ≤ 17 ^ 39 - 17 ∧
    Nat.card {z : Fq // hash5 ds (v1, v2, v3, z, v5) = hash5 ds' (v1, v2, v3, z, v5)} ≤ 17 ^ 39 - 17 ∧
    Nat.card {z : Fq // hash5 ds (v1, v2, v3, v4, z) = hash5 ds' (v1, v2, v3, v4, z)} ≤ 17 ^ 39 - 17 := by
  refine ⟨?_, ?_, ?_, ?_, ?_⟩
  · refine hash_one_word 4 (x := ![ds, v1, v2, v3, v4, v5]) (x' := ![ds', v1, v2, v3, v4, v5]) (k := 0) (j := 1) (by decide) hds
      (by intro a ha; fin_cases a <;> first | exact absurd rfl ha | rfl) (fun z => ?_) fun z => ?_
    · rw [update_vec (w := ![ds, z, v2, v3, v4, v5]) (by intro a; fin_cases a <;> rfl)]
      exact C02_hash_5 ds (z, v2, v3, v4, v5)
    · rw [update_vec (w := ![ds', z, v2, v3, v4, v5]) (by intro a; fin_cases a <;> rfl)]
      exact C02_hash_5 ds' (z, v2, v3, v4, v5)
  · refine hash_one_word 4 (x := ![ds, v1, v2, v3, v4, v5]) (x' := ![ds', v1, v2, v3, v4, v5]) (k := 0) (j := 2) (by decide) hds
      (by intro a ha; fin_cases a <;> first | exact absurd rfl ha | rfl) (fun z => ?_) fun z => ?_
    · rw [update_vec (w := ![ds, v1, z, v3, v4, v5]) (by intro a; fin_cases a <;> rfl)]
      exact C02_hash_5 ds (v1, z, v3, v4, v5)
    · rw [update_vec (w := ![ds', v1, z, v3, v4, v5]) (by intro a; fin_cases a <;> rfl)]
      exact C02_hash_5 ds' (v1, z, v3, v4, v5)
  · refine hash_one_word 4 (x := ![ds, v1, v2, v3, v4, v5]) (x' := ![ds', v1, v2, v3, v4, v5]) (k := 0) (j := 3) (by decide) hds
      (by intro a ha; fin_cases a <;> first | exact absurd rfl ha | rfl) (fun z => ?_) fun z => ?_
    · rw [update_vec (w := ![ds, v1, v2, z, v4, v5]) (by intro a; fin_cases a <;> rfl)]
      exact C02_hash_5 ds (v1, v2, z, v4, v5)
    · rw [update_vec (w := ![ds', v1, v2, z, v4, v5]) (by intro a; fin_cases a <;> rfl)]
      exact C02_hash_5 ds' (v1, v2, z, v4, v5)
  · refine hash_one_word 4 (x := ![ds, v1, v2, v3, v4, v5]) (x' := ![ds', v1, v2, v3, v4, v5]) (k := 0) (j := 4) (by decide) hds
      (by intro a ha; fin_cases a <;> first | exact absurd rfl ha | rfl) (fun z => ?_) fun z => ?_
    · rw [update_vec (w := ![ds, v1, v2, v3, z, v5]) (by intro a; fin_cases a <;> rfl)]
      exact C02_hash_5 ds (v1, v2, v3, z, v5)
    · rw [update_vec (w := ![ds', v1, v2, v3, z, v5]) (by intro a; fin_cases a <;> rfl)]
      exact C02_hash_5 ds' (v1, v2, v3, z, v5)
  · refine hash_one_word 4 (x := ![ds, v1, v2, v3, v4, v5]) (x' := ![ds', v1, v2, v3, v4, v5]) (k := 0) (j := 5) (by decide) hds
      (by intro a ha; fin_cases a <;> first | exact absurd rfl ha | rfl) (fun z => ?_) fun z => ?_
    · rw [update_vec (w := ![ds, v1, v2, v3, v4, z]) (by intro a; fin_cases a <;> rfl)]
      exact C02_hash_5 ds (v1, v2, v3, v4, z)
    · rw [update_vec (w := ![ds', v1, v2, v3, v4, z]) (by intro a; fin_cases a <;> rfl)]
      exact C02_hash_5 ds' (v1, v2, v3, v4, z)

/-- **C73, `hash_6`.** With different domain separators, equal messages have equal digests for at most `17^39 - 17` values of any one
message word. -/
theorem C73_domain_6 {ds ds' : Fq} (hds : ds ≠ ds') (v1 v2 v3 v4 v5 v6 : Fq) :
    Nat.card {z : Fq // hash6 ds (z, v2, v3, v4, v5, v6) = hash6 ds' (z, v2, v3, v4, v5, v6)} ≤ 17 ^ 39 - 17 ∧
    Nat.card {z : Fq // hash6 ds (v1, z, v3, v4, v5, v6) = hash6 ds' (v1, z, v3, v4, v5, v6)} ≤ 17 ^ 39 - 17 ∧
    Nat.card {z : Fq // hash6 ds (v1, v2, z, v4, v5, v6) = hash6 ds' (v1, v2, z, v4, v5, v6)} ≤ 17 ^ 39 - 17 ∧
    Nat.card {z : Fq // hash6 ds (v1, v2, v3, z, v5, v6) = hash6 ds' (v1, v2, v3, z, v5, v6)} ≤ 17 ^ 39 - 17 ∧
    Nat.card {z : Fq // hash6 ds (v1, v2, v3, v4, z, v6) = hash6 ds' (v1, v2, v3, v4, z, v6)} ≤ 17 ^ 39 - 17 ∧
    Nat.card {z : Fq // hash6 ds (v1, v2, v3, v4, v5, z) = hash6 ds' (v1, v2, v3, v4, v5, z)} ≤ 17 ^ 39 - 17 := by
  refine ⟨?_, ?_, ?_, ?_, ?_, ?_⟩
  · refine hash_one_word 5 (x := ![ds, v1, v2, v3, v4, v5, v6]) (x' := ![ds', v1, v2, v3, v4, v5, v6]) (k := 0) (j := 1) (by decide) hds
      (by intro a ha; fin_cases a <;> first | exact absurd rfl ha | rfl) (fun z => ?_) fun z => ?_
    · rw [update_vec (w := ![ds, z, v2, v3, v4, v5, v6]) (by intro a; fin_cases a <;> rfl)]
      exact C02_hash_6 ds (z, v2, v3, v4, v5, v6)
    · rw [update_vec (w := ![ds', z, v2, v3, v4, v5, v6]) (by intro a; fin_cases a <;> rfl)]
      exact C02_hash_6 ds' (z, v2, v3, v4, v5, v6)
  · refine hash_one_word 5 (x := ![ds, v1, v2, v3, v4, v5, v6]) (x' := ![ds', v1, v2, v3, v4, v5, v6]) (k := 0) (j := 2) (by decide) hds
      (by intro a ha; fin_cases a <;> first | exact absurd rfl ha | rfl) (fun z => ?_) fun z => ?_
    · rw [update_vec (w := ![ds, v1, z, v3, v4, v5, v6]) (by intro a; fin_cases a <;> rfl)]
      exact C02_hash_6 ds (v1, z, v3, v4, v5, v6)
    · rw [update_vec (w := ![ds', v1, z, v3, v4, v5, v6]) (by intro a; fin_cases a <;> rfl)]
      exact C02_hash_6 ds' (v1, z, v3, v4, v5, v6)
  · refine hash_one_word 5 (x := ![ds, v1, v2, v3, v4, v5, v6]) (x' := ![ds', v1, v2, v3, v4, v5, v6]) (k := 0) (j := 3) (by decide) hds
      (by intro a ha; fin_cases a <;> first | exact absurd rfl ha | rfl) (fun z => ?_) fun z => ?_
    · rw [update_vec (w := ![ds, v1, v2, z, v4, v5, v6]) (by intro a; fin_cases a <;> rfl)]
      exact C02_hash_6 ds (v1, v2, z, v4, v5, v6)
    · rw [update_vec (w := ![ds', v1, v2, z, v4, v5, v6]) (by intro a; fin_cases a <;> rfl)]
      exact C02_hash_6 ds' (v1, v2, z, v4, v5, v6)
  · refine hash_one_word 5 (x := ![ds, v1, v2, v3, v4, v5, v6]) (x' := ![ds', v1, v2, v3, v4, v5, v6]) (k := 0) (j := 4) (by decide) hds
      (by intro a ha; fin_cases a <;> first | exact absurd rfl ha | rfl) (fun z => ?_) fun z => ?_
    · rw [update_vec (w := ![ds, v1, v2, v3, z, v5, v6]) (by intro a; fin_cases a <;> rfl)]
      exact C02_hash_6 ds (v1, v2, v3, z, v5, v6)
    · rw [update_vec (w := ![ds', v1, v2, v3, z, v5, v6]) (by intro a; fin_cases a <;> rfl)]
      exact C02_hash_6 ds' (v1, v2, v3, z, v5, v6)
  · refine hash_one_word 5 (x := ![ds, v1, v2, v3, v4, v5, v6]) (x' := ![ds', v1, v2, v3, v4, v5, v6]) (k := 0) (j := 5) (by decide) hds
      (by intro a ha; fin_cases a <;> first | exact absurd rfl ha | rfl) (fun z => ?_) fun z => ?_
    · rw [update_vec (w := ![ds, v1, v2, v3, v4, z, v6]) (by intro a; fin_cases a <;> rfl)]
      exact C02_hash_6 ds (v1, v2, v3, v4, z, v6)
    · rw [update_vec (w := ![ds', v1, v2, v3, v4, z, v6]) (by intro a; fin_cases a <;> rfl)]
      exact C02_hash_6 ds' (v1, v2, v3, v4, z, v6)
  · refine hash_one_word 5 (x := ![ds, v1, v2, v3, v4, v5, v6]) (x' := ![ds', v1, v2, v3, v4, v5, v6]) (k := 0) (j := 6) (by decide) hds
      (by intro a ha; fin_cases a <;> first | exact absurd rfl ha | rfl) (fun z => ?_) fun z => ?_
    · rw [update_vec (w := ![ds, v1, v2, v3, v4, v5, z]) (by intro a; fin_cases a <;> rfl)]
      exact C02_hash_6 ds (v1, v2, v3, v4, v5, z)
    · rw [update_vec (w := ![ds', v1, v2, v3, v4, v5, z]) (by intro a; fin_cases a <;> rfl)]
      exact C02_hash_6 ds' (v1, v2, v3, v4, v5, z)

/-- **C73, `hash_7`.** With different domain separators, equal messages have equal digests for at most `17^39 - 17` values of any one
message word. -/
theorem C73_domain_7 {ds ds' : Fq} (hds : ds ≠ ds') (v1 v2 v3 v4 v5 v6 v7 : Fq) :
    Nat.card {z : Fq // hash7 ds (z, v2, v3, v4, v5, v6, v7) = hash7 ds' (z, v2, v3, v4, v5, v6, v7)} ≤ 17 ^ 39 - 17 ∧
    Nat.card {z : Fq // hash7 ds (v1, z, v3, v4, v5, v6, v7) = hash7 ds' (v1, z, v3, v4, v5, v6, v7)} ≤ 17 ^ 39 - 17 ∧
    Nat.card {z : Fq // hash7 ds (v1, v2, z, v4, v5, v6, v7) = hash7 ds' (v1, v2, z, v4, v5, v6, v7)} ≤ 17 ^ 39 - 17 ∧
    Nat.card {z : Fq // hash7 ds (v1, v2, v3, z, v5, v6, v7) = hash7 ds' (v1, v2, v3, z, v5, v6, v7)} ≤ 17 ^ 39 - 17 ∧
    Nat.card {z : Fq // hash7 ds (v1, v2, v3, v4, z, v6, v7) = hash7 ds' (v1, v2, v3, v4, z, v6, v7)} ≤ 17 ^ 39 - 17 ∧
    Nat.card {z : Fq // hash7 ds (v1, v2, v3, v4, v5, z, v7) = hash7 ds' (v1, v2, v3, v4, v5, z, v7)} ≤ 17 ^ 39 - 17 ∧
    Nat.card {z : Fq // hash7 ds (v1, v2, v3, v4, v5, v6, z) = hash7 ds' (v1, v2, v3, v4, v5, v6, z)} ≤ 17 ^ 39 - 17 := by
  refine ⟨?_, ?_, ?_, ?_, ?_, ?_, ?_⟩
  · refine hash_one_word 6 (x := ![ds, v1, v2, v3, v4, v5, v6, v7]) (x' := ![ds', v1, v2, v3, v4, v5, v6, v7]) (k := 0) (j := 1) (by decide) hds
      (by intro a ha; fin_cases a <;> first | exact absurd rfl ha | rfl) (fun z => ?_) fun z => ?_
    · rw [update_vec (w := ![ds, z, v2, v3, v4, v5, v6, v7]) (by intro a; fin_cases a <;> rfl)]
      exact C02_hash_7 ds (z, v2, v3, v4, v5, v6, v7)
    · rw [update_vec (w := ![ds', z, v2, v3, v4, v5, v6, v7]) (by intro a; fin_cases a <;> rfl)]
      exact C02_hash_7 ds' (z, v2, v3, v4, v5, v6, v7)
  · refine hash_one_word 6 (x := ![ds, v1, v2, v3, v4, v5, v6, v7]) (x' := ![ds', v1, v2, v3, v4, v5, v6, v7]) (k := 0) (j := 2) (by decide) hds
      (by intro a ha; fin_cases a <;> first | exact absurd rfl ha | rfl) (fun z => ?_) fun z => ?_
    · rw [update_vec (w := ![ds, v1, z, v3, v4, v5, v6, v7]) (by intro a; fin_cases a <;> rfl)]
      exact C02_hash_7 ds (v1, z, v3, v4, v5, v6, v7)
    · rw [update_vec (w := ![ds', v1, z, v3, v4, v5, v6, v7]) (by intro a; fin_cases a <;> rfl)]
      exact C02_hash_7 ds' (v1, z, v3, v4, v5, v6, v7)
  · refine hash_one_word 6 (x := ![ds, v1, v2, v3, v4, v5, v6, v7]) (x' := ![ds', v1, v2, v3, v4, v5, v6, v7]) (k := 0) (j := 3) (by decide) hds
      (by intro a ha; fin_cases a <;> first | exact absurd rfl ha | rfl) (fun z => ?_) fun z => ?_
    · rw [update_vec (w := ![ds, v1, v2, z, v4, v5, v6, v7]) (by intro a; fin_cases a <;> rfl)]
      exact C02_hash_7 ds (v1, v2, z, v4, v5, v6, v7)
    · rw [update_vec (w := ![ds', v1, v2, z, v4, v5, v6, v7]) (by intro a; fin_cases a <;> rfl)]
      exact C02_hash_7 ds' (v1, v2, z, v4, v5, v6, v7)
  · refine hash_one_word 6 (x := ![ds, v1, v2, v3, v4, v5, v6, v7]) (x' := ![ds', v1, v2, v3, v4, v5, v6, v7]) (k := 0) (j := 4) (by decide) hds
      (by intro a ha; fin_cases a <;> first | exact absurd rfl ha | rfl) (fun z => ?_) fun z => ?_
    · rw [update_vec (w := ![ds, v1, v2, v3, z, v5, v6, v7]) (by intro a; fin_cases a <;> rfl)]
      exact C02_hash_7 ds (v1, v2, v3, z, v5, v6, v7)
    · rw [update_vec (w := ![ds', v1, v2, v3, z, v5, v6, v7]) (by intro a; fin_cases a <;> rfl)]
      exact C02_hash_7 ds' (v1, v2, v3, z, v5, v6, v7)
  · refine hash_one_word 6 (x := ![ds, v1, v2, v3, v4, v5, v6, v7]) (x' := ![ds', v1, v2, v3, v4, v5, v6, v7]) (k := 0) (j := 5) (by decide) hds
      (by intro a ha; fin_cases a <;> first | exact absurd rfl ha | rfl) (fun z => ?_) fun z => ?_
    · rw [update_vec (w := ![ds, v1, v2, v3, v4, z, v6, v7]) (by intro a; fin_cases a <;> rfl)]
      exact C02_hash_7 ds (v1, v2, v3, v4, z, v6, v7)
    · rw [update_vec (w := ![ds', v1, v2, v3, v4, z, v6, v7]) (by intro a; fin_cases a <;> rfl)]
      exact C02_hash_7 ds' (v1, v2, v3, v4, z, v6, v7)
  · refine hash_one_word 6 (x := ![ds, v1, v2, v3, v4, v5, v6, v7]) (x' := ![ds', v1, v2, v3, v4, v5, v6, v7]) (k := 0) (j := 6) (by decide) hds
      (by intro a ha; fin_cases a <;> first | exact absurd rfl ha | rfl) (fun z => ?_) fun z => ?_
    · rw [update_vec (w := ![ds, v1, v2, v3, v4, v5, z, v7]) (by intro a; fin_cases a <;> rfl)]
      exact C02_hash_7 ds (v1, v2, v3, v4, v5, z, v7)
    · rw [update_vec (w := ![ds', v1, v2, v3, v4, v5, z, v7]) (by intro a; fin_cases a <;> rfl)]
      exact C02_hash_7 ds' (v1, v2, v3, v4, v5, z, v7)
  · refine hash_one_word 6 (x := ![ds, v1, v2, v3, v4, v5, v6, v7]) (x' := ![ds', v1, v2, v3, v4, v5, v6, v7]) (k := 0) (j := 7) (by decide) hds
      (by intro a ha; fin_cases a <;> first | exact absurd rfl ha | rfl) (fun z => ?_) fun z => ?_
    · rw [update_vec (w := ![ds, v1, v2, v3, v4, v5, v6, z]) (by intro a; fin_cases a <;> rfl)]
      exact C02_hash_7 ds (v1, v2, v3, v4, v5, v6, z)
    · rw [update_vec (w := ![ds', v1, v2, v3, v4, v5, v6, z]) (by intro a; fin_cases a <;> rfl)]
      exact C02_hash_7 ds' (v1, v2, v3, v4, v5, v6, z)

/-- **C73, `hash_2`.** Exchanging a message word with its neighbour leaves the digest as it is for at most `17^39` values of the word. -/
theorem C73_swap_2 (ds y : Fq) :
    Nat.card {z : Fq // hash2 ds (z, y) = hash2 ds (y, z)} ≤ 17 ^ 39 := by
  refine hash_positions 1 1 ![ds, 0, y] ![ds, y, 0] 1 2 (Or.inr (by decide)) (fun z => ?_) fun z => ?_
  · rw [update_vec (w := ![ds, z, y]) (by intro a; fin_cases a <;> rfl)]
    exact C02_hash_2 ds (z, y)
  · rw [update_vec (w := ![ds, y, z]) (by intro a; fin_cases a <;> rfl)]
    exact C02_hash_2 ds (y, z)

/-- **C73, `hash_3`.** Exchanging a message word with its neighbour leaves the digest as it is for at most `17^39` values of the word. -/
theorem C73_swap_3 (ds y v1 v3 : Fq) :
    Nat.card {z : Fq // hash3 ds (z, y, v3) = hash3 ds (y, z, v3)} ≤ 17 ^ 39 ∧
    Nat.card {z : Fq // hash3 ds (v1, z, y) = hash3 ds (v1, y, z)} ≤ 17 ^ 39 := by
  refine ⟨?_, ?_⟩
  · refine hash_positions 2 2 ![ds, 0, y, v3] ![ds, y, 0, v3] 1 2 (Or.inr (by decide)) (fun z => ?_) fun z => ?_
    · rw [update_vec (w := ![ds, z, y, v3]) (by intro a; fin_cases a <;> rfl)]
      exact C02_hash_3 ds (z, y, v3)
    · rw [update_vec (w := ![ds, y, z, v3]) (by intro a; fin_cases a <;> rfl)]
      exact C02_hash_3 ds (y, z, v3)
  · refine hash_positions 2 2 ![ds, v1, 0, y] ![ds, v1, y, 0] 2 3 (Or.inr (by decide)) (fun z => ?_) fun z => ?_
    · rw [update_vec (w := ![ds, v1, z, y]) (by intro a; fin_cases a <;> rfl)]
      exact C02_hash_3 ds (v1, z, y)
    · rw [update_vec (w := ![ds, v1, y, z]) (by intro a; fin_cases a <;> rfl)]
      exact C02_hash_3 ds (v1, y, z)

/-- **C73, `hash_4`.** Exchanging a message word with its neighbour leaves the digest as it is for at most `17^39` values of the word. -/
theorem C73_swap_4 (ds y v1 v2 v3 v4 : Fq) :
    Nat.card {z : Fq // hash4 ds (z, y, v3, v4) = hash4 ds (y, z, v3, v4)} ≤ 17 ^ 39 ∧
    Nat.card {z : Fq // hash4 ds (v1, z, y, v4) = hash4 ds (v1, y, z, v4)} ≤ 17 ^ 39 ∧
    Nat.card {z : Fq // hash4 ds (v1, v2, z, y) = hash4 ds (v1, v2, y, z)} ≤ 17 ^ 39 := by
  refine ⟨?_, ?_, ?_⟩
  · refine hash_positions 3 3 ![ds, 0, y, v3, v4] ![ds, y, 0, v3, v4] 1 2 (Or.inr (by decide)) (fun z => ?_) fun z => ?_
    · rw [update_vec (w := ![ds, z, y, v3, v4]) (by intro a; fin_cases a <;> rfl)]
      exact C02_hash_4 ds (z, y, v3, v4)
    · rw [update_vec (w := ![ds, y, z, v3, v4]) (by intro a; fin_cases a <;> rfl)]
      exact C02_hash_4 ds (y, z, v3, v4)
  · refine hash_positions 3 3 ![ds, v1, 0, y, v4] ![ds, v1, y, 0, v4] 2 3 (Or.inr (by decide)) (fun z => ?_) fun z => ?_
    · rw [update_vec (w := ![ds, v1, z, y, v4]) (by intro a; fin_cases a <;> rfl)]
      exact C02_hash_4 ds (v1, z, y, v4)
    · rw [update_vec (w := ![ds, v1, y, z, v4]) (by intro a; fin_cases a <;> rfl)]
      exact C02_hash_4 ds (v1, y, z, v4)
  · refine hash_positions 3 3 ![ds, v1, v2, 0, y] ![ds, v1, v2, y, 0] 3 4 (Or.inr (by decide)) (fun z => ?_) fun z => ?_
    · rw [update_vec (w := ![ds, v1, v2, z, y]) (by intro a; fin_cases a <;> rfl)]
      exact C02_hash_4 ds (v1, v2, z, y)
    · rw [update_vec (w := ![ds, v1, v2, y, z]) (by intro a; fin_cases a <;> rfl)]
      exact C02_hash_4 ds (v1, v2, y, z)

/-- **C73, `hash_5`.** Exchanging a message word with its neighbour leaves the digest as it is for at most `17^39` values of the word. -/
theorem C73_swap_5 (ds y v1 v2 v3 v4 v5 : Fq) :
    Nat.card {z : Fq // hash5 ds (z, y, v3, v4, v5) = hash5 ds (y, z, v3, v4, v5)} ≤ 17 ^ 39 ∧
    Nat.card {z : Fq // hash5 ds (v1, z, y, v4, v5) = hash5 ds (v1, y, z, v4, v5)} ≤ 17 ^ 39 ∧
    Nat.card {z : Fq // hash5 ds (v1, v2, z, y, v5) = hash5 ds (v1, v2, y, z, v5)} ≤ 17 ^ 39 ∧
    Nat.card {z : Fq // hash5 ds (v1, v2, v3, z, y) = hash5 ds (v1, v2, v3, y, z)} ≤ 17 ^ 39 := by
  refine ⟨?_, ?_, ?_, ?_⟩
  · refine hash_positions 4 4 ![ds, 0, y, v3, v4, v5] ![ds, y, 0, v3, v4, v5] 1 2 (Or.inr (by decide)) (fun z => ?_) fun z => ?_
    · rw [update_vec (w := ![ds, z, y, v3, v4, v5]) (by intro a; fin_cases a <;> rfl)]
      exact C02_hash_5 ds (z, y, v3, v4, v5)
    · rw [update_vec (w := ![ds, y, z, v3, v4, v5]) (by intro a; fin_cases a <;> rfl)]
      exact C02_hash_5 ds (y, z, v3, v4, v5)
  · refine hash_positions 4 4 ![ds, v1, 0, y, v4, v5] ![ds, v1, y, 0, v4, v5] 2 3 (Or.inr (by decide)) (fun z => ?_) fun z => ?_
    · rw [update_vec (w := ![ds, v1, z, y, v4, v5]) (by intro a; fin_cases a <;> rfl)]
      exact C02_hash_5 ds (v1, z, y, v4, v5)
    · rw [update_vec (w := ![ds, v1, y, z, v4, v5]) (by intro a; fin_cases a <;> rfl)]
      exact C02_hash_5 ds (v1, y, z, v4, v5)
  · refine hash_positions 4 4 ![ds, v1, v2, 0, y, v5] ![ds, v1, v2, y, 0, v5] 3 4 (Or.inr (by decide)) (fun z => ?_) fun z => ?_
    · rw [update_vec (w := ![ds, v1, v2, z, y, v5]) (by intro a; fin_cases a <;> rfl)]
      exact C02_hash_5 ds (v1, v2, z, y, v5)
    · rw [update_vec (w := ![ds, v1, v2, y, z, v5]) (by intro a; fin_cases a <;> rfl)]
      exact C02_hash_5 ds (v1, v2, y, z, v5)
  · refine hash_positions 4 4 ![ds, v1, v2, v3, 0, y] ![ds, v1, v2, v3, y, 0] 4 5 (Or.inr (by decide)) (fun z => ?_) fun z => ?_
    · rw [update_vec (w := ![ds, v1, v2, v3, z, y]) (by intro a; fin_cases a <;> rfl)]
      exact C02_hash_5 ds (v1, v2, v3, z, y)
    · rw [update_vec (w := ![ds, v1, v2, v3, y, z]) (by intro a; fin_cases a <;> rfl)]
      exact C02_hash_5 ds (v1, v2, v3, y, z)

/-- **C73, `hash_6`.** Exchanging a message word with its neighbour leaves the digest as it is for at most `17^39` values of the word. -/
theorem C73_swap_6 (ds y v1 v2 v3 v4 v5 v6 : Fq) :
    Nat.card {z : Fq // hash6 ds (z, y, v3, v4, v5, v6) = hash6 ds (y, z, v3, v4, v5, v6)} ≤ 17 ^ 39 ∧
    Nat.card {z : Fq // hash6 ds (v1, z, y, v4, v5, v6) = hash6 ds (v1, y, z, v4, v5, v6)} ≤ 17 ^ 39 ∧
    Nat.card {z : Fq // hash6 ds (v1, v2, z, y, v5, v6) = hash6 ds (v1, v2, y, z, v5, v6)} ≤ 17 ^ 39 ∧
    Nat.card {z : Fq // hash6 ds (v1, v2, v3, z, y, v6) = hash6 ds (v1, v2, v3, y, z, v6)} ≤ 17 ^ 39 ∧
    Nat.card {z : Fq // hash6 ds (v1, v2, v3, v4, z, y) = hash6 ds (v1, v2, v3, v4, y, z)} ≤ 17 ^ 39 := by
  refine ⟨?_, ?_, ?_, ?_, ?_⟩
  · refine hash_positions 5 5 ![ds, 0, y, v3, v4, v5, v6] ![ds, y, 0, v3, v4, v5, v6] 1 2 (Or.inr (by decide)) (fun z => ?_) fun z => ?_
    · rw [update_vec (w := ![ds, z, y, v3, v4, v5, v6]) (by intro a; fin_cases a <;> rfl)]
      exact C02_hash_6 ds (z, y, v3, v4, v5, v6)
    · rw [update_vec (w := ![ds, y, z, v3, v4, v5, v6]) (by intro a; fin_cases a <;> rfl)]
      exact C02_hash_6 ds (y, z, v3, v4, v5, v6)
  · refine hash_positions 5 5 ![ds, v1, 0, y, v4, v5, v6] ![ds, v1, y, 0, v4, v5, v6] 2 3 (Or.inr (by decide)) (fun z => ?_) fun z => ?_
    · rw [update_vec (w := ![ds, v1, z, y, v4, v5, v6]) (by intro a; fin_cases a <;> rfl)]
      exact C02_hash_6 ds (v1, z, y, v4, v5, v6)
    · rw [update_vec (w := ![ds, v1, y, z, v4, v5, v6]) (by intro a; fin_cases a <;> rfl)]
      exact C02_hash_6 ds (v1, y, z, v4, v5, v6)
  · refine hash_positions 5 5 ![ds, v1, v2, 0, y, v5, v6] ![ds, v1, v2, y, 0, v5, v6] 3 4 (Or.inr (by decide)) (fun z => ?_) fun z => ?_
    · rw [update_vec (w := ![ds, v1, v2, z, y, v5, v6]) (by intro a; fin_cases a <;> rfl)]
      exact C02_hash_6 ds (v1, v2, z, y, v5, v6)
    · rw [update_vec (w := ![ds, v1, v2, y, z, v5, v6]) (by intro a; fin_cases a <;> rfl)]
      exact C02_hash_6 ds (v1, v2, y, z, v5, v6)
  · refine hash_positions 5 5 ![ds, v1, v2, v3, 0, y, v6] ![ds, v1, v2, v3, y, 0, v6] 4 5 (Or.inr (by decide)) (fun z => ?_) fun z => ?_
    · rw [update_vec (w := ![ds, v1, v2, v3, z, y, v6]) (by intro a; fin_cases a <;> rfl)]
      exact C02_hash_6 ds (v1, v2, v3, z, y, v6)
    · rw [update_vec (w := ![ds, v1, v2, v3, y, z, v6]) (by intro a; fin_cases a <;> rfl)]
      exact C02_hash_6 ds (v1, v2, v3, y, z, v6)
  · refine hash_positions 5 5 ![ds, v1, v2, v3, v4, 0, y] ![ds, v1, v2, v3, v4, y, 0] 5 6 (Or.inr (by decide)) (fun z => ?_) fun z => ?_
    · rw [update_vec (w := ![ds, v1, v2, v3, v4, z, y]) (by intro a; fin_cases a <;> rfl)]
      exact C02_hash_6 ds (v1, v2, v3, v4, z, y)
    · rw [update_vec (w := ![ds, v1, v2, v3, v4, y, z]) (by intro a; fin_cases a <;> rfl)]
      exact C02_hash_6 ds (v1, v2, v3, v4, y, z)

/-- **C73, `hash_7`.** Exchanging a message word with its neighbour leaves the digest as it is for at most `17^39` values of the word. -/
theorem C73_swap_7 (ds y v1 v2 v3 v4 v5 v6 v7 : Fq) :
    Nat.card {z : Fq // hash7 ds (z, y, v3, v4, v5, v6, v7) = hash7 ds (y, z, v3, v4, v5, v6, v7)} ≤ 17 ^ 39 ∧
    Nat.card {z : Fq // hash7 ds (v1, z, y, v4, v5, v6, v7) = hash7 ds (v1, y, z, v4, v5, v6, v7)} ≤ 17 ^ 39 ∧
    Nat.card {z : Fq // hash7 ds (v1, v2, z, y, v5, v6, v7) = hash7 ds (v1, v2, y, z, v5, v6, v7)} ≤ 17 ^ 39 ∧
    Nat.card {z : Fq // hash7 ds (v1, v2, v3, z, y, v6, v7) = hash7 ds (v1, v2, v3, y, z, v6, v7)} ≤ 17 ^ 39 ∧
    Nat.card {z : Fq // hash7 ds (v1, v2, v3, v4, z, y, v7) = hash7 ds (v1, v2, v3, v4, y, z, v7)} ≤ 17 ^ 39 ∧
    Nat.card {z : Fq // hash7 ds (v1, v2, v3, v4, v5, z, y) = hash7 ds (v1, v2, v3, v4, v5, y, z)} ≤ 17 ^ 39 := by
  refine ⟨?_, ?_, ?_, ?_, ?_, ?_⟩
  · refine hash_positions 6 6 ![ds, 0, y, v3, v4, v5, v6, v7] ![ds, y, 0, v3, v4, v5, v6, v7] 1 2 (Or.inr (by decide)) (fun z => ?_) fun z => ?_
    · rw [update_vec (w := ![ds, z, y, v3, v4, v5, v6, v7]) (by intro a; fin_cases a <;> rfl)]
      exact C02_hash_7 ds (z, y, v3, v4, v5, v6, v7)
    · rw [update_vec (w := ![ds, y, z, v3, v4, v5, v6, v7]) (by intro a; fin_cases a <;> rfl)]
      exact C02_hash_7 ds (y, z, v3, v4, v5, v6, v7)
  · refine hash_positions 6 6 ![ds, v1, 0, y, v4, v5, v6, v7] ![ds, v1, y, 0, v4, v5, v6, v7] 2 3 (Or.inr (by decide)) (fun z => ?_) fun z => ?_
    · rw [update_vec (w := ![ds, v1, z, y, v4, v5, v6, v7]) (by intro a; fin_cases a <;> rfl)]
      exact C02_hash_7 ds (v1, z, y, v4, v5, v6, v7)
    · rw [update_vec (w := ![ds, v1, y, z, v4, v5, v6, v7]) (by intro a; fin_cases a <;> rfl)]
      exact C02_hash_7 ds (v1, y, z, v4, v5, v6, v7)
  · refine hash_positions 6 6 ![ds, v1, v2, 0, y, v5, v6, v7] ![ds, v1, v2, y, 0, v5, v6, v7] 3 4 (Or.inr (by decide)) (fun z => ?_) fun z => ?_
    · rw [update_vec (w := ![ds, v1, v2, z, y, v5, v6, v7]) (by intro a; fin_cases a <;> rfl)]
      exact C02_hash_7 ds (v1, v2, z, y, v5, v6, v7)
    · rw [update_vec (w := ![ds, v1, v2, y, z, v5, v6, v7]) (by intro a; fin_cases a <;> rfl)]
      exact C02_hash_7 ds (v1, v2, y, z, v5, v6, v7)
  · refine hash_positions 6 6 ![ds, v1, v2, v3, 0, y, v6, v7] ![ds, v1, v2, v3, y, 0, v6, v7] 4 5 (Or.inr (by decide)) (fun z => ?_) fun z => ?_
    · rw [update_vec (w := ![ds, v1, v2, v3, z, y, v6, v7]) (by intro a; fin_cases a <;> rfl)]
      exact C02_hash_7 ds (v1, v2, v3, z, y, v6, v7)
    · rw [update_vec (w := ![ds, v1, v2, v3, y, z, v6, v7]) (by intro a; fin_cases a <;> rfl)]
      exact C02_hash_7 ds (v1, v2, v3, y, z, v6, v7)
  · refine hash_positions 6 6 ![ds, v1, v2, v3, v4, 0, y, v7] ![ds, v1, v2, v3, v4, y, 0, v7] 5 6 (Or.inr (by decide)) (fun z => ?_) fun z => ?_
    · rw [update_vec (w := ![ds, v1, v2, v3, v4, z, y, v7]) (by intro a; fin_cases a <;> rfl)]
      exact C02_hash_7 ds (v1, v2, v3, v4, z, y, v7)
    · rw [update_vec (w := ![ds, v1, v2, v3, v4, y, z, v7]) (by intro a; fin_cases a <;> rfl)]
      exact C02_hash_7 ds (v1, v2, v3, v4, y, z, v7)
  · refine hash_positions 6 6 ![ds, v1, v2, v3, v4, v5, 0, y] ![ds, v1, v2, v3, v4, v5, y, 0] 6 7 (Or.inr (by decide)) (fun z => ?_) fun z => ?_
    · rw [update_vec (w := ![ds, v1, v2, v3, v4, v5, z, y]) (by intro a; fin_cases a <;> rfl)]
      exact C02_hash_7 ds (v1, v2, v3, v4, v5, z, y)
    · rw [update_vec (w := ![ds, v1, v2, v3, v4, v5, y, z]) (by intro a; fin_cases a <;> rfl)]
      exact C02_hash_7 ds (v1, v2, v3, v4, v5, y, z)

/-- **C73, arities.** The digests of two messages of different lengths agree for at most `17^39` values of the domain separator. -/
theorem C73_arity (m1 : Fq) (m2 : Fq × Fq) (m3 : Fq × Fq × Fq) (m4 : Fq × Fq × Fq × Fq) (m5 : Fq × Fq × Fq × Fq × Fq) (m6 : Fq × Fq × Fq × Fq × Fq × Fq) (m7 : Fq × Fq × Fq × Fq × Fq × Fq × Fq) :
    Nat.card {z : Fq // hash1 z m1 = hash2 z m2} ≤ 17 ^ 39 ∧
    Nat.card {z : Fq // hash1 z m1 = hash3 z m3} ≤ 17 ^ 39 ∧
    Nat.card {z : Fq // hash1 z m1 = hash4 z m4} ≤ 17 ^ 39 ∧
    Nat.card {z : Fq // hash1 z m1 = hash5 z m5} ≤ 17 ^ 39 ∧
    Nat.card {z : Fq // hash1 z m1 = hash6 z m6} ≤ 17 ^ 39 ∧
    Nat.card {z : Fq // hash1 z m1 = hash7 z m7} ≤ 17 ^ 39 ∧
    Nat.card {z : Fq // hash2 z m2 = hash3 z m3} ≤ 17 ^ 39 ∧
    Nat.card {z : Fq // hash2 z m2 = hash4 z m4} ≤ 17 ^ 39 ∧
    Nat.card {z : Fq // hash2 z m2 = hash5 z m5} ≤ 17 ^ 39 ∧
    Nat.card {z : Fq // hash2 z m2 = hash6 z m6} ≤ 17 ^ 39 ∧
    Nat.card {z : Fq // hash2 z m2 = hash7 z m7} ≤ 17 ^ 39 ∧
    Nat.card {z : Fq // hash3 z m3 = hash4 z m4} ≤ 17 ^ 39 ∧
    Nat.card {z : Fq // hash3 z m3 = hash5 z m5} ≤ 17 ^ 39 ∧
    Nat.card {z : Fq // hash3 z m3 = hash6 z m6} ≤ 17 ^ 39 ∧
    Nat.card {z : Fq // hash3 z m3 = hash7 z m7} ≤ 17 ^ 39 ∧
    Nat.card {z : Fq // hash4 z m4 = hash5 z m5} ≤ 17 ^ 39 ∧
    Nat.card {z : Fq // hash4 z m4 = hash6 z m6} ≤ 17 ^ 39 ∧
    Nat.card {z : Fq // hash4 z m4 = hash7 z m7} ≤ 17 ^ 39 ∧
    Nat.card {z : Fq // hash5 z m5 = hash6 z m6} ≤ 17 ^ 39 ∧
    Nat.card {z : Fq // hash5 z m5 = hash7 z m7} ≤ 17 ^ 39 ∧
    Nat.card {z : Fq // hash6 z m6 = hash7 z m7} ≤ 17 ^ 39 := by
  refine ⟨?_, ?_, ?_, ?_, ?_, ?_, ?_, ?_, ?_, ?_, ?_, ?_, ?_, ?_, ?_, ?_, ?_, ?_, ?_, ?_, ?_⟩
  · refine hash_positions 0 1 ![0, m1] ![0, m2.1, m2.2] 0 0 (Or.inl (by decide)) (fun z => ?_) fun z => ?_
    · rw [update_vec (w := ![z, m1]) (by intro a; fin_cases a <;> rfl)]
      exact C02_hash_1 z m1
    · rw [update_vec (w := ![z, m2.1, m2.2]) (by intro a; fin_cases a <;> rfl)]
      exact C02_hash_2 z m2
  · refine hash_positions 0 2 ![0, m1] ![0, m3.1, m3.2.1, m3.2.2] 0 0 (Or.inl (by decide)) (fun z => ?_) fun z => ?_
    · rw [update_vec (w := ![z, m1]) (by intro a; fin_cases a <;> rfl)]
      exact C02_hash_1 z m1
    · rw [update_vec (w := ![z, m3.1, m3.2.1, m3.2.2]) (by intro a; fin_cases a <;> rfl)]
      exact C02_hash_3 z m3
  · refine hash_positions 0 3 ![0, m1] ![0, m4.1, m4.2.1, m4.2.2.1, m4.2.2.2] 0 0 (Or.inl (by decide)) (fun z => ?_) fun z => ?_
    · rw [update_vec (w := ![z, m1]) (by intro a; fin_cases a <;> rfl)]
      exact C02_hash_1 z m1
    · rw [update_vec (w := ![z, m4.1, m4.2.1, m4.2.2.1, m4.2.2.2]) (by intro a; fin_cases a <;> rfl)]
      exact C02_hash_4 z m4
  · refine hash_positions 0 4 ![0, m1] ![0, m5.1, m5.2.1, m5.2.2.1, m5.2.2.2.1, m5.2.2.2.2] 0 0 (Or.inl (by decide)) (fun z => ?_) fun z => ?_
    · rw [update_vec (w := ![z, m1]) (by intro a; fin_cases a <;> rfl)]
      exact C02_hash_1 z m1
    · rw [update_vec (w := ![z, m5.1, m5.2.1, m5.2.2.1, m5.2.2.2.1, m5.2.2.2.2]) (by intro a; fin_cases a <;> rfl)]
      exact C02_hash_5 z m5
  · refine hash_positions 0 5 ![0, m1] ![0, m6.1, m6.2.1, m6.2.2.1, m6.2.2.2.1, m6.2.2.2.2.1, m6.2.2.2.2.2] 0 0 (Or.inl (by decide)) (fun z => ?_) fun z => ?_
    · rw [update_vec (w := ![z, m1]) (by intro a; fin_cases a <;> rfl)]
      exact C02_hash_1 z m1
    · rw [update_vec (w := ![z, m6.1, m6.2.1, m6.2.2.1, m6.2.2.2.1, m6.2.2.2.2.1, m6.2.2.2.2.2]) (by intro a; fin_cases a <;> rfl)]
      exact C02_hash_6 z m6
  · refine hash_positions 0 6 ![0, m1] ![0, m7.1, m7.2.1, m7.2.2.1, m7.2.2.2.1, m7.2.2.2.2.1, m7.2.2.2.2.2.1, m7.2.2.2.2.2.2] 0 0 (Or.inl (by decide)) (fun z => ?_) fun z => ?_
    · rw [update_vec (w := ![z, m1]) (by intro a; fin_cases a <;> rfl)]
      exact C02_hash_1 z m1
    · rw [update_vec (w := ![z, m7.1, m7.2.1, m7.2.2.1, m7.2.2.2.1, m7.2.2.2.2.1, m7.2.2.2.2.2.1, m7.2.2.2.2.2.2]) (by intro a; fin_cases a <;> rfl)]
      exact C02_hash_7 z m7
  · refine hash_positions 1 2 ![0, m2.1, m2.2] ![0, m3.1, m3.2.1, m3.2.2] 0 0 (Or.inl (by decide)) (fun z => ?_) fun z => ?_
    · rw [update_vec (w := ![z, m2.1, m2.2]) (by intro a; fin_cases a <;> rfl)]
      exact C02_hash_2 z m2
    · rw [update_vec (w := ![z, m3.1, m3.2.1, m3.2.2]) (by intro a; fin_cases a <;> rfl)]
      exact C02_hash_3 z m3
  · refine hash_positions 1 3 ![0, m2.1, m2.2] ![0, m4.1, m4.2.1, m4.2.2.1, m4.2.2.2] 0 0 (Or.inl (by decide)) (fun z => ?_) fun z => ?_
    · rw [update_vec (w := ![z, m2.1, m2.2]) (by intro a; fin_cases a <;> rfl)]
      exact C02_hash_2 z m2
    · rw [update_vec (w := ![z, m4.1, m4.2.1, m4.2.2.1, m4.2.2.2]) (by intro a; fin_cases a <;> rfl)]
      exact C02_hash_4 z m4
  · refine hash_positions 1 4 ![0, m2.1, m2.2] ![0, m5.1, m5.2.1, m5.2.2.1, m5.2.2.2.1, m5.2.2.2.2] 0 0 (Or.inl (by decide)) (fun z => ?_) fun z => ?_
    · rw [update_vec (w := ![z, m2.1, m2.2]) (by intro a; fin_cases a <;> rfl)]
      exact C02_hash_2 z m2
    · rw [update_vec (w := ![z, m5.1, m5.2.1, m5.2.2.1, m5.2.2.2.1, m5.2.2.2.2]) (by intro a; fin_cases a <;> rfl)]
      exact C02_hash_5 z m5
  · refine hash_positions 1 5 ![0, m2.1, m2.2] ![0, m6.1, m6.2.1, m6.2.2.1, m6.2.2.2.1, m6.2.2.2.2.1, m6.2.2.2.2.2] 0 0 (Or.inl (by decide)) (fun z => ?_) fun z => ?_
    · rw [update_vec (w := ![z, m2.1, m2.2]) (by intro a; fin_cases a <;> rfl)]
      exact C02_hash_2 z m2
    · rw [update_vec (w := ![z, m6.1, m6.2.1, m6.2.2.1, m6.2.2.2.1, m6.2.2.2.2.1, m6.2.2.2.2.2]) (by intro a; fin_cases a <;> rfl)]
      exact C02_hash_6 z m6
  · refine hash_positions 1 6 ![0, m2.1, m2.2] ![0, m7.1, m7.2.1, m7.2.2.1, m7.2.2.2.1, m7.2.2.2.2.1, m7.2.2.2.2.2.1, m7.2.2.2.2.2.2] 0 0 (Or.inl (by decide)) (fun z => ?_) fun z => ?_
    · rw [update_vec (w := ![z, m2.1, m2.2]) (by intro a; fin_cases a <;> rfl)]
      exact C02_hash_2 z m2
    · rw [update_vec (w := ![z, m7.1, m7.2.1, m7.2.2.1, m7.2.2.2.1, m7.2.2.2.2.1, m7.2.2.2.2.2.1, m7.2.2.2.2.2.2]) (by intro a; fin_cases a <;> rfl)]
      exact C02_hash_7 z m7
  · refine hash_positions 2 3 ![0, m3.1, m3.2.1, m3.2.2] ![0, m4.1, m4.2.1, m4.2.2.1, m4.2.2.2] 0 0 (Or.inl (by decide)) (fun z => ?_) fun z => ?_
    · rw [update_vec (w := ![z, m3.1, m3.2.1, m3.2.2]) (by intro a; fin_cases a <;> rfl)]
      exact C02_hash_3 z m3
    · rw [update_vec (w := ![z, m4.1, m4.2.1, m4.2.2.1, m4.2.2.2]) (by intro a; fin_cases a <;> rfl)]
      exact C02_hash_4 z m4
  · refine hash_positions 2 4 ![0, m3.1, m3.2.1, m3.2.2] ![0, m5.1, m5.2.1, m5.2.2.1, m5.2.2.2.1, m5.2.2.2.2] 0 0 (Or.inl (by decide)) (fun z => ?_) fun z => ?_
    · rw [update_vec (w := ![z, m3.1, m3.2.1, m3.2.2]) (by intro a; fin_cases a <;> rfl)]
      exact C02_hash_3 z m3
    · rw [update_vec (w := ![z, m5.1, m5.2.1, m5.2.2.1, m5.2.2.2.1, m5.2.2.2.2]) (by intro a; fin_cases a <;> rfl)]
      exact C02_hash_5 z m5
  · refine hash_positions 2 5 ![0, m3.1, m3.2.1, m3.2.2] ![0, m6.1, m6.2.1, m6.2.2.1, m6.2.2.2.1, m6.2.2.2.2.1, m6.2.2.2.2.2] 0 0 (Or.inl (by decide)) (fun z => ?_) fun z => ?_
    · rw [update_vec (w := ![z, m3.1, m3.2.1, m3.2.2]) (by intro a; fin_cases a <;> rfl)]
      exact C02_hash_3 z m3
    · rw [update_vec (w := ![z, m6.1, m6.2.1, m6.2.2.1, m6.2.2.2.1, m6.2.2.2.2.1, m6.2.2.2.2.2]) (by intro a; fin_cases a <;> rfl)]
      exact C02_hash_6 z m6
  · refine hash_positions 2 6 ![0, m3.1, m3.2.1, m3.2.2] ![0, m7.1, m7.2.1, m7.2.2.1, m7.2.2.2.1, m7.2.2.2.2.1, m7.2.2.2.2.2.1, m7.2.2.2.2.2.2] 0 0 (Or.inl (by decide)) (fun z => ?_) fun z => ?_
    · rw [update_vec (w := ![z, m3.1, m3.2.1, m3.2.2]) (by intro a; fin_cases a <;> rfl)]
      exact C02_hash_3 z m3
    · rw [update_vec (w := ![z, m7.1, m7.2.1, m7.2.2.1, m7.2.2.2.1, m7.2.2.2.2.1, m7.2.2.2.2.2.1, m7.2.2.2.2.2.2]) (by intro a; fin_cases a <;> rfl)]
      exact C02_hash_7 z m7
  · refine hash_positions 3 4 ![0, m4.1, m4.2.1, m4.2.2.1, m4.2.2.2] ![0, m5.1, m5.2.1, m5.2.2.1, m5.2.2.2.1, m5.2.2.2.2] 0 0 (Or.inl (by decide)) (fun z => ?_) fun z => ?_
    · rw [update_vec (w := ![z, m4.1, m4.2.1, m4.2.2.1, m4.2.2.2]) (by intro a; fin_cases a <;> rfl)]
      exact C02_hash_4 z m4
    · rw [update_vec (w := ![z, m5.1, m5.2.1, m5.2.2.1, m5.2.2.2.1, m5.2.2.2.2]) (by intro a; fin_cases a <;> rfl)]
      exact C02_hash_5 z m5
  · refine hash_positions 3 5 ![0, m4.1, m4.2.1, m4.2.2.1, m4.2.2.2] ![0, m6.1, m6.2.1, m6.2.2.1, m6.2.2.2.1, m6.2.2.2.2.1, m6.2.2.2.2.2] 0 0 (Or.inl (by decide)) (fun z => ?_) fun z => ?_
    · rw [update_vec (w := ![z, m4.1, m4.2.1, m4.2.2.1, m4.2.2.2]) (by intro a; fin_cases a <;> rfl)]
      exact C02_hash_4 z m4
    · rw [update_vec (w := ![z, m6.1, m6.2.1, m6.2.2.1, m6.2.2.2.1, m6.2.2.2.2.1, m6.2.2.2.2.2]) (by intro a; fin_cases a <;> rfl)]
      exact C02_hash_6 z m6
  · refine hash_positions 3 6 ![0, m4.1, m4.2.1, m4.2.2.1, m4.2.2.2] ![0, m7.1, m7.2.1, m7.2.2.1, m7.2.2.2.1, m7.2.2.2.2.1, m7.2.2.2.2.2.1, m7.2.2.2.2.2.2] 0 0 (Or.inl (by decide)) (fun z => ?_) fun z => ?_
    · rw [update_vec (w := ![z, m4.1, m4.2.1, m4.2.2.1, m4.2.2.2]) (by intro a; fin_cases a <;> rfl)]
      exact C02_hash_4 z m4
    · rw [update_vec (w := ![z, m7.1, m7.2.1, m7.2.2.1, m7.2.2.2.1, m7.2.2.2.2.1, m7.2.2.2.2.2.1, m7.2.2.2.2.2.2]) (by intro a; fin_cases a <;> rfl)]
      exact C02_hash_7 z m7
  · refine hash_positions 4 5 ![0, m5.1, m5.2.1, m5.2.2.1, m5.2.2.2.1, m5.2.2.2.2] ![0, m6.1, m6.2.1, m6.2.2.1, m6.2.2.2.1, m6.2.2.2.2.1, m6.2.2.2.2.2] 0 0 (Or.inl (by decide)) (fun z => ?_) fun z => ?_
    · rw [update_vec (w := ![z, m5.1, m5.2.1, m5.2.2.1, m5.2.2.2.1, m5.2.2.2.2]) (by intro a; fin_cases a <;> rfl)]
      exact C02_hash_5 z m5
    · rw [update_vec (w := ![z, m6.1, m6.2.1, m6.2.2.1, m6.2.2.2.1, m6.2.2.2.2.1, m6.2.2.2.2.2]) (by intro a; fin_cases a <;> rfl)]
      exact C02_hash_6 z m6
  · refine hash_positions 4 6 ![0, m5.1, m5.2.1, m5.2.2.1, m5.2.2.2.1, m5.2.2.2.2] ![0, m7.1, m7.2.1, m7.2.2.1, m7.2.2.2.1, m7.2.2.2.2.1, m7.2.2.2.2.2.1, m7.2.2.2.2.2.2] 0 0 (Or.inl (by decide)) (fun z => ?_) fun z => ?_
    · rw [update_vec (w := ![z, m5.1, m5.2.1, m5.2.2.1, m5.2.2.2.1, m5.2.2.2.2]) (by intro a; fin_cases a <;> rfl)]
      exact C02_hash_5 z m5
    · rw [update_vec (w := ![z, m7.1, m7.2.1, m7.2.2.1, m7.2.2.2.1, m7.2.2.2.2.1, m7.2.2.2.2.2.1, m7.2.2.2.2.2.2]) (by intro a; fin_cases a <;> rfl)]
      exact C02_hash_7 z m7
  · refine hash_positions 5 6 ![0, m6.1, m6.2.1, m6.2.2.1, m6.2.2.2.1, m6.2.2.2.2.1, m6.2.2.2.2.2] ![0, m7.1, m7.2.1, m7.2.2.1, m7.2.2.2.1, m7.2.2.2.2.1, m7.2.2.2.2.2.1, m7.2.2.2.2.2.2] 0 0 (Or.inl (by decide)) (fun z => ?_) fun z => ?_
    · rw [update_vec (w := ![z, m6.1, m6.2.1, m6.2.2.1, m6.2.2.2.1, m6.2.2.2.2.1, m6.2.2.2.2.2]) (by intro a; fin_cases a <;> rfl)]
      exact C02_hash_6 z m6
    · rw [update_vec (w := ![z, m7.1, m7.2.1, m7.2.2.1, m7.2.2.2.1, m7.2.2.2.2.1, m7.2.2.2.2.2.1, m7.2.2.2.2.2.2]) (by intro a; fin_cases a <;> rfl)]
      exact C02_hash_7 z m7

/-! ## The hypotheses are met -/

/-- `hash_2` against `hash_3`, the first message word variable. -/
example (s : Vector Fq 3) (s' : Vector Fq 4) := C73_positions 1 2 s s' ![1, 0, 2] ![1, 0, 2, 0] 1 1 (Or.inl (by decide))

/-- `hash_2` with domain separators 1 and 2. -/
example : Nat.card {z : Fq // hash2 1 (z, 5) = hash2 2 (z, 5)} ≤ 17 ^ 39 - 17 := (C73_domain_2 (ds := 1) (ds' := 2) (by decide +kernel) 0 5).1

end Poseidon
