import Verif.Proofs.Keyed

/-!
# Digests with a secret word are unforgeable (C110)

With a random permutation in place of the shipped ones, somebody who does not know the word of the state that is the key does not find the digest of a message,
whatever other digests under this key were seen.  The specification is `Spec/Keyed.lean`.
-/

set_option linter.unusedSectionVars false

namespace Poseidon

open Finset

variable {F : Type} [Fintype F] [DecidableEq F] {n : Nat}

theorem ratio_bound {X m M G : Nat} {m' : ℚ} (h : X * m ≤ M * G) (h0 : 0 < m') (hm : m' ≤ m) : (X : ℚ) ≤ M / m' * G := by
  rw [div_mul_eq_mul_div, le_div_iff₀ h0]
  have h1 : (X : ℚ) * m ≤ M * G := by exact_mod_cast h
  exact (mul_le_mul_of_nonneg_left hm (Nat.cast_nonneg _)).trans h1

theorem cast_sub_le {a b Q : Nat} (h : b ≤ Q) : (a : ℚ) - Q ≤ ((a - b : Nat) : ℚ) := by
  have h1 : (a : ℚ) ≤ ((a - b : Nat) : ℚ) + b := by exact_mod_cast (by omega : a ≤ a - b + b)
  have h2 : (b : ℚ) ≤ Q := by exact_mod_cast h
  linarith

/-- **C110.** Whatever an algorithm does, if it asks at most `Q` questions (for images, preimages and tags), then for all but few permutations and keys it does
not answer with a message and its tag unless it asked for this tag. -/
theorem C110_unforgeable (j : Fin (n + 2)) (A : KeyedAttack (Fin (n + 2) → F) F ((Fin (n + 2) → F) × F)) (Q : Nat) (hA : A.Within Q)
    (hQ : Q < Fintype.card F) :
    (Nat.card {ω : Equiv.Perm (Fin (n + 2) → F) × F // Forges ω.1 j ω.2 A} : ℚ) ≤
      ((Q + 1) / (Fintype.card F - Q) + Q ^ 2 / (Fintype.card F ^ (n + 1) - Q)) * Nat.card (Equiv.Perm (Fin (n + 2) → F) × F) := by
  classical
  set c := Fintype.card F with hc
  have hc1 : c ≤ c ^ (n + 1) := Nat.le_self_pow (Nat.succ_ne_zero _) _
  have hpos : (0 : ℚ) < (c : ℚ) - Q := sub_pos.2 (by exact_mod_cast hQ)
  have hpos' : (0 : ℚ) < ((c ^ (n + 1) : Nat) : ℚ) - Q := sub_pos.2 (by exact_mod_cast lt_of_lt_of_le hQ hc1)
  have hpow : (0 : ℚ) < ((c ^ (n + 1) : Nat) : ℚ) := by exact_mod_cast Nat.pow_pos (lt_of_le_of_lt (Nat.zero_le _) hQ)
  -- `c ^ (n + 1) / (c ^ (n + 2) - Q) ≤ 1 / (c - Q)`
  have hshare : ∀ {X G b : Nat}, b ≤ Q → X * (c ^ (n + 2) - b) ≤ c ^ (n + 1) * G → (X : ℚ) ≤ 1 / ((c : ℚ) - Q) * G := by
    intro X G b hb h
    have h1 : (c ^ (n + 1) : Nat) * ((c : ℚ) - Q) ≤ ((c ^ (n + 2) - b : Nat) : ℚ) := by
      refine le_trans ?_ (cast_sub_le hb)
      have e : ((c ^ (n + 2) : Nat) : ℚ) = (c ^ (n + 1) : Nat) * (c : ℚ) := by push_cast; ring
      have e2 : (1 : ℚ) ≤ ((c ^ (n + 1) : Nat) : ℚ) := by exact_mod_cast Nat.pow_pos (lt_of_le_of_lt (Nat.zero_le _) hQ)
      have e3 : (0 : ℚ) ≤ (Q : ℚ) := Nat.cast_nonneg _
      rw [e, mul_sub]
      nlinarith
    have h2 := ratio_bound h (mul_pos hpow hpos) h1
    rwa [div_mul_eq_div_div, div_self hpow.ne'] at h2
  have hask : ∀ (L : List ((Fin (n + 2) → F) × (Fin (n + 2) → F))) (T : List ((Fin (n + 2) → F) × F)) (k : F), L.length + T.length < Q →
      (((Secret j L T).filter fun ω => ω.2 = k).card : ℚ) ≤ 1 / ((c : ℚ) - Q) * (Secret j L T).card := by
    intro L T k h
    have h1 := secret_ask j L T k
    rw [← one_mul (Secret j L T).card] at h1
    have h2 := ratio_bound h1 hpos (cast_sub_le (by omega))
    rwa [Nat.cast_one] at h2
  have hback : ∀ (L : List ((Fin (n + 2) → F) × (Fin (n + 2) → F))) (T : List ((Fin (n + 2) → F) × F)) (y : Fin (n + 2) → F), L.length + T.length < Q →
      (((Secret j L T).filter fun ω => ω.1.symm y j = ω.2).card : ℚ) ≤
        (1 / ((c : ℚ) - Q) + Q * (1 / (((c ^ (n + 1) : Nat) : ℚ) - Q))) * (Secret j L T).card := by
    intro L T y h
    by_cases hy : y ∈ L.map Prod.snd
    · rw [filter_false_of_mem, card_empty, Nat.cast_zero]
      · exact mul_nonneg (add_nonneg (one_div_pos.2 hpos).le (mul_nonneg (Nat.cast_nonneg _) (one_div_pos.2 hpos').le)) (Nat.cast_nonneg _)
      · intro ω hω e
        obtain ⟨p, hp, rfl⟩ := List.mem_map.1 hy
        have h1 := mem_secret.1 hω
        refine h1.2.1 p hp ?_
        rw [← e, ← h1.1 p hp, Equiv.symm_apply_apply]
    have h1 : (Secret j L T).filter (fun ω => ω.1.symm y j = ω.2) ⊆
        ((Secret j L T).filter fun ω => ω.1.symm y j = ω.2 ∧ ∀ p ∈ T, ω.1.symm y ≠ blinded p.1 j ω.2) ∪
          T.toFinset.biUnion fun p => (Secret j L T).filter fun ω => ω.1.symm y = blinded p.1 j ω.2 := by
      intro ω hω
      rw [mem_filter] at hω
      by_cases h2 : ∀ p ∈ T, ω.1.symm y ≠ blinded p.1 j ω.2
      · exact mem_union_left _ (mem_filter.2 ⟨hω.1, hω.2, h2⟩)
      · simp only [not_forall, not_not] at h2
        obtain ⟨p, hp, h2⟩ := h2
        exact mem_union_right _ (mem_biUnion.2 ⟨p, List.mem_toFinset.2 hp, mem_filter.2 ⟨hω.1, h2⟩⟩)
    have h2 := ((card_le_card h1).trans (card_union_le _ _)).trans (Nat.add_le_add_left card_biUnion_le _)
    have h3 := hshare (by omega) (secret_back j L T y)
    have h4 : ∀ p ∈ T.toFinset, (((Secret j L T).filter fun ω => ω.1.symm y = blinded p.1 j ω.2).card : ℚ) ≤
        1 / (((c ^ (n + 1) : Nat) : ℚ) - Q) * (Secret j L T).card := by
      intro p _
      have := ratio_bound (secret_back_tag j L T hy p.1) hpos' (cast_sub_le (by omega))
      rwa [Nat.cast_one] at this
    have h5 : ((∑ p ∈ T.toFinset, ((Secret j L T).filter fun ω => ω.1.symm y = blinded p.1 j ω.2).card : Nat) : ℚ) ≤
        Q * (1 / (((c ^ (n + 1) : Nat) : ℚ) - Q)) * (Secret j L T).card := by
      rw [Nat.cast_sum]
      refine (sum_le_sum h4).trans ?_
      rw [sum_const, nsmul_eq_mul, mul_assoc]
      refine mul_le_mul_of_nonneg_right ?_ (mul_nonneg (one_div_pos.2 hpos').le (Nat.cast_nonneg _))
      exact_mod_cast (List.toFinset_card_le T).trans (by omega)
    rw [add_mul]
    refine le_trans ?_ (add_le_add h3 h5)
    exact_mod_cast h2
  have htag : ∀ (L : List ((Fin (n + 2) → F) × (Fin (n + 2) → F))) (T : List ((Fin (n + 2) → F) × F)) (v : Fin (n + 2) → F) (d : F),
      (∀ p ∈ T, Differ j p.1 v) → L.length + T.length ≤ Q →
      (((Secret j L T).filter fun ω => tag ω.1 j ω.2 v = d).card : ℚ) ≤ 1 / ((c : ℚ) - Q) * (Secret j L T).card :=
    fun L T v d hv h => hshare h (secret_tag j L T hv d)
  have key := forge_bound (ε := 1 / ((c : ℚ) - Q) + Q * (1 / (((c ^ (n + 1) : Nat) : ℚ) - Q))) (z := 1 / ((c : ℚ) - Q)) (N₀ := Q)
    (add_nonneg (one_div_pos.2 hpos).le (mul_nonneg (Nat.cast_nonneg _) (one_div_pos.2 hpos').le)) (one_div_pos.2 hpos).le
    (fun L T k h => (hask L T k h).trans (mul_le_mul_of_nonneg_right
      (le_add_of_nonneg_right (mul_nonneg (Nat.cast_nonneg _) (one_div_pos.2 hpos').le)) (Nat.cast_nonneg _)))
    hback htag A Q hA [] [] (by simp)
  have e1 : Secret j ([] : List ((Fin (n + 2) → F) × (Fin (n + 2) → F))) ([] : List ((Fin (n + 2) → F) × F)) = univ := by
    ext ω
    simp [mem_secret]
  rw [e1, card_univ] at key
  rw [Nat.card_eq_fintype_card, Nat.card_eq_fintype_card, Fintype.card_subtype]
  have e2 : (univ.filter fun ω : Equiv.Perm (Fin (n + 2) → F) × F => Forges ω.1 j ω.2 A) = univ.filter (ForgesFrom j (([] : List ((Fin (n + 2) → F) × F)).map Prod.fst) A) := by
    refine filter_congr fun ω _ => ?_
    simp [Forges, ForgesFrom]
  rw [e2]
  refine key.trans (le_of_eq ?_)
  push_cast
  ring

/-- **C110 in numbers.** With `2^80` questions the chance is less than one in `2^90`, for every rate and every word. -/
theorem C110_numbers (j : Fin (n + 2)) (A : KeyedAttack (Fin (n + 2) → Fq) Fq ((Fin (n + 2) → Fq) × Fq)) (hA : A.Within (2 ^ 80)) :
    Nat.card {ω : Equiv.Perm (Fin (n + 2) → Fq) × Fq // Forges ω.1 j ω.2 A} * 2 ^ 90 ≤ Nat.card (Equiv.Perm (Fin (n + 2) → Fq) × Fq) := by
  have hQ : 2 ^ 80 < Fintype.card Fq := by rw [card_Fq]; decide +kernel
  have h := C110_unforgeable j A _ hA hQ
  rw [card_Fq] at h
  have h1 : ((2 ^ 80 + 1) * 2 ^ 91 + 2 ^ 80 : Nat) ≤ q := by decide +kernel
  have h2 : ((2 ^ 80) ^ 2 * 2 ^ 91 + 2 ^ 80 : Nat) ≤ q ^ (n + 1) :=
    le_trans (by decide +kernel) (Nat.le_self_pow (Nat.succ_ne_zero n) q)
  generalize Nat.card {ω : Equiv.Perm (Fin (n + 2) → Fq) × Fq // Forges ω.1 j ω.2 A} = X at h ⊢
  generalize Nat.card (Equiv.Perm (Fin (n + 2) → Fq) × Fq) = P at h ⊢
  have h3 : (((2 ^ 80 + 1) * 2 ^ 91 + 2 ^ 80 : Nat) : ℚ) ≤ q := by exact_mod_cast h1
  have h4 : (((2 ^ 80) ^ 2 * 2 ^ 91 + 2 ^ 80 : Nat) : ℚ) ≤ (q : ℚ) ^ (n + 1) := by exact_mod_cast h2
  generalize (q : ℚ) ^ (n + 1) = b at h h4
  generalize (q : ℚ) = a at h h3
  have h5 : (((2 ^ 80 : Nat) : ℚ) + 1) / (a - ((2 ^ 80 : Nat) : ℚ)) ≤ 1 / 2 ^ 91 := by
    push_cast at h3 ⊢
    rw [div_le_div_iff₀ (by linarith) (by positivity)]
    linarith
  have h6 : ((2 ^ 80 : Nat) : ℚ) ^ 2 / (b - ((2 ^ 80 : Nat) : ℚ)) ≤ 1 / 2 ^ 91 := by
    push_cast at h4 ⊢
    rw [div_le_div_iff₀ (by linarith) (by positivity)]
    linarith
  have h7 : (X : ℚ) ≤ (1 / 2 ^ 91 + 1 / 2 ^ 91) * P := h.trans (mul_le_mul_of_nonneg_right (add_le_add h5 h6) (Nat.cast_nonneg _))
  have h8 : (X : ℚ) * 2 ^ 90 ≤ P := by
    calc (X : ℚ) * 2 ^ 90 ≤ (1 / 2 ^ 91 + 1 / 2 ^ 91) * P * 2 ^ 90 := mul_le_mul_of_nonneg_right h7 (by positivity)
      _ = P := by ring
  exact_mod_cast h8

/-- **C110 is about something.** Who tries the right key succeeds, with one question and every permutation. -/
example (π : Equiv.Perm (Fin 3 → Fq)) (v : Fin 3 → Fq) (k : Fq) : Forges π 1 k (.ask (blinded v 1 k) fun y => .answer (v, y 1)) :=
  ⟨rfl, fun _ h => absurd h List.not_mem_nil⟩

/-- To repeat a tag that was asked for is no success. -/
example (π : Equiv.Perm (Fin 3 → Fq)) (v : Fin 3 → Fq) (k : Fq) : ¬ Forges π 1 k (.askTag v fun d => .answer (v, d)) := by
  rintro ⟨-, h⟩
  obtain ⟨i, -, hi⟩ := h v List.mem_cons_self
  exact hi rfl

end Poseidon
