import Verif.Proofs.Mode
import Verif.Props.Native

/-!
# The mode of operation (C107)

With a random permutation in place of the shipped ones, and the domain separator taken from a given set, nobody finds preimages or collisions of the hash
with few questions.  The specification is `Spec/Mode.lean`.
-/

set_option linter.unusedSectionVars false

namespace Poseidon

open Finset

variable {F : Type} [Fintype F] [DecidableEq F] {n : Nat}

theorem card_word (D : Finset F) (j : Fin (n + 2)) :
    (univ.filter fun x : Fin (n + 2) → F => x j ∈ D).card = D.card * Fintype.card F ^ (n + 1) := by
  have : (univ.filter fun x : Fin (n + 2) → F => x j ∈ D) = Fintype.piFinset fun a => if a = j then D else univ := by
    ext x
    simp only [mem_filter, mem_univ, true_and, Fintype.mem_piFinset]
    constructor
    · intro h a
      split_ifs with e
      · exact e ▸ h
      · exact mem_univ _
    · intro h
      have := h j
      rwa [if_pos rfl] at this
  rw [this, Fintype.card_piFinset, Fin.prod_univ_succAbove _ j, if_pos rfl]
  congr 1
  rw [prod_congr rfl fun a _ => by rw [if_neg (Fin.succAbove_ne j a)]]
  simp

theorem card_state : Fintype.card (Fin (n + 2) → F) = Fintype.card F ^ (n + 2) := by simp

/-- From the bound for a log to the bound for an attack that starts knowing nothing -/
theorem share_of_log {A : Type} {T : Attack (Fin (n + 2) → F) A} {f : A → List (Fin (n + 2) → F)} {m Q : Nat} (hf : ∀ a, (f a).length ≤ m + 1)
    (hT : T.Within Q) {Bad : List ((Fin (n + 2) → F) × (Fin (n + 2) → F)) → Prop} [DecidablePred Bad] {b : Nat → Nat} (hn : ¬ Bad [])
    (h1 : ∀ L x, Known L → ¬ Bad L → x ∉ L.map Prod.fst → (univ.filter fun y => y ∉ L.map Prod.snd ∧ Bad ((x, y) :: L)).card ≤ b L.length)
    (h2 : ∀ L y, Known L → ¬ Bad L → y ∉ L.map Prod.snd → (univ.filter fun x => x ∉ L.map Prod.fst ∧ Bad ((x, y) :: L)).card ≤ b L.length)
    {E : Equiv.Perm (Fin (n + 2) → F) → Prop} [DecidablePred E]
    (hE : ∀ π, E π → ∀ L, (∀ x ∈ f (T.run π), (x, π x) ∈ L) → Bad L) :
    ShareAtMost (∑ k ∈ range (Q + m + 1), b k) (Fintype.card F ^ (n + 2) - (Q + m)) E := by
  rw [ShareAtMost]
  rcases Nat.lt_or_ge (Fintype.card F ^ (n + 2)) (Q + m) with h | h
  · rw [Nat.sub_eq_zero_of_le h.le]
    simp
  · have h3 := log_bound h1 h2 (T.check f) (Q + (m + 1)) (check_within hf hT) [] ⟨by simp, by simp⟩ hn
      (D := Fintype.card F ^ (n + 2) - (Q + m)) (by rw [card_state]; simp only [List.length_nil]; omega)
    simp only [List.length_nil, Nat.zero_add] at h3
    have h4 : AgreeWith ([] : List ((Fin (n + 2) → F) × (Fin (n + 2) → F))) = univ := by ext π; simp [mem_agree]
    rw [h4, card_univ, ← Nat.add_assoc] at h3
    refine (Nat.mul_le_mul_right _ (card_le_card fun π hπ => ?_)).trans h3
    rw [mem_filter] at hπ ⊢
    exact ⟨mem_univ _, hE π hπ.2 _ fun x hx => check_log π T [] (by simp) hx⟩

/-- **C107, preimages.** Whatever an algorithm does, if it asks for at most `Q` images or preimages of states, then for all but few permutations it does not find
an input with the digest `d` and a domain separator in `D`. -/
theorem C107_preimage (D : Finset F) (d : F) (A : Attack (Fin (n + 2) → F) (Fin (n + 2) → F)) (Q : Nat) (hA : A.Within Q) :
    ShareAtMost ((Q + 1) * D.card * Fintype.card F ^ (n + 1)) (Fintype.card F ^ (n + 2) - Q)
      (fun π => A.run π 0 ∈ D ∧ digestWith π (A.run π) = d) := by
  have h := share_of_log (m := 0) (f := fun a => [a]) (by simp) hA (Bad := fun L => ∃ p ∈ L, p.1 0 ∈ D ∧ p.2 1 = d)
    (b := fun _ => D.card * Fintype.card F ^ (n + 1)) (by simp) ?_ ?_ (E := fun π => A.run π 0 ∈ D ∧ digestWith π (A.run π) = d) ?_
  · simpa [mul_assoc] using h
  · intro L x _ hn _
    by_cases hx : x 0 ∈ D
    · refine (card_le_card (t := univ.filter fun y : Fin (n + 2) → F => y 1 ∈ ({d} : Finset F)) fun y hy => ?_).trans ?_
      · rw [mem_filter] at hy ⊢
        obtain ⟨-, -, p, hp, h1, h2⟩ := hy
        rcases List.mem_cons.1 hp with rfl | hp
        · exact ⟨mem_univ _, mem_singleton.2 h2⟩
        · exact (hn ⟨p, hp, h1, h2⟩).elim
      · rw [card_word, card_singleton]
        exact Nat.mul_le_mul_right _ (card_pos.2 ⟨_, hx⟩)
    · refine (card_le_card (t := ∅) fun y hy => ?_).trans (Nat.zero_le _)
      rw [mem_filter] at hy
      obtain ⟨-, -, p, hp, h1, h2⟩ := hy
      rcases List.mem_cons.1 hp with rfl | hp
      · exact (hx h1).elim
      · exact (hn ⟨p, hp, h1, h2⟩).elim
  · intro L y _ hn _
    refine (card_le_card (t := univ.filter fun x : Fin (n + 2) → F => x 0 ∈ D) fun x hx => ?_).trans (card_word _ _).le
    rw [mem_filter] at hx ⊢
    obtain ⟨-, -, p, hp, h1, h2⟩ := hx
    rcases List.mem_cons.1 hp with rfl | hp
    · exact ⟨mem_univ _, h1⟩
    · exact (hn ⟨p, hp, h1, h2⟩).elim
  · rintro π ⟨h1, h2⟩ L hL
    exact ⟨_, hL _ (List.mem_singleton_self _), h1, h2⟩

/-- **C107, collisions.** The same for two different inputs with the same digest. -/
theorem C107_collision (D : Finset F) (A : Attack (Fin (n + 2) → F) ((Fin (n + 2) → F) × (Fin (n + 2) → F))) (Q : Nat) (hA : A.Within Q) :
    ShareAtMost (((Q + 1) * (Q + 2) / 2 + (Q + 2) * D.card) * Fintype.card F ^ (n + 1)) (Fintype.card F ^ (n + 2) - (Q + 1))
      (fun π => (A.run π).1 ≠ (A.run π).2 ∧ (A.run π).1 0 ∈ D ∧ (A.run π).2 0 ∈ D ∧ digestWith π (A.run π).1 = digestWith π (A.run π).2) := by
  have h := share_of_log (m := 1) (f := fun a => [a.1, a.2]) (by simp) hA
    (Bad := fun L => ∃ p ∈ L, ∃ p' ∈ L, p.1 ≠ p'.1 ∧ p.1 0 ∈ D ∧ p'.1 0 ∈ D ∧ p.2 1 = p'.2 1)
    (b := fun k => (k + D.card) * Fintype.card F ^ (n + 1)) (by simp) ?_ ?_
    (E := fun π => (A.run π).1 ≠ (A.run π).2 ∧ (A.run π).1 0 ∈ D ∧ (A.run π).2 0 ∈ D ∧ digestWith π (A.run π).1 = digestWith π (A.run π).2) ?_
  · rw [← sum_mul, sum_add_distrib, sum_range_id, sum_const, card_range, smul_eq_mul, Nat.add_sub_cancel, Nat.mul_comm (Q + 1 + 1)] at h
    exact h
  · intro L x _ hn hx
    refine (card_le_card (t := univ.filter fun y : Fin (n + 2) → F => y 1 ∈ (L.map fun p => p.2 1).toFinset) fun y hy => ?_).trans ?_
    · rw [mem_filter] at hy ⊢
      obtain ⟨-, -, p, hp, p', hp', h0, h1, h2, h3⟩ := hy
      refine ⟨mem_univ _, List.mem_toFinset.2 ?_⟩
      rcases List.mem_cons.1 hp with rfl | hp
      · rcases List.mem_cons.1 hp' with rfl | hp'
        · exact (h0 rfl).elim
        · exact List.mem_map.2 ⟨p', hp', h3.symm⟩
      · rcases List.mem_cons.1 hp' with rfl | hp'
        · exact List.mem_map.2 ⟨p, hp, h3⟩
        · exact (hn ⟨p, hp, p', hp', h0, h1, h2, h3⟩).elim
    · rw [card_word]
      refine Nat.mul_le_mul_right _ ((List.toFinset_card_le _).trans ?_)
      rw [List.length_map]
      omega
  · intro L y _ hn _
    refine (card_le_card (t := univ.filter fun x : Fin (n + 2) → F => x 0 ∈ D) fun x hx => ?_).trans
      ((card_word _ _).le.trans (Nat.mul_le_mul_right _ (Nat.le_add_left _ _)))
    rw [mem_filter] at hx ⊢
    obtain ⟨-, -, p, hp, p', hp', h0, h1, h2, h3⟩ := hx
    refine ⟨mem_univ _, ?_⟩
    rcases List.mem_cons.1 hp with rfl | hp
    · exact h1
    · rcases List.mem_cons.1 hp' with rfl | hp'
      · exact h2
      · exact (hn ⟨p, hp, p', hp', h0, h1, h2, h3⟩).elim
  · rintro π ⟨h0, h1, h2, h3⟩ L hL
    exact ⟨_, hL _ (by simp), _, hL _ (by simp), h0, h1, h2, h3⟩

/-- **C107, second preimages.** The same for an input with the digest of a given input `x₀`. -/
theorem C107_second_preimage (D : Finset F) (x₀ : Fin (n + 2) → F) (A : Attack (Fin (n + 2) → F) (Fin (n + 2) → F)) (Q : Nat) (hA : A.Within Q) :
    ShareAtMost ((Q + 1) * D.card * Fintype.card F ^ (n + 1)) (Fintype.card F ^ (n + 2) - (Q + 1))
      (fun π => A.run π ≠ x₀ ∧ A.run π 0 ∈ D ∧ digestWith π (A.run π) = digestWith π x₀) := by
  rw [ShareAtMost]
  rcases Nat.lt_or_ge (Fintype.card F ^ (n + 2)) (Q + 1) with h | h
  · rw [Nat.sub_eq_zero_of_le h.le]
    simp
  have h4 : AgreeWith ([] : List ((Fin (n + 2) → F) × (Fin (n + 2) → F))) = univ := by ext π; simp [mem_agree]
  have h5 := agree_split (L := []) x₀ fun π => A.run π ≠ x₀ ∧ A.run π 0 ∈ D ∧ digestWith π (A.run π) = digestWith π x₀
  have h6 := agree_split (L := []) x₀ fun _ => True
  simp only [filter_true, h4] at h5 h6
  rw [card_univ] at h6
  rw [h5, h6, sum_mul, mul_sum]
  refine sum_le_sum fun y _ => ?_
  have h7 := log_bound (Bad := fun L => ∃ p ∈ L, p.1 ≠ x₀ ∧ p.1 0 ∈ D ∧ p.2 1 = y 1) (b := fun _ => D.card * Fintype.card F ^ (n + 1)) ?_ ?_
    (A.check fun a => [a]) (Q + 1) (check_within (by simp) hA) [(x₀, y)] ⟨by simp, by simp⟩ (by simp)
    (D := Fintype.card F ^ (n + 2) - (Q + 1)) (by rw [card_state]; simp only [List.length_singleton]; omega)
  · rw [sum_const, card_range, smul_eq_mul, ← mul_assoc] at h7
    refine (Nat.mul_le_mul_right _ (card_le_card fun π hπ => ?_)).trans h7
    rw [mem_filter] at hπ ⊢
    obtain ⟨h8, h9, h10, h11⟩ := hπ
    have h12 := mem_agree.1 h8
    refine ⟨h8, _, check_log π A _ h12 (List.mem_singleton_self _), h9, h10, ?_⟩
    exact h11.trans (congrFun (h12 (x₀, y) List.mem_cons_self) 1)
  · intro L x _ hn _
    by_cases hx : x 0 ∈ D
    · refine (card_le_card (t := univ.filter fun z : Fin (n + 2) → F => z 1 ∈ ({y 1} : Finset F)) fun z hz => ?_).trans ?_
      · rw [mem_filter] at hz ⊢
        obtain ⟨-, -, p, hp, h0, h1, h2⟩ := hz
        rcases List.mem_cons.1 hp with rfl | hp
        · exact ⟨mem_univ _, mem_singleton.2 h2⟩
        · exact (hn ⟨p, hp, h0, h1, h2⟩).elim
      · rw [card_word, card_singleton]
        exact Nat.mul_le_mul_right _ (card_pos.2 ⟨_, hx⟩)
    · refine (card_le_card (t := ∅) fun z hz => ?_).trans (Nat.zero_le _)
      rw [mem_filter] at hz
      obtain ⟨-, -, p, hp, h0, h1, h2⟩ := hz
      rcases List.mem_cons.1 hp with rfl | hp
      · exact (hx h1).elim
      · exact (hn ⟨p, hp, h0, h1, h2⟩).elim
  · intro L z _ hn _
    refine (card_le_card (t := univ.filter fun x : Fin (n + 2) → F => x 0 ∈ D) fun x hx => ?_).trans (card_word _ _).le
    rw [mem_filter] at hx ⊢
    obtain ⟨-, -, p, hp, h0, h1, h2⟩ := hx
    rcases List.mem_cons.1 hp with rfl | hp
    · exact ⟨mem_univ _, h1⟩
    · exact (hn ⟨p, hp, h0, h1, h2⟩).elim

/-! ## The shipped functions use this mode -/

theorem hash_is_mode (i : Fin 7) {h : (Fin (i.val + 2) → Fq) → R Fq} (hh : ∀ x, ∃ y, spec377 i x = some y ∧ h x = .ok (y 1)) :
    ∃ π : Equiv.Perm (Fin (i.val + 2) → Fq), ∀ x, h x = .ok (digestWith π x) := by
  refine ⟨Equiv.ofBijective _ (perm377_bijective i), fun x => ?_⟩
  obtain ⟨y, h1, h2⟩ := hh x
  rw [spec377_eq] at h1
  rw [h2, ← Option.some.inj h1]
  rfl

/-- **C107, the mode is that of the shipped functions.** -/
theorem C107_mode :
    (∃ π : Equiv.Perm (Fin 2 → Fq), ∀ x, hash1 (x 0) (x 1) = .ok (digestWith π x)) ∧
    (∃ π : Equiv.Perm (Fin 3 → Fq), ∀ x, hash2 (x 0) (x 1, x 2) = .ok (digestWith π x)) ∧
    (∃ π : Equiv.Perm (Fin 4 → Fq), ∀ x, hash3 (x 0) (x 1, x 2, x 3) = .ok (digestWith π x)) ∧
    (∃ π : Equiv.Perm (Fin 5 → Fq), ∀ x, hash4 (x 0) (x 1, x 2, x 3, x 4) = .ok (digestWith π x)) ∧
    (∃ π : Equiv.Perm (Fin 6 → Fq), ∀ x, hash5 (x 0) (x 1, x 2, x 3, x 4, x 5) = .ok (digestWith π x)) ∧
    (∃ π : Equiv.Perm (Fin 7 → Fq), ∀ x, hash6 (x 0) (x 1, x 2, x 3, x 4, x 5, x 6) = .ok (digestWith π x)) ∧
    (∃ π : Equiv.Perm (Fin 8 → Fq), ∀ x, hash7 (x 0) (x 1, x 2, x 3, x 4, x 5, x 6, x 7) = .ok (digestWith π x)) :=
  ⟨hash_is_mode 0 fun x => by
      have h := C02_hash_1 (x 0) (x 1)
      rwa [show ![x 0, x 1] = x from by funext a; fin_cases a <;> rfl] at h,
    hash_is_mode 1 fun x => by
      have h := C02_hash_2 (x 0) (x 1, x 2)
      rwa [show ![x 0, x 1, x 2] = x from by funext a; fin_cases a <;> rfl] at h,
    hash_is_mode 2 fun x => by
      have h := C02_hash_3 (x 0) (x 1, x 2, x 3)
      rwa [show ![x 0, x 1, x 2, x 3] = x from by funext a; fin_cases a <;> rfl] at h,
    hash_is_mode 3 fun x => by
      have h := C02_hash_4 (x 0) (x 1, x 2, x 3, x 4)
      rwa [show ![x 0, x 1, x 2, x 3, x 4] = x from by funext a; fin_cases a <;> rfl] at h,
    hash_is_mode 4 fun x => by
      have h := C02_hash_5 (x 0) (x 1, x 2, x 3, x 4, x 5)
      rwa [show ![x 0, x 1, x 2, x 3, x 4, x 5] = x from by funext a; fin_cases a <;> rfl] at h,
    hash_is_mode 5 fun x => by
      have h := C02_hash_6 (x 0) (x 1, x 2, x 3, x 4, x 5, x 6)
      rwa [show ![x 0, x 1, x 2, x 3, x 4, x 5, x 6] = x from by funext a; fin_cases a <;> rfl] at h,
    hash_is_mode 6 fun x => by
      have h := C02_hash_7 (x 0) (x 1, x 2, x 3, x 4, x 5, x 6, x 7)
      rwa [show ![x 0, x 1, x 2, x 3, x 4, x 5, x 6, x 7] = x from by funext a; fin_cases a <;> rfl] at h⟩

theorem ShareAtMost.simplify {E : Equiv.Perm (Fin (n + 2) → F) → Prop} [DecidablePred E] {a a' b B : Nat} (h : ShareAtMost a b E) (ha : a ≤ a')
    (h0 : 0 < a') (hB : a' * B ≤ b) : ShareAtMost 1 B E := by
  rw [ShareAtMost, one_mul]
  rw [ShareAtMost] at h
  refine Nat.le_of_mul_le_mul_left ?_ h0
  calc a' * ((univ.filter E).card * B) = (univ.filter E).card * (a' * B) := by ring
    _ ≤ (univ.filter E).card * b := Nat.mul_le_mul_left _ hB
    _ ≤ a * _ := h
    _ ≤ _ := Nat.mul_le_mul_right _ ha

theorem numbers_bound {m c Q B : Nat} (h : c * B + 1 ≤ m) (hQ : Q ≤ m) : c * m ^ (n + 1) * B ≤ m ^ (n + 2) - Q := by
  have h1 : m ≤ m ^ (n + 1) := Nat.le_self_pow (Nat.succ_ne_zero _) m
  have h2 : (c * B + 1) * m ^ (n + 1) ≤ m * m ^ (n + 1) := Nat.mul_le_mul_right _ h
  have h3 : m ^ (n + 2) = m * m ^ (n + 1) := by ring
  have h4 : (c * B + 1) * m ^ (n + 1) = c * m ^ (n + 1) * B + m ^ (n + 1) := by ring
  omega

/-- **C107 in numbers.** With up to `2^64` domain separators the chance is less than one in `2^88` for a preimage with `2^100` questions, and less than one in
`2^92` for a collision with `2^80` questions, for every rate. -/
theorem C107_numbers (D : Finset Fq) (hD : D.card ≤ 2 ^ 64) (d : Fq) :
    (∀ A : Attack (Fin (n + 2) → Fq) (Fin (n + 2) → Fq), A.Within (2 ^ 100) →
      ShareAtMost 1 (2 ^ 88) (fun π => A.run π 0 ∈ D ∧ digestWith π (A.run π) = d)) ∧
    ∀ A : Attack (Fin (n + 2) → Fq) ((Fin (n + 2) → Fq) × (Fin (n + 2) → Fq)), A.Within (2 ^ 80) → ShareAtMost 1 (2 ^ 92)
      (fun π => (A.run π).1 ≠ (A.run π).2 ∧ (A.run π).1 0 ∈ D ∧ (A.run π).2 0 ∈ D ∧ digestWith π (A.run π).1 = digestWith π (A.run π).2) := by
  have hq : 0 < q ^ (n + 1) := Nat.pow_pos (by decide +kernel)
  refine ⟨fun A hA => ?_, fun A hA => ?_⟩
  · have h := C107_preimage D d A _ hA
    rw [card_Fq] at h
    exact h.simplify (a' := ((2 ^ 100 + 1) * 2 ^ 64) * q ^ (n + 1)) (Nat.mul_le_mul_right _ (Nat.mul_le_mul_left _ hD)) (Nat.mul_pos (by norm_num) hq)
      (numbers_bound (by decide +kernel) (by decide +kernel))
  · have h := C107_collision D A _ hA
    rw [card_Fq] at h
    exact h.simplify (a' := ((2 ^ 80 + 1) * (2 ^ 80 + 2) / 2 + (2 ^ 80 + 2) * 2 ^ 64) * q ^ (n + 1))
      (Nat.mul_le_mul_right _ (Nat.add_le_add_left (Nat.mul_le_mul_left _ hD) _)) (Nat.mul_pos (by norm_num) hq)
      (numbers_bound (by decide +kernel) (by decide +kernel))

/-- **C107 needs the set of domain separators.** If every domain separator is allowed, one question finds a preimage with every permutation. -/
theorem C107_one_question (d : F) : ∃ A : Attack (Fin (n + 2) → F) (Fin (n + 2) → F), A.Within 1 ∧
    ∀ π, A.run π 0 ∈ (univ : Finset F) ∧ digestWith π (A.run π) = d :=
  ⟨.askBack (fun _ => d) .answer, fun _ => trivial, fun π => ⟨mem_univ _, by simp [digestWith, Attack.run]⟩⟩

/-- A single domain separator, and an attack that makes a guess: it is right with at most the share `q^2 / q^3` of the permutations. -/
example (ds d : Fq) : ShareAtMost (q ^ 2) (q ^ 3) (fun π : Equiv.Perm (Fin 3 → Fq) => digestWith π ![ds, 1, 2] = d) := by
  have h := C107_preimage {ds} d (.answer ![ds, 1, 2] : Attack (Fin 3 → Fq) (Fin 3 → Fq)) 0 trivial
  rw [card_Fq, card_singleton] at h
  rw [ShareAtMost] at h ⊢
  simpa [Attack.run] using h

end Poseidon
