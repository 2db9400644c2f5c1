import Verif.Proofs.Mode

/-! # A hidden point of a random permutation -/

set_option linter.unusedSectionVars false

namespace Poseidon

open Finset

variable {S : Type} [Fintype S] [DecidableEq S]

/-- The attack comes across `a` or `b`. -/
def Attack.Touches {A : Type} (π : Equiv.Perm S) (a b : S) : Attack S A → Prop
  | .answer _ => False
  | .ask x next => (x = a ∨ x = b) ∨ (next (π x)).Touches π a b
  | .askBack y next => (π.symm y = a ∨ π.symm y = b) ∨ (next (π.symm y)).Touches π a b

instance Attack.touchesDecidable {A : Type} (π : Equiv.Perm S) (a b : S) : (T : Attack S A) → Decidable (T.Touches π a b)
  | .answer _ => isFalse id
  | .ask x next =>
    have := touchesDecidable π a b (next (π x))
    inferInstanceAs (Decidable ((x = a ∨ x = b) ∨ (next (π x)).Touches π a b))
  | .askBack y next =>
    have := touchesDecidable π a b (next (π.symm y))
    inferInstanceAs (Decidable ((π.symm y = a ∨ π.symm y = b) ∨ (next (π.symm y)).Touches π a b))

/-- An attack that does not come across `a` and `b` does not notice that their images are exchanged. -/
theorem run_swap {A : Type} {π : Equiv.Perm S} {a b : S} {T : Attack S A} (h : ¬ T.Touches π a b) : T.run (π * Equiv.swap a b) = T.run π := by
  induction T with
  | answer _ => rfl
  | ask x next ih =>
    rw [Attack.Touches, not_or, not_or] at h
    have e : (π * Equiv.swap a b) x = π x := by rw [Equiv.Perm.mul_apply, Equiv.swap_apply_of_ne_of_ne h.1.1 h.1.2]
    rw [Attack.run, Attack.run, e]
    exact ih _ h.2
  | askBack y next ih =>
    rw [Attack.Touches, not_or, not_or] at h
    have e : (π * Equiv.swap a b).symm y = π.symm y := by
      rw [Equiv.symm_apply_eq, Equiv.Perm.mul_apply, Equiv.swap_apply_of_ne_of_ne h.1.1 h.1.2, Equiv.apply_symm_apply]
    rw [Attack.run, Attack.run, e]
    exact ih _ h.2

/-! ## Counting -/

/-- The permutations that agree with `L` and map `a` to one of the states in `Y` -/
theorem agree_image {L : List (S × S)} (hL : Known L) {a : S} (ha : a ∉ L.map Prod.fst) (Y : Finset S) :
    ((AgreeWith L).filter fun π => π a ∈ Y).card * (Fintype.card S - L.length) = (Y.filter fun y => y ∉ L.map Prod.snd).card * (AgreeWith L).card := by
  rw [agree_split a]
  have h1 : ∀ y, ((AgreeWith ((a, y) :: L)).filter fun π => π a ∈ Y).card * (Fintype.card S - L.length) =
      if y ∈ Y.filter fun y => y ∉ L.map Prod.snd then (AgreeWith L).card else 0 := by
    intro y
    by_cases hy : y ∈ L.map Prod.snd
    · rw [agree_used ha hy, if_neg (fun h : y ∈ Y.filter fun y => y ∉ L.map Prod.snd => (mem_filter.1 h).2 hy)]
      simp
    · by_cases hY : y ∈ Y
      · rw [if_pos (mem_filter.2 ⟨hY, hy⟩), filter_true_of_mem, agree_share hL ha hy]
        intro π hπ
        have := mem_agree.1 hπ _ List.mem_cons_self
        simp only at this
        rwa [this]
      · rw [if_neg (fun h : y ∈ Y.filter fun y => y ∉ L.map Prod.snd => hY (mem_filter.1 h).1), filter_false_of_mem]
        · simp
        · intro π hπ
          have := mem_agree.1 hπ _ List.mem_cons_self
          simp only at this
          rwa [this]
  rw [sum_mul, sum_congr rfl fun y _ => h1 y, ← sum_filter, sum_const, smul_eq_mul]
  congr 2
  ext y
  simp

section
variable {I : Type} [Fintype I] [DecidableEq I] (a b : I → S) (Y : Finset S)

/-- The hidden values and permutations that agree with `L`, where the hidden points `a r`, `b r` are not in `L` and the image of `a r` is in `Y` -/
def Hidden (L : List (S × S)) : Finset (Equiv.Perm S × I) :=
  univ.filter fun ω => ω.1 ∈ AgreeWith L ∧ a ω.2 ∉ L.map Prod.fst ∧ b ω.2 ∉ L.map Prod.fst ∧ ω.1 (a ω.2) ∈ Y

variable {a b Y}

theorem mem_hidden {L : List (S × S)} {ω : Equiv.Perm S × I} :
    ω ∈ Hidden a b Y L ↔ ω.1 ∈ AgreeWith L ∧ a ω.2 ∉ L.map Prod.fst ∧ b ω.2 ∉ L.map Prod.fst ∧ ω.1 (a ω.2) ∈ Y := by simp [Hidden]

/-- the values not yet excluded -/
def freeValues (a b : I → S) (L : List (S × S)) : Finset I := univ.filter fun r => a r ∉ L.map Prod.fst ∧ b r ∉ L.map Prod.fst

theorem hidden_split {L : List (S × S)} (E : Equiv.Perm S × I → Prop) [DecidablePred E] :
    ((Hidden a b Y L).filter E).card = ∑ r ∈ freeValues a b L, ((AgreeWith L).filter fun π => π (a r) ∈ Y ∧ E (π, r)).card := by
  rw [card_eq_sum_card_fiberwise (f := fun ω => ω.2) (t := freeValues a b L)]
  · refine sum_congr rfl fun r hr => ?_
    have hr := (mem_filter.1 hr).2
    refine card_bij' (fun ω _ => ω.1) (fun π _ => (π, r)) ?_ ?_ ?_ ?_
    · rintro ⟨π, r'⟩ h
      simp only [mem_filter, mem_hidden] at h ⊢
      obtain ⟨⟨⟨h1, -, -, h2⟩, h3⟩, rfl⟩ := h
      exact ⟨h1, h2, h3⟩
    · intro π h
      simp only [mem_filter, mem_hidden] at h ⊢
      exact ⟨⟨⟨h.1, hr.1, hr.2, h.2.1⟩, h.2.2⟩, trivial⟩
    · rintro ⟨π, r'⟩ h
      simp only [mem_filter] at h
      rw [← h.2]
    · intro π h
      rfl
  · intro ω h
    simp only [coe_filter, mem_hidden, Set.mem_ofPred_eq] at h
    simp only [freeValues, coe_filter, mem_univ, true_and, Set.mem_ofPred_eq]
    exact ⟨h.1.2.1, h.1.2.2.1⟩

/-- the share of one hidden value -/
theorem slice_eq {L : List (S × S)} (hL : Known L) {r r' : I} (hr : r ∈ freeValues a b L) (hr' : r' ∈ freeValues a b L) (hk : L.length < Fintype.card S) :
    ((AgreeWith L).filter fun π => π (a r) ∈ Y).card = ((AgreeWith L).filter fun π => π (a r') ∈ Y).card := by
  refine Nat.eq_of_mul_eq_mul_right (Nat.sub_pos_of_lt hk) ?_
  rw [agree_image hL (mem_filter.1 hr).2.1, agree_image hL (mem_filter.1 hr').2.1]

theorem hidden_card {L : List (S × S)} (hL : Known L) {r : I} (hr : r ∈ freeValues a b L) (hk : L.length < Fintype.card S) :
    (Hidden a b Y L).card = (freeValues a b L).card * ((AgreeWith L).filter fun π => π (a r) ∈ Y).card := by
  have h := hidden_split (a := a) (b := b) (Y := Y) (L := L) fun _ => True
  simp only [filter_true, and_true] at h
  rw [h, sum_congr rfl fun r' hr' => slice_eq hL hr' hr hk, sum_const, smul_eq_mul]

theorem free_card (ha : Function.Injective a) (hb : Function.Injective b) (L : List (S × S)) :
    Fintype.card I ≤ (freeValues a b L).card + 2 * L.length := by
  have h1 : ∀ {f : I → S}, Function.Injective f → (univ.filter fun r => f r ∈ L.map Prod.fst).card ≤ L.length := by
    intro f hf
    refine (card_le_card_of_injOn f (t := (L.map Prod.fst).toFinset) ?_ fun _ _ _ _ e => hf e).trans ((List.toFinset_card_le _).trans ?_)
    · intro r hr
      simpa using hr
    · simp
  have h2 : (univ : Finset I) ⊆ freeValues a b L ∪ ((univ.filter fun r => a r ∈ L.map Prod.fst) ∪ univ.filter fun r => b r ∈ L.map Prod.fst) := by
    intro r _
    simp only [freeValues, mem_union, mem_filter, mem_univ, true_and]
    tauto
  have h3 := card_le_card h2
  have h4 := card_union_le (freeValues a b L) ((univ.filter fun r => a r ∈ L.map Prod.fst) ∪ univ.filter fun r => b r ∈ L.map Prod.fst)
  have h5 := card_union_le (univ.filter fun r => a r ∈ L.map Prod.fst) (univ.filter fun r => b r ∈ L.map Prod.fst)
  have h6 := h1 ha
  have h7 := h1 hb
  rw [card_univ] at h3
  omega

/-- A question for an image: the hidden points are among at most two values. -/
theorem touch_ask (ha : Function.Injective a) (hb : Function.Injective b) {L : List (S × S)} (hL : Known L) (hk : L.length < Fintype.card S) {D : Nat}
    (hD : D + 2 * L.length ≤ Fintype.card I) (x : S) :
    ((Hidden a b Y L).filter fun ω => x = a ω.2 ∨ x = b ω.2).card * D ≤ 2 * (Hidden a b Y L).card := by
  rw [hidden_split]
  have hf := free_card ha hb L
  rcases (freeValues a b L).eq_empty_or_nonempty with h0 | ⟨r₀, h0⟩
  · rw [h0]
    simp
  set M := ((AgreeWith L).filter fun π => π (a r₀) ∈ Y).card with hM
  have h1 : ∀ r ∈ freeValues a b L, ((AgreeWith L).filter fun π => π (a r) ∈ Y ∧ (x = a r ∨ x = b r)).card ≤ if x = a r ∨ x = b r then M else 0 := by
    intro r hr
    split_ifs with h
    · rw [hM, ← slice_eq hL hr h0 hk]
      refine card_le_card fun π hπ => ?_
      rw [mem_filter] at hπ ⊢
      exact ⟨hπ.1, hπ.2.1⟩
    · rw [filter_false_of_mem (fun π _ e => h e.2), card_empty]
  have h2 : ((freeValues a b L).filter fun r => x = a r ∨ x = b r).card ≤ 2 := by
    rw [filter_or]
    refine (card_union_le _ _).trans ?_
    have h3 : ∀ {f : I → S}, Function.Injective f → ((freeValues a b L).filter fun r => x = f r).card ≤ 1 := by
      intro f hf
      refine card_le_one.2 fun r hr r' hr' => hf ?_
      rw [← (mem_filter.1 hr).2, ← (mem_filter.1 hr').2]
    have := h3 ha
    have := h3 hb
    omega
  calc _ ≤ (∑ r ∈ freeValues a b L, if x = a r ∨ x = b r then M else 0) * D := Nat.mul_le_mul_right _ (sum_le_sum h1)
    _ = ((freeValues a b L).filter fun r => x = a r ∨ x = b r).card * M * D := by rw [← sum_filter, sum_const, smul_eq_mul]
    _ ≤ 2 * M * D := Nat.mul_le_mul_right _ (Nat.mul_le_mul_right _ h2)
    _ ≤ 2 * M * (freeValues a b L).card := Nat.mul_le_mul_left _ (by omega)
    _ = _ := by rw [hidden_card hL h0 hk]; ring

/-- A question for a preimage -/
theorem touch_askBack {L : List (S × S)} (hL : Known L) {D : Nat} (hY : D + L.length ≤ Y.card) (hN : D + L.length + 1 ≤ Fintype.card S) {y : S}
    (hy : y ∉ L.map Prod.snd) :
    ((Hidden a b Y L).filter fun ω => ω.1.symm y = a ω.2 ∨ ω.1.symm y = b ω.2).card * D ≤ 2 * (Hidden a b Y L).card := by
  have h := hidden_split (a := a) (b := b) (Y := Y) (L := L) fun _ => True
  simp only [filter_true, and_true] at h
  rw [hidden_split, h, sum_mul, mul_sum]
  refine sum_le_sum fun r hr => ?_
  have hr := (mem_filter.1 hr).2
  set M := ((AgreeWith L).filter fun π => π (a r) ∈ Y).card with hM
  have hk : L.length < Fintype.card S ∨ D = 0 := by omega
  rcases hk with hk | rfl
  swap
  · simp
  have hpos : 0 < Fintype.card S - L.length := by omega
  have hm := agree_image hL hr.1 Y
  have hu : L.length + (Y.filter fun y => y ∉ L.map Prod.snd).card ≥ Y.card := by
    have h1 := card_filter_add_card_filter_not (s := Y) fun y => y ∉ L.map Prod.snd
    have h2 : (Y.filter fun y => ¬ y ∉ L.map Prod.snd).card ≤ L.length := by
      refine (card_le_card (t := (L.map Prod.snd).toFinset) fun z hz => ?_).trans ((List.toFinset_card_le _).trans (by simp))
      rw [mem_filter, not_not] at hz
      exact List.mem_toFinset.2 hz.2
    omega
  -- the image of `a r` is `y`
  have h1 : ((AgreeWith L).filter fun π => π (a r) ∈ Y ∧ π.symm y = a r).card * D ≤ M := by
    have e : ((AgreeWith L).filter fun π => π (a r) ∈ Y ∧ π.symm y = a r).card ≤ (AgreeWith ((a r, y) :: L)).card := by
      rw [agree_cons]
      refine card_le_card fun π hπ => ?_
      rw [mem_filter] at hπ ⊢
      exact ⟨hπ.1, by rw [← hπ.2.2, Equiv.apply_symm_apply]⟩
    have e2 := agree_share hL hr.1 hy
    refine Nat.le_of_mul_le_mul_right ?_ hpos
    rw [hm, ← e2]
    calc _ ≤ (AgreeWith ((a r, y) :: L)).card * D * (Fintype.card S - L.length) := Nat.mul_le_mul_right _ (Nat.mul_le_mul_right _ e)
      _ = D * ((AgreeWith ((a r, y) :: L)).card * (Fintype.card S - L.length)) := by ring
      _ ≤ _ := Nat.mul_le_mul_right _ (by omega)
  have h2 : ((AgreeWith L).filter fun π => π (a r) ∈ Y ∧ π.symm y = b r).card * D ≤ M := by
    by_cases hab : b r = a r
    · rw [hab]; exact h1
    have e : ((AgreeWith L).filter fun π => π (a r) ∈ Y ∧ π.symm y = b r).card ≤ ((AgreeWith ((b r, y) :: L)).filter fun π => π (a r) ∈ Y).card := by
      refine card_le_card fun π hπ => ?_
      rw [mem_filter] at hπ
      rw [mem_filter, agree_cons, mem_filter]
      exact ⟨⟨hπ.1, by rw [← hπ.2.2, Equiv.apply_symm_apply]⟩, hπ.2.1⟩
    have hL' : Known ((b r, y) :: L) := hL.cons hr.2 hy
    have ha' : a r ∉ ((b r, y) :: L).map Prod.fst := by
      simp only [List.map_cons, List.mem_cons, not_or]
      exact ⟨fun e => hab e.symm, hr.1⟩
    have hm' := agree_image hL' ha' Y
    have e2 := agree_share hL hr.2 hy
    rw [List.length_cons] at hm'
    have e3 : (Y.filter fun z => z ∉ ((b r, y) :: L).map Prod.snd).card ≤ (Y.filter fun z => z ∉ L.map Prod.snd).card := by
      refine card_le_card fun z hz => ?_
      rw [mem_filter] at hz ⊢
      exact ⟨hz.1, fun h => hz.2 (by rw [List.map_cons]; exact List.mem_cons_of_mem _ h)⟩
    refine Nat.le_of_mul_le_mul_right ?_ hpos
    rw [hm, ← e2]
    calc _ ≤ ((AgreeWith ((b r, y) :: L)).filter fun π => π (a r) ∈ Y).card * D * (Fintype.card S - L.length) :=
          Nat.mul_le_mul_right _ (Nat.mul_le_mul_right _ e)
      _ ≤ ((AgreeWith ((b r, y) :: L)).filter fun π => π (a r) ∈ Y).card * (Fintype.card S - (L.length + 1)) * (Fintype.card S - L.length) :=
          Nat.mul_le_mul_right _ (Nat.mul_le_mul_left _ (by omega))
      _ = (Y.filter fun z => z ∉ ((b r, y) :: L).map Prod.snd).card * (AgreeWith ((b r, y) :: L)).card * (Fintype.card S - L.length) := by rw [hm']
      _ ≤ (Y.filter fun z => z ∉ L.map Prod.snd).card * (AgreeWith ((b r, y) :: L)).card * (Fintype.card S - L.length) :=
          Nat.mul_le_mul_right _ (Nat.mul_le_mul_right _ e3)
      _ = _ := by ring
  have h3 : ((AgreeWith L).filter fun π => π (a r) ∈ Y ∧ (π.symm y = a r ∨ π.symm y = b r)).card ≤
      ((AgreeWith L).filter fun π => π (a r) ∈ Y ∧ π.symm y = a r).card + ((AgreeWith L).filter fun π => π (a r) ∈ Y ∧ π.symm y = b r).card := by
    refine le_trans (card_le_card fun π hπ => ?_) (card_union_le _ _)
    rw [mem_union, mem_filter, mem_filter]
    rw [mem_filter] at hπ
    tauto
  calc _ ≤ _ := Nat.mul_le_mul_right D h3
    _ = ((AgreeWith L).filter fun π => π (a r) ∈ Y ∧ π.symm y = a r).card * D + ((AgreeWith L).filter fun π => π (a r) ∈ Y ∧ π.symm y = b r).card * D :=
        add_mul _ _ _
    _ ≤ _ := by omega

/-- A question for the image of `x`, by the answer -/
theorem hidden_ask {L : List (S × S)} (x : S) (E : Equiv.Perm S × I → Prop) [DecidablePred E] :
    ((Hidden a b Y L).filter fun ω => ¬ (x = a ω.2 ∨ x = b ω.2) ∧ E ω).card = ∑ y, ((Hidden a b Y ((x, y) :: L)).filter E).card := by
  rw [card_eq_sum_card_fiberwise (f := fun ω => ω.1 x) (t := univ) fun _ _ => mem_coe.2 (mem_univ _)]
  refine sum_congr rfl fun y _ => congrArg card ?_
  ext ω
  simp only [mem_filter, mem_hidden, agree_cons, List.map_cons, List.mem_cons, not_or]
  constructor
  · rintro ⟨⟨⟨h1, h2, h3, h4⟩, ⟨h5, h6⟩, h7⟩, h8⟩
    exact ⟨⟨⟨h1, h8⟩, ⟨fun e => h5 e.symm, h2⟩, ⟨fun e => h6 e.symm, h3⟩, h4⟩, h7⟩
  · rintro ⟨⟨⟨h1, h8⟩, ⟨h5, h2⟩, ⟨h6, h3⟩, h4⟩, h7⟩
    exact ⟨⟨⟨h1, h2, h3, h4⟩, ⟨fun e => h5 e.symm, fun e => h6 e.symm⟩, h7⟩, h8⟩

/-- A question for the preimage of `y`, by the answer -/
theorem hidden_askBack {L : List (S × S)} (y : S) (E : Equiv.Perm S × I → Prop) [DecidablePred E] :
    ((Hidden a b Y L).filter fun ω => ¬ (ω.1.symm y = a ω.2 ∨ ω.1.symm y = b ω.2) ∧ E ω).card = ∑ x, ((Hidden a b Y ((x, y) :: L)).filter E).card := by
  rw [card_eq_sum_card_fiberwise (f := fun ω => ω.1.symm y) (t := univ) fun _ _ => mem_coe.2 (mem_univ _)]
  refine sum_congr rfl fun x _ => congrArg card ?_
  ext ω
  simp only [mem_filter, mem_hidden, agree_cons, List.map_cons, List.mem_cons, not_or]
  constructor
  · rintro ⟨⟨⟨h1, h2, h3, h4⟩, ⟨h5, h6⟩, h7⟩, rfl⟩
    exact ⟨⟨⟨h1, Equiv.apply_symm_apply _ _⟩, ⟨fun e => h5 e.symm, h2⟩, ⟨fun e => h6 e.symm, h3⟩, h4⟩, h7⟩
  · rintro ⟨⟨⟨h1, rfl⟩, ⟨h5, h2⟩, ⟨h6, h3⟩, h4⟩, h7⟩
    rw [Equiv.symm_apply_apply]
    exact ⟨⟨⟨h1, h2, h3, h4⟩, ⟨fun e => h5 e.symm, fun e => h6 e.symm⟩, h7⟩, rfl⟩

/-- one more question -/
theorem touch_step {Ω J : Type} [Fintype J] {D Q : Nat} {G : Finset Ω} {N M : Ω → Prop} [DecidablePred N] [DecidablePred M] {g h : J → Nat}
    (h1 : (G.filter N).card * D ≤ 2 * G.card) (h2 : (G.filter fun ω => ¬ N ω ∧ M ω).card = ∑ j, g j) (h3 : (G.filter fun ω => ¬ N ω ∧ True).card = ∑ j, h j)
    (h4 : ∀ j, g j * D ≤ 2 * Q * h j) : (G.filter fun ω => N ω ∨ M ω).card * D ≤ 2 * (Q + 1) * G.card := by
  have e1 : (G.filter fun ω => N ω ∨ M ω).card ≤ (G.filter N).card + (G.filter fun ω => ¬ N ω ∧ M ω).card := by
    classical
    refine le_trans (card_le_card fun ω hω => ?_) (card_union_le _ _)
    rw [mem_union, mem_filter, mem_filter]
    rw [mem_filter] at hω
    tauto
  have e2 : (∑ j, g j) * D ≤ 2 * Q * G.card := by
    rw [sum_mul]
    calc _ ≤ ∑ j, 2 * Q * h j := sum_le_sum fun j _ => h4 j
      _ = 2 * Q * ∑ j, h j := (mul_sum _ _ _).symm
      _ ≤ _ := Nat.mul_le_mul_left _ (h3 ▸ card_filter_le _ _)
  calc _ ≤ ((G.filter N).card + ∑ j, g j) * D := Nat.mul_le_mul_right _ (h2 ▸ e1)
    _ = (G.filter N).card * D + (∑ j, g j) * D := add_mul _ _ _
    _ ≤ 2 * G.card + 2 * Q * G.card := Nat.add_le_add h1 e2
    _ = _ := by ring

theorem hidden_used {L : List (S × S)} (h : AgreeWith L = ∅) : Hidden a b Y L = ∅ := by
  refine eq_empty_of_forall_notMem fun ω hω => ?_
  have := (mem_hidden.1 hω).1
  rw [h] at this
  exact notMem_empty _ this

/-- **The chance that an attack comes across the hidden points.** -/
theorem touch_bound (ha : Function.Injective a) (hb : Function.Injective b) {A : Type} {D : Nat} (T : Attack S A) (Q : Nat) (hT : T.Within Q)
    (L : List (S × S)) (hL : Known L) (hD : D + 2 * (L.length + Q) ≤ Fintype.card I + 2) (hY : D + L.length + Q ≤ Y.card + 1)
    (hN : D + L.length + Q ≤ Fintype.card S) :
    ((Hidden a b Y L).filter fun ω => T.Touches ω.1 (a ω.2) (b ω.2)).card * D ≤ 2 * Q * (Hidden a b Y L).card := by
  rcases Nat.eq_zero_or_pos D with rfl | hD0
  · simp
  induction T generalizing Q L with
  | answer _ =>
    refine le_of_eq_of_le (Nat.mul_eq_zero.2 (Or.inl ?_)) (Nat.zero_le _)
    rw [card_eq_zero, filter_eq_empty_iff]
    exact fun _ _ h => h
  | ask x next ih =>
    obtain _ | Q := Q
    · exact hT.elim
    have hT : ∀ y, (next y).Within Q := hT
    by_cases hx : x ∈ L.map Prod.fst
    · obtain ⟨⟨x, y⟩, hp, rfl⟩ := List.mem_map.1 hx
      have e : ((Hidden a b Y L).filter fun ω => (Attack.ask x next).Touches ω.1 (a ω.2) (b ω.2)) =
          (Hidden a b Y L).filter fun ω => (next y).Touches ω.1 (a ω.2) (b ω.2) := by
        refine filter_congr fun ω hω => ?_
        rw [mem_hidden] at hω
        have h1 : ω.1 x = y := mem_agree.1 hω.1 _ hp
        rw [Attack.Touches, h1]
        constructor
        · rintro ((rfl | rfl) | h)
          · exact (hω.2.1 hx).elim
          · exact (hω.2.2.1 hx).elim
          · exact h
        · exact Or.inr
      rw [e]
      exact (ih y Q (hT y) L hL (by omega) (by omega) (by omega)).trans (Nat.mul_le_mul_right _ (by omega))
    · simp only [Attack.Touches]
      refine touch_step (touch_ask ha hb hL (by omega) (by omega) x) (hidden_ask x _)
        ((hidden_ask x fun _ => True)) fun y => ?_
      have e : ((Hidden a b Y ((x, y) :: L)).filter fun ω => (next (ω.1 x)).Touches ω.1 (a ω.2) (b ω.2)) =
          (Hidden a b Y ((x, y) :: L)).filter fun ω => (next y).Touches ω.1 (a ω.2) (b ω.2) := by
        refine filter_congr fun ω hω => ?_
        have h1 : ω.1 x = y := mem_agree.1 (mem_hidden.1 hω).1 _ List.mem_cons_self
        rw [h1]
      rw [e, filter_true]
      by_cases hy : y ∈ L.map Prod.snd
      · rw [hidden_used (agree_used hx hy)]
        simp
      · exact ih y Q (hT y) _ (hL.cons hx hy) (by rw [List.length_cons]; omega) (by rw [List.length_cons]; omega) (by rw [List.length_cons]; omega)
  | askBack y next ih =>
    obtain _ | Q := Q
    · exact hT.elim
    have hT : ∀ x, (next x).Within Q := hT
    by_cases hy : y ∈ L.map Prod.snd
    · obtain ⟨⟨x, y⟩, hp, rfl⟩ := List.mem_map.1 hy
      have e : ((Hidden a b Y L).filter fun ω => (Attack.askBack y next).Touches ω.1 (a ω.2) (b ω.2)) =
          (Hidden a b Y L).filter fun ω => (next x).Touches ω.1 (a ω.2) (b ω.2) := by
        refine filter_congr fun ω hω => ?_
        rw [mem_hidden] at hω
        have h1 : ω.1.symm y = x := (Equiv.symm_apply_eq _).2 (mem_agree.1 hω.1 _ hp).symm
        have hx : x ∈ L.map Prod.fst := List.mem_map.2 ⟨_, hp, rfl⟩
        rw [Attack.Touches, h1]
        constructor
        · rintro ((h | h) | h)
          · exact (hω.2.1 (h ▸ hx)).elim
          · exact (hω.2.2.1 (h ▸ hx)).elim
          · exact h
        · exact Or.inr
      rw [e]
      exact (ih x Q (hT x) L hL (by omega) (by omega) (by omega)).trans (Nat.mul_le_mul_right _ (by omega))
    · simp only [Attack.Touches]
      refine touch_step (touch_askBack hL (by omega) (by omega) hy) (hidden_askBack y _)
        ((hidden_askBack y fun _ => True)) fun x => ?_
      have e : ((Hidden a b Y ((x, y) :: L)).filter fun ω => (next (ω.1.symm y)).Touches ω.1 (a ω.2) (b ω.2)) =
          (Hidden a b Y ((x, y) :: L)).filter fun ω => (next x).Touches ω.1 (a ω.2) (b ω.2) := by
        refine filter_congr fun ω hω => ?_
        have h1 : ω.1.symm y = x := (Equiv.symm_apply_eq _).2 (mem_agree.1 (mem_hidden.1 hω).1 _ List.mem_cons_self).symm
        rw [h1]
      rw [e, filter_true]
      by_cases hx : x ∈ L.map Prod.fst
      · have : Hidden a b Y ((x, y) :: L) = ∅ := by
          refine eq_empty_of_forall_notMem fun ω hω => ?_
          have h := (mem_hidden.1 hω).1
          obtain ⟨⟨x, z⟩, hp, rfl⟩ := List.mem_map.1 hx
          have h1 : ω.1 x = y := mem_agree.1 h _ List.mem_cons_self
          have h2 : ω.1 x = z := mem_agree.1 h _ (List.mem_cons_of_mem _ hp)
          exact hy (List.mem_map.2 ⟨_, hp, h2.symm.trans h1⟩)
        rw [this]
        simp
      · exact ih x Q (hT x) _ (hL.cons hx hy) (by rw [List.length_cons]; omega) (by rw [List.length_cons]; omega) (by rw [List.length_cons]; omega)

end

end Poseidon
