import Mathlib.Tactic.FieldSimp
import Mathlib.Tactic.Positivity
import Mathlib.Algebra.Order.BigOperators.Ring.Finset
import Mathlib.Data.Rat.Cast.Order
import Verif.Spec.Keyed
import Verif.Props.Mode

/-! # A secret word of the state -/

set_option linter.unusedSectionVars false

namespace Poseidon

open Finset

variable {F : Type} [Fintype F] [DecidableEq F] {n : Nat}

local notation "State" => Fin (n + 2) → F

theorem blinded_at (v : State) (j : Fin (n + 2)) (k : F) : blinded v j k j = k := Function.update_self _ _ _

/-- Exchange the values `k` and `k'` of word `j`. -/
def swapWord (j : Fin (n + 2)) (k k' : F) : Equiv.Perm State :=
  Function.Involutive.toPerm (fun x => Function.update x j (Equiv.swap k k' (x j))) fun x => by
    funext i
    by_cases h : i = j
    · subst h; simp
    · simp [Function.update_of_ne h]

theorem swapWord_apply (j : Fin (n + 2)) (k k' : F) (x : State) : swapWord j k k' x = Function.update x j (Equiv.swap k k' (x j)) := rfl

theorem swapWord_fix {j : Fin (n + 2)} {k k' : F} {x : State} (h : x j ≠ k) (h' : x j ≠ k') : swapWord j k k' x = x := by
  rw [swapWord_apply, Equiv.swap_apply_of_ne_of_ne h h', Function.update_eq_self]

theorem swapWord_blinded (j : Fin (n + 2)) (k k' : F) (v : State) : swapWord j k k' (blinded v j k') = blinded v j k := by
  rw [swapWord_apply, blinded_at, Equiv.swap_apply_right, blinded, blinded, Function.update_idem]

open scoped Classical in
/-- The permutations and keys that agree with the known pairs `L` and tags `T`, where no known argument has the key in word `j` -/
noncomputable def Secret (j : Fin (n + 2)) (L : List (State × State)) (T : List (State × F)) : Finset (Equiv.Perm State × F) :=
  univ.filter fun ω => (∀ p ∈ L, ω.1 p.1 = p.2) ∧ (∀ p ∈ L, p.1 j ≠ ω.2) ∧ ∀ p ∈ T, ω.1 (blinded p.1 j ω.2) 1 = p.2

theorem mem_secret {j : Fin (n + 2)} {L : List (State × State)} {T : List (State × F)} {ω : Equiv.Perm State × F} :
    ω ∈ Secret j L T ↔ (∀ p ∈ L, ω.1 p.1 = p.2) ∧ (∀ p ∈ L, p.1 j ≠ ω.2) ∧ ∀ p ∈ T, ω.1 (blinded p.1 j ω.2) 1 = p.2 := by simp [Secret]

/-- the states that occur in neither list -/
def freshStates (j : Fin (n + 2)) (L : List (State × State)) (T : List (State × F)) (k : F) : Finset State :=
  univ.filter fun x => x ∉ L.map Prod.fst ∧ x ∉ T.map fun p => blinded p.1 j k

theorem list_card (l : List State) : (univ.filter fun x => x ∈ l).card ≤ l.length := by
  refine (card_le_card (t := l.toFinset) fun x hx => ?_).trans (List.toFinset_card_le _)
  exact List.mem_toFinset.2 (mem_filter.1 hx).2

theorem fresh_card (j : Fin (n + 2)) (L : List (State × State)) (T : List (State × F)) (k : F) :
    Fintype.card F ^ (n + 2) ≤ (freshStates j L T k).card + L.length + T.length := by
  have h1 : (univ : Finset State) ⊆ freshStates j L T k ∪ ((univ.filter fun x => x ∈ L.map Prod.fst) ∪
      univ.filter fun x => x ∈ T.map fun p => blinded p.1 j k) := by
    intro x _
    simp only [freshStates, mem_union, mem_filter, mem_univ, true_and]
    tauto
  have h2 := card_le_card h1
  have h3 := card_union_le (freshStates j L T k) ((univ.filter fun x => x ∈ L.map Prod.fst) ∪ univ.filter fun x => x ∈ T.map fun p => blinded p.1 j k)
  have h4 := card_union_le (univ.filter fun x => x ∈ L.map Prod.fst) (univ.filter fun x => x ∈ T.map fun p => blinded p.1 j k)
  have h5 := list_card (L.map Prod.fst)
  have h6 := list_card (T.map fun p => blinded p.1 j k)
  rw [card_univ, card_state] at h2
  rw [List.length_map] at h5 h6
  omega

/-- Exchanging the images of two fresh states gives a pair that agrees with the lists. -/
theorem secret_swap {j : Fin (n + 2)} {L : List (State × State)} {T : List (State × F)} {π : Equiv.Perm State} {k : F} (h : (π, k) ∈ Secret j L T) {x x' : State}
    (hx : x ∈ freshStates j L T k) (hx' : x' ∈ freshStates j L T k) : (π * Equiv.swap x x', k) ∈ Secret j L T := by
  rw [mem_secret] at h ⊢
  simp only [freshStates, mem_filter, mem_univ, true_and] at hx hx'
  refine ⟨fun p hp => ?_, h.2.1, fun p hp => ?_⟩
  · have e : p.1 ∈ L.map Prod.fst := List.mem_map.2 ⟨p, hp, rfl⟩
    rw [Equiv.Perm.mul_apply, Equiv.swap_apply_of_ne_of_ne (fun e' : p.1 = x => hx.1 (e' ▸ e)) (fun e' : p.1 = x' => hx'.1 (e' ▸ e))]
    exact h.1 p hp
  · have e : blinded p.1 j k ∈ T.map fun p => blinded p.1 j k := List.mem_map.2 ⟨p, hp, rfl⟩
    rw [Equiv.Perm.mul_apply]
    dsimp only
    rw [Equiv.swap_apply_of_ne_of_ne (fun e' : blinded p.1 j k = x => hx.2 (e' ▸ e)) (fun e' : blinded p.1 j k = x' => hx'.2 (e' ▸ e))]
    exact h.2.2 p hp

/-- **A question for an image** -/
theorem secret_ask (j : Fin (n + 2)) (L : List (State × State)) (T : List (State × F)) (c : F) :
    ((Secret j L T).filter fun ω => ω.2 = c).card * (Fintype.card F - L.length) ≤ (Secret j L T).card := by
  by_cases hc : ∃ p ∈ L, p.1 j = c
  · obtain ⟨p, hp, hc⟩ := hc
    rw [filter_false_of_mem, card_empty, zero_mul]
    · exact Nat.zero_le _
    · rintro ω hω rfl
      exact (mem_secret.1 hω).2.1 p hp hc
  have hc : ∀ p ∈ L, p.1 j ≠ c := fun p hp e => hc ⟨p, hp, e⟩
  let K : Finset F := univ.filter fun k => ∀ p ∈ L, p.1 j ≠ k
  have hK : Fintype.card F - L.length ≤ K.card := by
    have h1 : (univ : Finset F) ⊆ K ∪ (L.map fun p => p.1 j).toFinset := by
      intro k _
      by_cases h : ∀ p ∈ L, p.1 j ≠ k
      · exact mem_union_left _ (mem_filter.2 ⟨mem_univ _, h⟩)
      · simp only [not_forall, not_not] at h
        obtain ⟨p, hp, h⟩ := h
        exact mem_union_right _ (List.mem_toFinset.2 (List.mem_map.2 ⟨p, hp, h⟩))
    have h2 := (card_le_card h1).trans (card_union_le _ _)
    have h3 := List.toFinset_card_le (L.map fun p => p.1 j)
    rw [List.length_map] at h3
    rw [card_univ] at h2
    omega
  refine (Nat.mul_le_mul_left _ hK).trans ?_
  rw [← card_product]
  refine card_le_card_of_injOn (fun a => (a.1.1 * swapWord j c a.2, a.2)) ?_ ?_
  · rintro ⟨⟨π, k⟩, k'⟩ h
    simp only [coe_product, Set.mem_prod, mem_coe, mem_filter, K, mem_univ, true_and] at h
    obtain ⟨⟨h1, rfl⟩, h2⟩ := h
    rw [mem_secret] at h1
    rw [mem_coe, mem_secret]
    refine ⟨fun p hp => ?_, h2, fun p hp => ?_⟩
    · dsimp only
      rw [Equiv.Perm.mul_apply, swapWord_fix (h1.2.1 p hp) (h2 p hp)]
      exact h1.1 p hp
    · dsimp only
      rw [Equiv.Perm.mul_apply, swapWord_blinded]
      exact h1.2.2 p hp
  · rintro ⟨⟨π, k⟩, k'⟩ h ⟨⟨π₁, k₁⟩, k₁'⟩ h₁ e
    simp only [coe_product, Set.mem_prod, mem_coe, mem_filter] at h h₁
    simp only [Prod.mk.injEq] at e
    obtain ⟨e, rfl⟩ := e
    rw [mul_right_cancel e, h.1.2, h₁.1.2]

/-- double counting -/
theorem count_pairs {Ω X Y : Type} [DecidableEq Ω] [DecidableEq X] [DecidableEq Y] {B G : Finset Ω} {U : Ω → Finset X} {V : Ω → Finset Y} {m M : Nat}
    (hU : ∀ ω ∈ B, m ≤ (U ω).card) (hV : ∀ ω ∈ G, (V ω).card ≤ M) (f : Ω → X → Ω) (g : Ω → X → Y)
    (h1 : ∀ ω ∈ B, ∀ x ∈ U ω, f ω x ∈ G ∧ g ω x ∈ V (f ω x))
    (h2 : ∀ ω ∈ B, ∀ x ∈ U ω, ∀ ω' ∈ B, ∀ x' ∈ U ω', f ω x = f ω' x' → g ω x = g ω' x' → ω = ω' ∧ x = x') : B.card * m ≤ M * G.card := by
  calc B.card * m = ∑ _ω ∈ B, m := by rw [sum_const, smul_eq_mul]
    _ ≤ ∑ ω ∈ B, (U ω).card := sum_le_sum hU
    _ = (B.sigma U).card := (card_sigma _ _).symm
    _ ≤ (G.sigma V).card := by
      refine card_le_card_of_injOn (fun a => ⟨f a.1 a.2, g a.1 a.2⟩) ?_ ?_
      · rintro ⟨ω, x⟩ h
        rw [mem_coe, mem_sigma] at h
        rw [mem_coe, mem_sigma]
        exact h1 ω h.1 x h.2
      · rintro ⟨ω, x⟩ h ⟨ω', x'⟩ h' e
        rw [mem_coe, mem_sigma] at h h'
        simp only [Sigma.mk.injEq] at e
        obtain ⟨e1, e2⟩ := h2 ω h.1 x h.2 ω' h'.1 x' h'.2 e.1 (eq_of_heq e.2)
        subst e1 e2
        rfl
    _ = ∑ ω ∈ G, (V ω).card := card_sigma _ _
    _ ≤ ∑ _ω ∈ G, M := sum_le_sum hV
    _ = _ := by rw [sum_const, smul_eq_mul, mul_comm]

theorem card_word_eq (j : Fin (n + 2)) (c : F) : (univ.filter fun x : State => x j = c).card = Fintype.card F ^ (n + 1) := by
  have h := card_word (n := n) {c} j
  simpa using h

/-- **A question for a preimage, answered by a state with the key that has no known tag** -/
theorem secret_back (j : Fin (n + 2)) (L : List (State × State)) (T : List (State × F)) (y : State) :
    ((Secret j L T).filter fun ω => ω.1.symm y j = ω.2 ∧ ∀ p ∈ T, ω.1.symm y ≠ blinded p.1 j ω.2).card * (Fintype.card F ^ (n + 2) - (L.length + T.length)) ≤
      Fintype.card F ^ (n + 1) * (Secret j L T).card := by
  have hfresh : ∀ ω ∈ (Secret j L T).filter fun ω => ω.1.symm y j = ω.2 ∧ ∀ p ∈ T, ω.1.symm y ≠ blinded p.1 j ω.2,
      ω.1.symm y ∈ freshStates j L T ω.2 := by
    intro ω h
    rw [mem_filter, mem_secret] at h
    simp only [freshStates, mem_filter, mem_univ, true_and]
    refine ⟨fun hm => ?_, fun hm => ?_⟩
    · obtain ⟨p, hp, e⟩ := List.mem_map.1 hm
      exact h.1.2.1 p hp (by rw [e, h.2.1])
    · obtain ⟨p, hp, e⟩ := List.mem_map.1 hm
      exact h.2.2 p hp e.symm
  refine count_pairs (U := fun ω => freshStates j L T ω.2) (V := fun ω => univ.filter fun x : State => x j = ω.2) (fun ω _ => ?_)
    (fun ω _ => (card_word_eq j ω.2).le) (fun ω x' => (ω.1 * Equiv.swap (ω.1.symm y) x', ω.2)) (fun ω _ => ω.1.symm y) (fun ω h x' hx' => ?_) ?_
  · have := fresh_card j L T ω.2
    omega
  · refine ⟨secret_swap (mem_filter.1 h).1 (hfresh ω h) hx', ?_⟩
    rw [mem_filter]
    exact ⟨mem_univ _, (mem_filter.1 h).2.1⟩
  · rintro ⟨π, k⟩ h x hx ⟨π', k'⟩ h' x' hx' e1 e2
    simp only [Prod.mk.injEq] at e1 e2 ⊢
    obtain ⟨e1, rfl⟩ := e1
    have h3 : (π * Equiv.swap (π.symm y) x) x = y := by rw [Equiv.Perm.mul_apply, Equiv.swap_apply_right, Equiv.apply_symm_apply]
    have h4 : (π' * Equiv.swap (π'.symm y) x') x' = y := by rw [Equiv.Perm.mul_apply, Equiv.swap_apply_right, Equiv.apply_symm_apply]
    have h5 : x = x' := by
      rw [← e1] at h4
      exact (π * Equiv.swap (π.symm y) x).injective (h3.trans h4.symm)
    subst h5
    rw [e2] at e1
    exact ⟨⟨mul_right_cancel e1, rfl⟩, rfl⟩

/-- **A question for a preimage, answered by a state with a known tag** -/
theorem secret_back_tag (j : Fin (n + 2)) (L : List (State × State)) (T : List (State × F)) {y : State} (hy : y ∉ L.map Prod.snd) (v : State) :
    ((Secret j L T).filter fun ω => ω.1.symm y = blinded v j ω.2).card * (Fintype.card F ^ (n + 1) - L.length) ≤ 1 * (Secret j L T).card := by
  refine count_pairs (U := fun _ => univ.filter fun z : State => z 1 = y 1 ∧ z ∉ L.map Prod.snd) (V := fun _ => ({()} : Finset Unit)) (fun ω _ => ?_)
    (fun ω _ => le_rfl) (fun ω z => (Equiv.swap y z * ω.1, ω.2)) (fun _ _ => ()) (fun ω h z hz => ⟨?_, mem_singleton_self _⟩) ?_
  · have h1 : (univ.filter fun z : State => z 1 = y 1) ⊆ (univ.filter fun z : State => z 1 = y 1 ∧ z ∉ L.map Prod.snd) ∪ univ.filter fun z => z ∈ L.map Prod.snd := by
      intro z hz
      simp only [mem_union, mem_filter, mem_univ, true_and] at hz ⊢
      tauto
    have h2 := (card_le_card h1).trans (card_union_le _ _)
    have h3 := list_card (L.map Prod.snd)
    rw [card_word_eq] at h2
    rw [List.length_map] at h3
    omega
  · rw [mem_filter, mem_secret] at h
    simp only [mem_filter, mem_univ, true_and] at hz
    rw [mem_secret]
    refine ⟨fun r hr => ?_, h.1.2.1, fun r hr => ?_⟩
    · have e : r.2 ∈ L.map Prod.snd := List.mem_map.2 ⟨r, hr, rfl⟩
      rw [Equiv.Perm.mul_apply, h.1.1 r hr, Equiv.swap_apply_of_ne_of_ne (fun e' : r.2 = y => hy (e' ▸ e)) (fun e' : r.2 = z => hz.2 (e' ▸ e))]
    · dsimp only
      rw [Equiv.Perm.mul_apply, ← h.1.2.2 r hr]
      rcases eq_or_ne (ω.1 (blinded r.1 j ω.2)) y with e | e
      · rw [e, Equiv.swap_apply_left, hz.1]
      · rcases eq_or_ne (ω.1 (blinded r.1 j ω.2)) z with e' | e'
        · rw [e', Equiv.swap_apply_right, hz.1]
        · rw [Equiv.swap_apply_of_ne_of_ne e e']
  · rintro ⟨π, k⟩ h z hz ⟨π', k'⟩ h' z' hz' e1 -
    simp only [Prod.mk.injEq] at e1 ⊢
    obtain ⟨e1, rfl⟩ := e1
    have h3 : π (blinded v j k) = y := by rw [← (mem_filter.1 h).2, Equiv.apply_symm_apply]
    have h4 : π' (blinded v j k) = y := by rw [← (mem_filter.1 h').2, Equiv.apply_symm_apply]
    have h5 : z = z' := by
      have := congrArg (fun σ : Equiv.Perm State => σ (blinded v j k)) e1
      simp only [Equiv.Perm.mul_apply, h3, h4, Equiv.swap_apply_left] at this
      exact this
    subst h5
    exact ⟨⟨mul_left_cancel e1, rfl⟩, rfl⟩

/-- **A new tag** -/
theorem secret_tag (j : Fin (n + 2)) (L : List (State × State)) (T : List (State × F)) {v : State} (hv : ∀ p ∈ T, Differ j p.1 v) (d : F) :
    ((Secret j L T).filter fun ω => tag ω.1 j ω.2 v = d).card * (Fintype.card F ^ (n + 2) - (L.length + T.length)) ≤
      Fintype.card F ^ (n + 1) * (Secret j L T).card := by
  have hfresh : ∀ ω ∈ Secret j L T, blinded v j ω.2 ∈ freshStates j L T ω.2 := by
    intro ω h
    rw [mem_secret] at h
    simp only [freshStates, mem_filter, mem_univ, true_and]
    refine ⟨fun hm => ?_, fun hm => ?_⟩
    · obtain ⟨p, hp, e⟩ := List.mem_map.1 hm
      exact h.2.1 p hp (by rw [e, blinded_at])
    · obtain ⟨p, hp, e⟩ := List.mem_map.1 hm
      obtain ⟨i, hi, hne⟩ := hv p hp
      have := congrFun e i
      rw [blinded, blinded, Function.update_of_ne hi, Function.update_of_ne hi] at this
      exact hne this
  refine count_pairs (U := fun ω => freshStates j L T ω.2) (V := fun _ => univ.filter fun x : State => x 1 = d) (fun ω _ => ?_)
    (fun ω _ => (card_word_eq 1 d).le) (fun ω x' => (ω.1 * Equiv.swap (blinded v j ω.2) x', ω.2)) (fun ω _ => ω.1 (blinded v j ω.2)) (fun ω h x' hx' => ?_) ?_
  · have := fresh_card j L T ω.2
    omega
  · refine ⟨secret_swap (mem_filter.1 h).1 (hfresh ω (mem_filter.1 h).1) hx', ?_⟩
    rw [mem_filter]
    exact ⟨mem_univ _, (mem_filter.1 h).2⟩
  · rintro ⟨π, k⟩ h x hx ⟨π', k'⟩ h' x' hx' e1 e2
    simp only [Prod.mk.injEq] at e1 e2 ⊢
    obtain ⟨e1, rfl⟩ := e1
    have h3 : (π * Equiv.swap (blinded v j k) x) x = π (blinded v j k) := by rw [Equiv.Perm.mul_apply, Equiv.swap_apply_right]
    have h4 : (π' * Equiv.swap (blinded v j k) x') x' = π (blinded v j k) := by rw [Equiv.Perm.mul_apply, Equiv.swap_apply_right, e2]
    have h5 : x = x' := by
      rw [← e1] at h4
      exact (π * Equiv.swap (blinded v j k) x).injective (h3.trans h4.symm)
    subst h5
    exact ⟨⟨mul_right_cancel e1, rfl⟩, rfl⟩

/-! ## Along the attack -/

/-- the answer is right and new, where the tags of `asked` are known already -/
def ForgesFrom (j : Fin (n + 2)) (asked : List State) (A : KeyedAttack State F (State × F)) (ω : Equiv.Perm State × F) : Prop :=
  tag ω.1 j ω.2 (A.run ω.1 j ω.2).2.1 = (A.run ω.1 j ω.2).2.2 ∧ ∀ w, w ∈ asked ∨ w ∈ (A.run ω.1 j ω.2).1 → Differ j w (A.run ω.1 j ω.2).2.1

open scoped Classical

theorem split_ask (j : Fin (n + 2)) (L : List (State × State)) (T : List (State × F)) (x : State) (E : Equiv.Perm State × F → Prop) [DecidablePred E] :
    ((Secret j L T).filter fun ω => ω.2 ≠ x j ∧ E ω).card = ∑ y, ((Secret j ((x, y) :: L) T).filter E).card := by
  rw [card_eq_sum_card_fiberwise (f := fun ω => ω.1 x) (t := univ) fun _ _ => mem_coe.2 (mem_univ _)]
  refine sum_congr rfl fun y _ => congrArg card ?_
  ext ω
  simp only [mem_filter, mem_secret, List.forall_mem_cons]
  constructor
  · rintro ⟨⟨⟨h1, h2, h3⟩, h4, h5⟩, h6⟩
    exact ⟨⟨⟨h6, h1⟩, ⟨fun e => h4 e.symm, h2⟩, h3⟩, h5⟩
  · rintro ⟨⟨⟨h6, h1⟩, ⟨h4, h2⟩, h3⟩, h5⟩
    exact ⟨⟨⟨h1, h2, h3⟩, fun e => h4 e.symm, h5⟩, h6⟩

theorem split_back (j : Fin (n + 2)) (L : List (State × State)) (T : List (State × F)) (y : State) (E : Equiv.Perm State × F → Prop) [DecidablePred E] :
    ((Secret j L T).filter fun ω => ω.1.symm y j ≠ ω.2 ∧ E ω).card = ∑ x, ((Secret j ((x, y) :: L) T).filter E).card := by
  rw [card_eq_sum_card_fiberwise (f := fun ω => ω.1.symm y) (t := univ) fun _ _ => mem_coe.2 (mem_univ _)]
  refine sum_congr rfl fun x _ => congrArg card ?_
  ext ω
  simp only [mem_filter, mem_secret, List.forall_mem_cons]
  constructor
  · rintro ⟨⟨⟨h1, h2, h3⟩, h4, h5⟩, rfl⟩
    exact ⟨⟨⟨Equiv.apply_symm_apply _ _, h1⟩, ⟨h4, h2⟩, h3⟩, h5⟩
  · rintro ⟨⟨⟨rfl, h1⟩, ⟨h4, h2⟩, h3⟩, h5⟩
    rw [Equiv.symm_apply_apply]
    exact ⟨⟨⟨h1, h2, h3⟩, h4, h5⟩, rfl⟩

theorem split_tag (j : Fin (n + 2)) (L : List (State × State)) (T : List (State × F)) (v : State) (E : Equiv.Perm State × F → Prop) [DecidablePred E] :
    ((Secret j L T).filter E).card = ∑ d, ((Secret j L ((v, d) :: T)).filter E).card := by
  rw [card_eq_sum_card_fiberwise (f := fun ω => tag ω.1 j ω.2 v) (t := univ) fun _ _ => mem_coe.2 (mem_univ _)]
  refine sum_congr rfl fun d _ => congrArg card ?_
  ext ω
  simp only [mem_filter, mem_secret, List.forall_mem_cons]
  constructor
  · rintro ⟨⟨⟨h1, h2, h3⟩, h5⟩, h6⟩
    exact ⟨⟨h1, h2, h6, h3⟩, h5⟩
  · rintro ⟨⟨h1, h2, h6, h3⟩, h5⟩
    exact ⟨⟨⟨h1, h2, h3⟩, h5⟩, h6⟩

/-- one more question -/
theorem forge_step {Ω J : Type} [Fintype J] {ε B : ℚ} {G : Finset Ω} {N M : Ω → Prop} [DecidablePred N] [DecidablePred M] {g h : J → Nat} (hB : 0 ≤ B)
    (h1 : ((G.filter N).card : ℚ) ≤ ε * G.card) (h2 : (G.filter fun ω => ¬ N ω ∧ M ω).card = ∑ j, g j) (h3 : (G.filter fun ω => ¬ N ω ∧ True).card = ∑ j, h j)
    (h4 : ∀ j, (g j : ℚ) ≤ B * h j) : ((G.filter M).card : ℚ) ≤ (ε + B) * G.card := by
  have e1 : (G.filter M).card ≤ (G.filter N).card + ∑ j, g j := by
    rw [← h2]
    refine le_trans (card_le_card fun ω hω => ?_) (card_union_le _ _)
    rw [mem_union, mem_filter, mem_filter]
    rw [mem_filter] at hω
    tauto
  have e2 : ((∑ j, g j : Nat) : ℚ) ≤ B * G.card := by
    have e3 : ((∑ j, h j : Nat) : ℚ) ≤ G.card := by
      rw [← h3]
      exact_mod_cast card_filter_le _ _
    calc ((∑ j, g j : Nat) : ℚ) = ∑ j, (g j : ℚ) := by push_cast; rfl
      _ ≤ ∑ j, B * h j := sum_le_sum fun j _ => h4 j
      _ = B * ((∑ j, h j : Nat) : ℚ) := by push_cast; rw [mul_sum]
      _ ≤ _ := mul_le_mul_of_nonneg_left e3 hB
  have e4 : ((G.filter M).card : ℚ) ≤ (G.filter N).card + ((∑ j, g j : Nat) : ℚ) := by exact_mod_cast e1
  rw [add_mul]
  linarith

theorem forge_bound {j : Fin (n + 2)} {ε z : ℚ} {N₀ : Nat} (hε : 0 ≤ ε) (hz : 0 ≤ z)
    (hask : ∀ (L : List (State × State)) (T : List (State × F)) (c : F), L.length + T.length < N₀ →
      (((Secret j L T).filter fun ω => ω.2 = c).card : ℚ) ≤ ε * (Secret j L T).card)
    (hback : ∀ (L : List (State × State)) (T : List (State × F)) (y : State), L.length + T.length < N₀ →
      (((Secret j L T).filter fun ω => ω.1.symm y j = ω.2).card : ℚ) ≤ ε * (Secret j L T).card)
    (htag : ∀ (L : List (State × State)) (T : List (State × F)) (v : State) (d : F), (∀ p ∈ T, Differ j p.1 v) → L.length + T.length ≤ N₀ →
      (((Secret j L T).filter fun ω => tag ω.1 j ω.2 v = d).card : ℚ) ≤ z * (Secret j L T).card)
    (A : KeyedAttack State F (State × F)) (Q : Nat) (hA : A.Within Q) (L : List (State × State)) (T : List (State × F)) (hN : L.length + T.length + Q ≤ N₀) :
    (((Secret j L T).filter (ForgesFrom j (T.map Prod.fst) A)).card : ℚ) ≤ (Q * ε + z) * (Secret j L T).card := by
  induction A generalizing Q L T with
  | answer a =>
    obtain ⟨v, d⟩ := a
    have h0 : z * ((Secret j L T).card : ℚ) ≤ (Q * ε + z) * (Secret j L T).card :=
      mul_le_mul_of_nonneg_right (le_add_of_nonneg_left (mul_nonneg (Nat.cast_nonneg _) hε)) (Nat.cast_nonneg _)
    refine le_trans ?_ h0
    by_cases hv : ∀ p ∈ T, Differ j p.1 v
    · refine le_trans ?_ (htag L T v d hv (by omega))
      exact_mod_cast card_le_card fun ω hω => by
        rw [mem_filter] at hω ⊢
        exact ⟨hω.1, hω.2.1⟩
    · rw [filter_false_of_mem]
      · rw [card_empty, Nat.cast_zero]
        exact mul_nonneg hz (Nat.cast_nonneg _)
      · intro ω _ h
        exact hv fun p hp => h.2 p.1 (Or.inl (List.mem_map.2 ⟨p, hp, rfl⟩))
  | ask x next ih =>
    obtain _ | Q := Q
    · exact hA.elim
    have hA : ∀ y, (next y).Within Q := hA
    have hB : (0 : ℚ) ≤ Q * ε + z := add_nonneg (mul_nonneg (Nat.cast_nonneg _) hε) hz
    have h := forge_step (N := fun ω : Equiv.Perm State × F => ω.2 = x j) hB (hask L T (x j) (by omega))
      (split_ask j L T x (ForgesFrom j (T.map Prod.fst) (.ask x next))) (split_ask j L T x fun _ => True) fun y => ?_
    · refine h.trans (le_of_eq ?_)
      push_cast
      ring
    · have e : ((Secret j ((x, y) :: L) T).filter (ForgesFrom j (T.map Prod.fst) (.ask x next))) =
          (Secret j ((x, y) :: L) T).filter (ForgesFrom j (T.map Prod.fst) (next y)) := by
        refine filter_congr fun ω hω => ?_
        have h1 : ω.1 x = y := (mem_secret.1 hω).1 _ List.mem_cons_self
        simp only [ForgesFrom, KeyedAttack.run, h1]
      rw [e, filter_true]
      exact ih y Q (hA y) _ T (by rw [List.length_cons]; omega)
  | askBack y next ih =>
    obtain _ | Q := Q
    · exact hA.elim
    have hA : ∀ y, (next y).Within Q := hA
    have hB : (0 : ℚ) ≤ Q * ε + z := add_nonneg (mul_nonneg (Nat.cast_nonneg _) hε) hz
    have h := forge_step (N := fun ω : Equiv.Perm State × F => ω.1.symm y j = ω.2) hB (hback L T y (by omega))
      (split_back j L T y (ForgesFrom j (T.map Prod.fst) (.askBack y next))) (split_back j L T y fun _ => True) fun x => ?_
    · refine h.trans (le_of_eq ?_)
      push_cast
      ring
    · have e : ((Secret j ((x, y) :: L) T).filter (ForgesFrom j (T.map Prod.fst) (.askBack y next))) =
          (Secret j ((x, y) :: L) T).filter (ForgesFrom j (T.map Prod.fst) (next x)) := by
        refine filter_congr fun ω hω => ?_
        have h1 : ω.1.symm y = x := (Equiv.symm_apply_eq _).2 ((mem_secret.1 hω).1 _ List.mem_cons_self).symm
        simp only [ForgesFrom, KeyedAttack.run, h1]
      rw [e, filter_true]
      exact ih x Q (hA x) _ T (by rw [List.length_cons]; omega)
  | askTag v next ih =>
    obtain _ | Q := Q
    · exact hA.elim
    have hA : ∀ y, (next y).Within Q := hA
    have h0 : ((Q : ℚ) * ε + z) * ((Secret j L T).card : ℚ) ≤ ((Q + 1 : Nat) * ε + z) * (Secret j L T).card := by
      refine mul_le_mul_of_nonneg_right ?_ (Nat.cast_nonneg _)
      push_cast
      nlinarith
    refine le_trans ?_ h0
    have h1 := split_tag j L T v fun _ => True
    simp only [filter_true] at h1
    rw [split_tag j L T v, h1]
    push_cast
    rw [mul_sum]
    refine sum_le_sum fun d _ => ?_
    have e : ((Secret j L ((v, d) :: T)).filter (ForgesFrom j (T.map Prod.fst) (.askTag v next))) =
        (Secret j L ((v, d) :: T)).filter (ForgesFrom j (((v, d) :: T).map Prod.fst) (next d)) := by
      refine filter_congr fun ω hω => ?_
      have h1 : tag ω.1 j ω.2 v = d := (mem_secret.1 hω).2.2 _ List.mem_cons_self
      simp only [ForgesFrom, KeyedAttack.run, h1, List.map_cons, List.mem_cons]
      refine and_congr_right fun _ => forall_congr' fun w => ?_
      tauto
    rw [e]
    exact ih d Q (hA d) L _ (by rw [List.length_cons]; omega)

end Poseidon
