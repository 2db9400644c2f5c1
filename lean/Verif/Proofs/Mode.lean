import Verif.Spec.Mode
import Mathlib.Algebra.BigOperators.Intervals
import Mathlib.Algebra.BigOperators.Ring.Finset
import Mathlib.Algebra.Group.Action.Defs
import Mathlib.Algebra.Order.BigOperators.Group.Finset
import Mathlib.Tactic.Linarith
import Mathlib.Tactic.Ring

/-! # Counting permutations along an attack -/

set_option linter.unusedSectionVars false

namespace Poseidon

open Finset

variable {S : Type} [Fintype S] [DecidableEq S]

/-- The permutations that agree with a list of pairs -/
def AgreeWith (L : List (S × S)) : Finset (Equiv.Perm S) := univ.filter fun π => ∀ p ∈ L, π p.1 = p.2

theorem mem_agree {L : List (S × S)} {π : Equiv.Perm S} : π ∈ AgreeWith L ↔ ∀ p ∈ L, π p.1 = p.2 := by simp [AgreeWith]

/-- A list of pairs that some permutation may agree with -/
structure Known (L : List (S × S)) : Prop where
  fst : (L.map Prod.fst).Nodup
  snd : (L.map Prod.snd).Nodup

theorem Known.cons {L : List (S × S)} (h : Known L) {x y : S} (hx : x ∉ L.map Prod.fst) (hy : y ∉ L.map Prod.snd) : Known ((x, y) :: L) :=
  ⟨by rw [List.map_cons]; exact List.nodup_cons.2 ⟨hx, h.fst⟩, by rw [List.map_cons]; exact List.nodup_cons.2 ⟨hy, h.snd⟩⟩

theorem agree_cons {L : List (S × S)} {x y : S} : AgreeWith ((x, y) :: L) = (AgreeWith L).filter fun π => π x = y := by
  ext π
  simp [mem_agree, and_comm]

theorem agree_used {L : List (S × S)} {x y : S} (hx : x ∉ L.map Prod.fst) (hy : y ∈ L.map Prod.snd) : AgreeWith ((x, y) :: L) = ∅ := by
  refine eq_empty_of_forall_notMem fun π h => ?_
  rw [mem_agree] at h
  obtain ⟨⟨a, b⟩, hp, rfl⟩ := List.mem_map.1 hy
  have h1 := h (a, b) (List.mem_cons_of_mem _ hp)
  have h2 := h (x, b) List.mem_cons_self
  have h3 : a = x := π.injective (h1.trans h2.symm)
  exact hx (List.mem_map.2 ⟨(a, b), hp, h3⟩)

theorem agree_used' {L : List (S × S)} {x y : S} (hx : x ∈ L.map Prod.fst) (hy : y ∉ L.map Prod.snd) : AgreeWith ((x, y) :: L) = ∅ := by
  refine eq_empty_of_forall_notMem fun π h => ?_
  rw [mem_agree] at h
  obtain ⟨⟨a, b⟩, hp, rfl⟩ := List.mem_map.1 hx
  have h1 := h (a, b) (List.mem_cons_of_mem _ hp)
  have h2 := h (a, y) List.mem_cons_self
  exact hy (List.mem_map.2 ⟨(a, b), hp, h1.symm.trans h2⟩)

/-- The unused images all have the same share. -/
theorem agree_eq {L : List (S × S)} {x y y' : S} (hy : y ∉ L.map Prod.snd) (hy' : y' ∉ L.map Prod.snd) :
    (AgreeWith ((x, y) :: L)).card = (AgreeWith ((x, y') :: L)).card := by
  have key : ∀ {y y' : S}, y ∉ L.map Prod.snd → y' ∉ L.map Prod.snd → (AgreeWith ((x, y) :: L)).card ≤ (AgreeWith ((x, y') :: L)).card := by
    intro y y' hy hy'
    refine card_le_card_of_injOn (fun π => Equiv.swap y y' * π) (fun π hπ => ?_) (fun π _ π' _ e => mul_left_cancel e)
    rw [Finset.mem_coe, mem_agree] at hπ ⊢
    intro p hp
    rcases List.mem_cons.1 hp with rfl | hp'
    · have := hπ (x, y) List.mem_cons_self
      simp only [Equiv.Perm.mul_apply] at this ⊢
      rw [this, Equiv.swap_apply_left]
    · rw [Equiv.Perm.mul_apply, hπ p (List.mem_cons_of_mem _ hp'), Equiv.swap_apply_of_ne_of_ne]
      · rintro rfl; exact hy (List.mem_map.2 ⟨p, hp', rfl⟩)
      · rintro rfl; exact hy' (List.mem_map.2 ⟨p, hp', rfl⟩)
  exact le_antisymm (key hy hy') (key hy' hy)

/-- the states that are not in a list without repetitions -/
theorem card_unused {l : List S} (h : l.Nodup) : (univ.filter fun y => y ∉ l).card = Fintype.card S - l.length := by
  have : (univ.filter fun y => y ∉ l) = univ \ l.toFinset := by
    ext y; simp
  rw [this, card_sdiff_of_subset (subset_univ _), List.toFinset_card_of_nodup h, card_univ]

theorem agree_split {L : List (S × S)} (x : S) (E : Equiv.Perm S → Prop) [DecidablePred E] :
    ((AgreeWith L).filter E).card = ∑ y : S, ((AgreeWith ((x, y) :: L)).filter E).card := by
  rw [card_eq_sum_card_fiberwise (f := fun π => π x) (t := univ) (fun _ _ => by simp)]
  refine sum_congr rfl fun y _ => ?_
  rw [agree_cons, filter_filter, filter_filter]
  congr 1
  ext π
  simp [and_comm]

theorem agree_split' {L : List (S × S)} (y : S) (E : Equiv.Perm S → Prop) [DecidablePred E] :
    ((AgreeWith L).filter E).card = ∑ x : S, ((AgreeWith ((x, y) :: L)).filter E).card := by
  rw [card_eq_sum_card_fiberwise (f := fun π => π.symm y) (t := univ) (fun _ _ => by simp)]
  refine sum_congr rfl fun x _ => ?_
  rw [agree_cons, filter_filter, filter_filter]
  congr 1
  ext π
  have h : π.symm y = x ↔ π x = y := by rw [Equiv.symm_apply_eq, eq_comm]
  simp only [mem_filter, h]
  tauto

theorem agree_share {L : List (S × S)} (h : Known L) {x y : S} (hx : x ∉ L.map Prod.fst) (hy : y ∉ L.map Prod.snd) :
    (AgreeWith ((x, y) :: L)).card * (Fintype.card S - L.length) = (AgreeWith L).card := by
  have h1 := agree_split (L := L) x fun _ => True
  simp only [filter_true] at h1
  rw [h1, ← sum_filter_add_sum_filter_not univ fun y => y ∉ L.map Prod.snd]
  rw [sum_congr rfl fun y' hy' => agree_eq (mem_filter.1 hy').2 hy, sum_const, card_unused h.snd, List.length_map, smul_eq_mul, Nat.mul_comm]
  rw [sum_eq_zero, add_zero]
  intro y' hy'
  rw [agree_used hx (not_not.1 (mem_filter.1 hy').2), card_empty]

/-! ## What an attack learns -/

/-- The pairs an attack knows at its end, when it starts with `L` -/
def Attack.log {A : Type} (π : Equiv.Perm S) : Attack S A → List (S × S) → List (S × S)
  | .answer _, L => L
  | .ask x next, L => (next (π x)).log π (if x ∈ L.map Prod.fst then L else (x, π x) :: L)
  | .askBack y next, L => (next (π.symm y)).log π (if y ∈ L.map Prod.snd then L else (π.symm y, y) :: L)

/-- One question: a sum over its answers -/
theorem sum_bound {ι : Type} [Fintype ι] {w g : ι → Nat} {bad : ι → Prop} [DecidablePred bad] {D B b W : Nat}
    (h1 : ∀ i, bad i → g i ≤ w i) (h2 : ∀ i, ¬ bad i → g i * D ≤ B * w i) (hw : ∑ i, w i = W)
    (hD : ∀ i, w i * D ≤ W) (hb : (univ.filter fun i => bad i ∧ w i ≠ 0).card ≤ b) : (∑ i, g i) * D ≤ (b + B) * W := by
  have h3 : ∀ i, g i * D ≤ B * w i + if bad i ∧ w i ≠ 0 then W else 0 := by
    intro i
    by_cases h : bad i
    · by_cases h0 : w i = 0
      · have := h1 i h
        have : g i = 0 := by omega
        simp [this]
      · rw [if_pos ⟨h, h0⟩]
        exact (Nat.mul_le_mul_right D (h1 i h)).trans ((hD i).trans (Nat.le_add_left _ _))
    · rw [if_neg (fun e => h e.1), add_zero]
      exact h2 i h
  rw [sum_mul]
  refine (sum_le_sum fun i _ => h3 i).trans ?_
  rw [sum_add_distrib, ← mul_sum, hw, ← sum_filter, sum_const, smul_eq_mul, add_mul, Nat.add_comm]
  exact Nat.add_le_add_right (Nat.mul_le_mul_right _ hb) _

/-- **The chance that an attack learns something bad.** `b k` bounds the number of bad answers to a new question when `k` pairs are known. -/
theorem log_bound {A : Type} {Bad : List (S × S) → Prop} [DecidablePred Bad] {b : Nat → Nat} {D : Nat}
    (hf : ∀ L x, Known L → ¬ Bad L → x ∉ L.map Prod.fst → (univ.filter fun y => y ∉ L.map Prod.snd ∧ Bad ((x, y) :: L)).card ≤ b L.length)
    (hb : ∀ L y, Known L → ¬ Bad L → y ∉ L.map Prod.snd → (univ.filter fun x => x ∉ L.map Prod.fst ∧ Bad ((x, y) :: L)).card ≤ b L.length)
    (T : Attack S A) (Q : Nat) (hT : T.Within Q) (L : List (S × S)) (hL : Known L) (hn : ¬ Bad L)
    (hD : D + L.length + Q ≤ Fintype.card S + 1) :
    ((AgreeWith L).filter fun π => Bad (T.log π L)).card * D ≤ (∑ k ∈ range Q, b (L.length + k)) * (AgreeWith L).card := by
  induction T generalizing Q L with
  | answer a =>
    have : ((AgreeWith L).filter fun π => Bad ((Attack.answer a).log π L)) = ∅ := by
      refine filter_eq_empty_iff.2 fun π _ => ?_
      simpa [Attack.log] using hn
    rw [this]
    simp
  | ask x next ih =>
    obtain _ | Q := Q
    · exact hT.elim
    have hT : ∀ y, (next y).Within Q := hT
    by_cases hx : x ∈ L.map Prod.fst
    · obtain ⟨⟨a, y⟩, hp, rfl⟩ := List.mem_map.1 hx
      have e : ((AgreeWith L).filter fun π => Bad ((Attack.ask a next).log π L)) = (AgreeWith L).filter fun π => Bad ((next y).log π L) := by
        refine filter_congr fun π hπ => ?_
        have h1 := mem_agree.1 hπ _ hp
        rw [Attack.log, if_pos hx]
        rw [h1]
      rw [e]
      refine (ih y Q (hT y) L hL hn (by omega)).trans (Nat.mul_le_mul_right _ ?_)
      rw [sum_range_succ]
      omega
    · rw [agree_split x, sum_range_succ']
      have h2 : ∀ k, b (L.length + (k + 1)) = b (L.length + 1 + k) := fun k => by congr 1; omega
      simp only [h2, Nat.add_zero]
      rw [Nat.add_comm]
      have e : ∀ y, ((AgreeWith ((x, y) :: L)).filter fun π => Bad ((Attack.ask x next).log π L)) =
          (AgreeWith ((x, y) :: L)).filter fun π => Bad ((next y).log π ((x, y) :: L)) := by
        intro y
        refine filter_congr fun π hπ => ?_
        have h1 := mem_agree.1 hπ _ List.mem_cons_self
        simp only at h1
        rw [Attack.log, if_neg hx, h1]
      simp only [e]
      refine sum_bound (w := fun y => (AgreeWith ((x, y) :: L)).card) (bad := fun y => y ∈ L.map Prod.snd ∨ Bad ((x, y) :: L))
        (fun y _ => card_filter_le _ _) (fun y hy => ?_) ?_ (fun y => ?_) ?_
      · rw [not_or] at hy
        exact ih y Q (hT y) ((x, y) :: L) (hL.cons hx hy.1) hy.2 (by rw [List.length_cons]; omega)
      · have h3 := agree_split (L := L) x fun _ => True
        simp only [filter_true] at h3
        exact h3.symm
      · by_cases hy : y ∈ L.map Prod.snd
        · rw [agree_used hx hy]
          simp
        · rw [← agree_share hL hx hy]
          exact Nat.mul_le_mul_left _ (by omega)
      · refine (card_le_card fun y hy => ?_).trans (hf L x hL hn hx)
        rw [mem_filter] at hy ⊢
        obtain ⟨-, h4, h5⟩ := hy
        have h6 : y ∉ L.map Prod.snd := fun h => h5 (by rw [agree_used hx h, card_empty])
        exact ⟨mem_univ _, h6, h4.resolve_left h6⟩
  | askBack y next ih =>
    obtain _ | Q := Q
    · exact hT.elim
    have hT : ∀ x, (next x).Within Q := hT
    by_cases hy : y ∈ L.map Prod.snd
    · obtain ⟨⟨x, a⟩, hp, rfl⟩ := List.mem_map.1 hy
      have e : ((AgreeWith L).filter fun π => Bad ((Attack.askBack a next).log π L)) = (AgreeWith L).filter fun π => Bad ((next x).log π L) := by
        refine filter_congr fun π hπ => ?_
        have h1 : π.symm a = x := (Equiv.symm_apply_eq π).2 (mem_agree.1 hπ _ hp).symm
        rw [Attack.log, if_pos hy, h1]
      rw [e]
      refine (ih x Q (hT x) L hL hn (by omega)).trans (Nat.mul_le_mul_right _ ?_)
      rw [sum_range_succ]
      omega
    · rw [agree_split' y, sum_range_succ']
      have h2 : ∀ k, b (L.length + (k + 1)) = b (L.length + 1 + k) := fun k => by congr 1; omega
      simp only [h2, Nat.add_zero]
      rw [Nat.add_comm]
      have e : ∀ x, ((AgreeWith ((x, y) :: L)).filter fun π => Bad ((Attack.askBack y next).log π L)) =
          (AgreeWith ((x, y) :: L)).filter fun π => Bad ((next x).log π ((x, y) :: L)) := by
        intro x
        refine filter_congr fun π hπ => ?_
        have h1 := mem_agree.1 hπ _ List.mem_cons_self
        have h1 : π.symm y = x := (Equiv.symm_apply_eq π).2 h1.symm
        rw [Attack.log, if_neg hy, h1]
      simp only [e]
      refine sum_bound (w := fun x => (AgreeWith ((x, y) :: L)).card) (bad := fun x => x ∈ L.map Prod.fst ∨ Bad ((x, y) :: L))
        (fun y _ => card_filter_le _ _) (fun x hx => ?_) ?_ (fun x => ?_) ?_
      · rw [not_or] at hx
        exact ih x Q (hT x) ((x, y) :: L) (hL.cons hx.1 hy) hx.2 (by rw [List.length_cons]; omega)
      · have h3 := agree_split' (L := L) y fun _ => True
        simp only [filter_true] at h3
        exact h3.symm
      · by_cases hx : x ∈ L.map Prod.fst
        · rw [agree_used' hx hy]
          simp
        · rw [← agree_share hL hx hy]
          exact Nat.mul_le_mul_left _ (by omega)
      · refine (card_le_card fun x hx => ?_).trans (hb L y hL hn hy)
        rw [mem_filter] at hx ⊢
        obtain ⟨-, h4, h5⟩ := hx
        have h6 : x ∉ L.map Prod.fst := fun h => h5 (by rw [agree_used' h hy, card_empty])
        exact ⟨mem_univ _, h6, h4.resolve_left h6⟩

/-- Ask for the images of the states in an answer, too -/
def Attack.check {A : Type} (f : A → List S) : Attack S A → Attack S Unit
  | .answer a => (f a).foldr (fun x T => .ask x fun _ => T) (.answer ())
  | .ask x next => .ask x fun y => (next y).check f
  | .askBack y next => .askBack y fun x => (next x).check f

theorem within_mono {A : Type} {T : Attack S A} {Q Q' : Nat} (h : T.Within Q) (hQ : Q ≤ Q') : T.Within Q' := by
  induction T generalizing Q Q' with
  | answer a => cases Q' <;> trivial
  | ask x next ih =>
    obtain _ | Q := Q
    · exact h.elim
    obtain _ | Q' := Q'
    · omega
    exact fun y => ih y (h y) (by omega)
  | askBack x next ih =>
    obtain _ | Q := Q
    · exact h.elim
    obtain _ | Q' := Q'
    · omega
    exact fun y => ih y (h y) (by omega)

theorem check_within {A : Type} {f : A → List S} {m : Nat} (hf : ∀ a, (f a).length ≤ m) {T : Attack S A} {Q : Nat} (h : T.Within Q) :
    (T.check f).Within (Q + m) := by
  induction T generalizing Q with
  | answer a =>
    have : ∀ l : List S, (l.foldr (fun x (T : Attack S Unit) => .ask x fun _ => T) (.answer ())).Within l.length := by
      intro l
      induction l with
      | nil => trivial
      | cons x l ih => exact fun _ => ih
    exact within_mono (this (f a)) ((hf a).trans (Nat.le_add_left _ _))
  | ask x next ih =>
    obtain _ | Q := Q
    · exact h.elim
    rw [Nat.add_right_comm]
    exact fun y => ih y (h y)
  | askBack x next ih =>
    obtain _ | Q := Q
    · exact h.elim
    rw [Nat.add_right_comm]
    exact fun y => ih y (h y)

/-- what is known at the end: only true pairs, those known before, and those that were checked -/
theorem log_true {A : Type} (π : Equiv.Perm S) (T : Attack S A) (L : List (S × S)) (hL : ∀ p ∈ L, π p.1 = p.2) : ∀ p ∈ T.log π L, π p.1 = p.2 := by
  induction T generalizing L with
  | answer a => exact hL
  | ask x next ih =>
    rw [Attack.log]
    refine ih _ _ ?_
    split_ifs
    · exact hL
    · intro p hp
      rcases List.mem_cons.1 hp with rfl | hp
      · rfl
      · exact hL p hp
  | askBack y next ih =>
    rw [Attack.log]
    refine ih _ _ ?_
    split_ifs
    · exact hL
    · intro p hp
      rcases List.mem_cons.1 hp with rfl | hp
      · exact π.apply_symm_apply y
      · exact hL p hp

theorem log_subset {A : Type} (π : Equiv.Perm S) (T : Attack S A) (L : List (S × S)) {p : S × S} (hp : p ∈ L) : p ∈ T.log π L := by
  induction T generalizing L with
  | answer a => exact hp
  | ask x next ih =>
    rw [Attack.log]
    refine ih _ _ ?_
    split_ifs
    · exact hp
    · exact List.mem_cons_of_mem _ hp
  | askBack y next ih =>
    rw [Attack.log]
    refine ih _ _ ?_
    split_ifs
    · exact hp
    · exact List.mem_cons_of_mem _ hp

theorem check_log {A : Type} {f : A → List S} (π : Equiv.Perm S) (T : Attack S A) (L : List (S × S)) (hL : ∀ p ∈ L, π p.1 = p.2) {x : S}
    (hx : x ∈ f (T.run π)) : (x, π x) ∈ (T.check f).log π L := by
  induction T generalizing L with
  | answer a =>
    have : ∀ (l : List S) (L : List (S × S)), (∀ p ∈ L, π p.1 = p.2) → x ∈ l →
        (x, π x) ∈ (l.foldr (fun x (T : Attack S Unit) => .ask x fun _ => T) (.answer ())).log π L := by
      intro l
      induction l with
      | nil => intro L _ h; cases h
      | cons z l ih =>
        intro L hL h
        rw [List.foldr_cons, Attack.log]
        have hL' : ∀ p ∈ (if z ∈ L.map Prod.fst then L else (z, π z) :: L), π p.1 = p.2 := by
          split_ifs
          · exact hL
          · intro p hp
            rcases List.mem_cons.1 hp with rfl | hp
            · rfl
            · exact hL p hp
        rcases List.mem_cons.1 h with rfl | h
        · refine log_subset π _ _ ?_
          split_ifs with hz
          · obtain ⟨p, hp, rfl⟩ := List.mem_map.1 hz
            rw [hL p hp]
            exact hp
          · exact List.mem_cons_self
        · exact ih _ hL' h
    exact this _ _ hL hx
  | ask z next ih =>
    rw [Attack.check, Attack.log]
    refine ih _ _ ?_ hx
    split_ifs
    · exact hL
    · intro p hp
      rcases List.mem_cons.1 hp with rfl | hp
      · rfl
      · exact hL p hp
  | askBack y next ih =>
    rw [Attack.check, Attack.log]
    refine ih _ _ ?_ hx
    split_ifs
    · exact hL
    · intro p hp
      rcases List.mem_cons.1 hp with rfl | hp
      · exact π.apply_symm_apply y
      · exact hL p hp

end Poseidon
