import Verif.Spec.Hiding
import Verif.Proofs.Hiding
import Verif.Props.Mode

/-!
# Commitments hide the message (C108)

With a random permutation in place of the shipped ones, the digest of a message together with a random word says almost nothing about the message, not even to
someone who may ask for images and preimages of states.  The specification is `Spec/Hiding.lean`.
-/

set_option linter.unusedSectionVars false

namespace Poseidon

open Finset

variable {F : Type} [Fintype F] [DecidableEq F] {n : Nat}

theorem card_digest (c : F) : (univ.filter fun y : Fin (n + 2) → F => y 1 = c).card = Fintype.card F ^ (n + 1) := by
  have h := card_word (n := n) {c} 1
  simpa using h

/-- **C108.** Two ways of making a state from a random value, neither of which makes the same state from two values: an algorithm that sees the digest and asks
at most `Q` questions hardly tells which way was used.  (Exchange `m₀` and `m₁` for the other direction.) -/
theorem C108_hiding (m₀ m₁ : F → Fin (n + 2) → F) (h₀ : Function.Injective m₀) (h₁ : Function.Injective m₁) (A : F → Attack (Fin (n + 2) → F) Bool) (Q : Nat)
    (hA : ∀ c, (A c).Within Q) : ChanceAtMostAbove (2 * Q) (Fintype.card F - 2 * Q) m₀ m₁ A := by
  rw [ChanceAtMostAbove]
  rcases Nat.lt_or_ge (Fintype.card F) (2 * Q) with hQ | hQ
  · rw [Nat.sub_eq_zero_of_le hQ.le]
    simp
  set D := Fintype.card F - 2 * Q with hD
  have hle : Fintype.card F ≤ Fintype.card F ^ (n + 1) := Nat.le_self_pow (Nat.succ_ne_zero _) _
  have hle' : Fintype.card F ≤ Fintype.card F ^ (n + 2) := Nat.le_self_pow (Nat.succ_ne_zero _) _
  -- where the algorithm comes across the hidden states
  let T : Finset (Equiv.Perm (Fin (n + 2) → F) × F) := univ.filter fun ω => (A (digestWith ω.1 (m₀ ω.2))).Touches ω.1 (m₀ ω.2) (m₁ ω.2)
  have hT : T.card * D ≤ 2 * Q * (Fintype.card (Equiv.Perm (Fin (n + 2) → F)) * Fintype.card F) := by
    have e0 : Fintype.card (Equiv.Perm (Fin (n + 2) → F)) * Fintype.card F = ∑ c : F, (Hidden m₀ m₁ (univ.filter fun y : Fin (n + 2) → F => y 1 = c) []).card := by
      rw [← Fintype.card_prod, ← card_univ, card_eq_sum_card_fiberwise (f := fun ω => digestWith ω.1 (m₀ ω.2)) (t := univ) fun _ _ => mem_coe.2 (mem_univ _)]
      refine sum_congr rfl fun c _ => congrArg card ?_
      ext ω
      rw [mem_filter, mem_hidden, mem_agree]
      simp [digestWith]
    have e1 : T.card = ∑ c : F, ((Hidden m₀ m₁ (univ.filter fun y : Fin (n + 2) → F => y 1 = c) []).filter fun ω =>
        (A c).Touches ω.1 (m₀ ω.2) (m₁ ω.2)).card := by
      rw [card_eq_sum_card_fiberwise (f := fun ω => digestWith ω.1 (m₀ ω.2)) (t := univ) fun _ _ => mem_coe.2 (mem_univ _)]
      refine sum_congr rfl fun c _ => congrArg card ?_
      ext ω
      rw [mem_filter, mem_filter, mem_filter, mem_hidden, mem_agree]
      simp only [mem_filter, mem_univ, true_and, List.map_nil, List.not_mem_nil, not_false_iff, false_imp_iff, implies_true]
      constructor
      · rintro ⟨h, rfl⟩
        exact ⟨rfl, h⟩
      · rintro ⟨rfl, h⟩
        exact ⟨h, rfl⟩
    rw [e0, e1, sum_mul, mul_sum]
    refine sum_le_sum fun c _ => touch_bound h₀ h₁ (A c) Q (hA c) [] ⟨by simp, by simp⟩ ?_ ?_ ?_
    · simp only [List.length_nil]; omega
    · rw [card_digest]; simp only [List.length_nil]; omega
    · rw [card_state]; simp only [List.length_nil]; omega
  have hW : saysYes m₀ A ≤ T.card + saysYes m₁ A := by
    rw [saysYes, saysYes]
    refine (card_le_card_sdiff_add_card (s := _) (t := T)).trans ?_
    rw [Nat.add_comm]
    refine Nat.add_le_add_left (card_le_card_of_injOn (fun ω => (ω.1 * Equiv.swap (m₀ ω.2) (m₁ ω.2), ω.2)) ?_ ?_) _
    · intro ω hω
      simp only [coe_sdiff, coe_filter, mem_univ, true_and, Set.mem_sdiff, Set.mem_ofPred_eq, T] at hω
      simp only [coe_filter, mem_univ, true_and, Set.mem_ofPred_eq]
      have e : digestWith (ω.1 * Equiv.swap (m₀ ω.2) (m₁ ω.2)) (m₁ ω.2) = digestWith ω.1 (m₀ ω.2) := by
        rw [digestWith, digestWith, Equiv.Perm.mul_apply, Equiv.swap_apply_right]
      rw [e, run_swap hω.2]
      exact hω.1
    · rintro ⟨π, r⟩ - ⟨π', r'⟩ - e
      simp only [Prod.mk.injEq] at e
      obtain ⟨e, rfl⟩ := e
      rw [mul_right_cancel e]
  calc _ ≤ (T.card + saysYes m₁ A) * D := Nat.mul_le_mul_right _ hW
    _ = saysYes m₁ A * D + T.card * D := by ring
    _ ≤ _ := Nat.add_le_add_left hT _

theorem blinded_injective (v : Fin (n + 2) → F) (j : Fin (n + 2)) : Function.Injective (blinded v j) := Function.update_injective v j

/-- **C108, commitments.** The messages `v` and `w` with a random value in one word, which need not be the same word for both. -/
theorem C108_commitment (v w : Fin (n + 2) → F) (j k : Fin (n + 2)) (A : F → Attack (Fin (n + 2) → F) Bool) (Q : Nat) (hA : ∀ c, (A c).Within Q) :
    ChanceAtMostAbove (2 * Q) (Fintype.card F - 2 * Q) (blinded v j) (blinded w k) A :=
  C108_hiding _ _ (blinded_injective v j) (blinded_injective w k) A Q hA

theorem smaller_chance {X Y P a b E : Nat} (h : X * E ≤ Y * E + a * P) (hE : a * b ≤ E) (ha : 0 < a) : X * b ≤ Y * b + 1 * P := by
  rcases Nat.le_total X Y with hXY | hXY
  · exact (Nat.mul_le_mul_right _ hXY).trans (Nat.le_add_right _ _)
  obtain ⟨d, rfl⟩ := Nat.exists_eq_add_of_le hXY
  have h1 : d * E ≤ a * P := by rw [add_mul] at h; exact Nat.le_of_add_le_add_left h
  have h2 : d * b ≤ P := by
    refine Nat.le_of_mul_le_mul_left ?_ ha
    calc a * (d * b) = d * (a * b) := by ring
      _ ≤ d * E := Nat.mul_le_mul_left _ hE
      _ ≤ _ := h1
  rw [add_mul, one_mul]
  exact Nat.add_le_add_left h2 _

/-- **C108 in numbers.** With `2^100` questions the chances differ by less than one in `2^150`, for every rate. -/
theorem C108_numbers (v w : Fin (n + 2) → Fq) (j k : Fin (n + 2)) (A : Fq → Attack (Fin (n + 2) → Fq) Bool) (hA : ∀ c, (A c).Within (2 ^ 100)) :
    ChanceAtMostAbove 1 (2 ^ 150) (blinded v j) (blinded w k) A ∧ ChanceAtMostAbove 1 (2 ^ 150) (blinded w k) (blinded v j) A := by
  have hE : 2 * 2 ^ 100 * 2 ^ 150 ≤ q - 2 * 2 ^ 100 := by decide +kernel
  have ha : 0 < 2 * 2 ^ 100 := by decide +kernel
  constructor
  · have h := C108_commitment v w j k A _ hA
    rw [ChanceAtMostAbove, card_Fq] at h
    rw [ChanceAtMostAbove, card_Fq]
    exact smaller_chance h hE ha
  · have h := C108_commitment w v k j A _ hA
    rw [ChanceAtMostAbove, card_Fq] at h
    rw [ChanceAtMostAbove, card_Fq]
    exact smaller_chance h hE ha

/-- The attack that computes the digest of `x` and compares -/
def compare (x : Fin (n + 2) → F) (c : F) : Attack (Fin (n + 2) → F) Bool := .ask x fun y => .answer (decide (y 1 = c))

/-- **The random word is needed.** Without it, one question tells the message `v` from the message `w`: the attack always says yes for `v`, and there is a
permutation for which it says no for `w`. -/
theorem C108_unblinded (v w : Fin (n + 2) → F) (h : v ≠ w) (hF : 1 < Fintype.card F) :
    (∀ c, (compare v c).Within 1) ∧
    saysYes (fun _ => v) (compare v) = Fintype.card (Equiv.Perm (Fin (n + 2) → F)) * Fintype.card F ∧
    saysYes (fun _ => w) (compare v) < Fintype.card (Equiv.Perm (Fin (n + 2) → F)) * Fintype.card F := by
  refine ⟨fun c => fun _ => trivial, ?_, ?_⟩
  · rw [← Fintype.card_prod, ← card_univ, saysYes, filter_true_of_mem]
    intro ω _
    simp [compare, Attack.run, digestWith]
  · rw [← Fintype.card_prod, ← card_univ, saysYes]
    refine card_lt_card (filter_ssubset.2 ?_)
    obtain ⟨a, b, hab⟩ := Fintype.exists_pair_of_one_lt_card hF
    obtain ⟨π, h1, h2⟩ : ∃ π : Equiv.Perm (Fin (n + 2) → F), π v = (fun _ => a) ∧ π w = fun _ => b := by
      have hne : (fun _ : Fin (n + 2) => a) ≠ fun _ => b := fun e => hab (congrFun e 0)
      let σ := Equiv.swap v fun _ => a
      have e1 : σ v = fun _ => a := Equiv.swap_apply_left _ _
      have e2 : σ w ≠ fun _ => a := fun e => h (σ.injective (e1.trans e.symm))
      refine ⟨Equiv.swap (σ w) (fun _ => b) * σ, ?_, ?_⟩
      · rw [Equiv.Perm.mul_apply, e1, Equiv.swap_apply_of_ne_of_ne e2.symm hne]
      · rw [Equiv.Perm.mul_apply, Equiv.swap_apply_left]
    refine ⟨(π, a), mem_univ _, ?_⟩
    simp [compare, Attack.run, digestWith, h1, h2, hab]

/-- **C108 covers real attacks.** Trying out one value of the random word is one of them. -/
example : ∀ c, (compare (n := 1) (blinded ![1, 2, 3] 2 (5 : Fq)) c).Within (2 ^ 100) := fun _ => fun _ => trivial

/-- The states of the theorem are the ones the code builds: domain separator 1, message 7 and random value `r`. -/
example (r : Fq) : blinded (n := 1) ![1, 7, 0] 2 r = ![1, 7, r] := by
  funext a
  fin_cases a <;> simp [blinded]

end Poseidon
