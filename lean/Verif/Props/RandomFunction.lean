import Verif.Proofs.RandomFunction

/-!
# In the place of a random function (C111)

With a random permutation in place of the shipped ones, the digests of states whose domain separators are in use cannot be told apart from the values of a random
function, even by somebody who may ask for images and preimages of the permutation.  The specification is `Spec/RandomFunction.lean`.
-/

set_option linter.unusedSectionVars false

namespace Poseidon

open Finset

variable {F : Type} [Fintype F] [DecidableEq F] {n : Nat}

theorem real_opposite {H : (Fin (n + 2) → F) → Prop} (π : Equiv.Perm (Fin (n + 2) → F)) :
    ∀ A : Distinguisher (Fin (n + 2) → F) F H, A.opposite.real π = !A.real π
  | .answer _ => rfl
  | .hash _ _ next => real_opposite π (next _)
  | .ask _ next => real_opposite π (next _)
  | .askBack _ next => real_opposite π (next _)

theorem realChance_opposite {H : (Fin (n + 2) → F) → Prop} (A : Distinguisher (Fin (n + 2) → F) F H) : realChance A.opposite = 1 - realChance A := by
  have h0 : (Fintype.card (Equiv.Perm (Fin (n + 2) → F)) : ℚ) ≠ 0 := by exact_mod_cast Fintype.card_ne_zero
  have h1 := card_filter_add_card_filter_not (s := (univ : Finset (Equiv.Perm (Fin (n + 2) → F)))) fun π => A.real π = true
  have h2 : (univ.filter fun π => A.opposite.real π = true) = univ.filter fun π => ¬ A.real π = true := by
    refine filter_congr fun π _ => ?_
    rw [real_opposite, Bool.not_eq_true', Bool.not_eq_true]
  rw [realChance, realChance, eq_sub_iff_add_eq, ← add_div, div_eq_one_iff_eq h0, h2, add_comm, ← card_univ]
  exact_mod_cast h1

theorem idealChance_opposite {H : (Fin (n + 2) → F) → Prop} [Nonempty F] (Z : Simulator (Fin (n + 2) → F) F) (A : Distinguisher (Fin (n + 2) → F) F H) :
    idealChance Z A.opposite = 1 - idealChance Z A := by
  have h0 : (Fintype.card ((Fin (n + 2) → F) → F) : ℚ) ≠ 0 := by exact_mod_cast Fintype.card_ne_zero
  rw [idealChance, idealChance, sum_congr rfl fun ρ _ => ideal_opposite Z ρ A Z.start, sum_sub_distrib, sum_const, nsmul_eq_mul, mul_one, card_univ, sub_div,
    div_self h0]

/-- **C111.** For every set `D` of domain separators there is a simulator such that whoever asks at most `Q` questions finds out with little advantage whether
the digests and the answers about the permutation are those of a random permutation, or those of a random function and the simulator. -/
theorem C111_random_function (D : Finset F) : ∃ Z : Simulator (Fin (n + 2) → F) F,
    ∀ (A : Distinguisher (Fin (n + 2) → F) F (fun x => x 0 ∈ D)) (Q : Nat), A.Within Q → Q < Fintype.card F →
      |realChance A - idealChance Z A| ≤ Q * D.card / (Fintype.card F - Q) + 2 * Q ^ 2 / (Fintype.card F ^ (n + 1) - Q) := by
  refine ⟨listSimulator n D, fun A Q hA hQ => ?_⟩
  set c := Fintype.card F with hc
  have hc0 : 0 < c := lt_of_le_of_lt (Nat.zero_le _) hQ
  have : Nonempty F := Fintype.card_pos_iff.1 hc0
  have hc1 : c ≤ c ^ (n + 1) := Nat.le_self_pow (Nat.succ_ne_zero _) _
  have hc2 : c ^ (n + 1) ≤ c ^ (n + 2) := Nat.pow_le_pow_right hc0 (by omega)
  have hQ1 : Q < c ^ (n + 1) := lt_of_lt_of_le hQ hc1
  have p0 : (0 : ℚ) < (c : ℚ) - Q := sub_pos.2 (by exact_mod_cast hQ)
  have p1 : (0 : ℚ) < ((c ^ (n + 1) : Nat) : ℚ) - Q := sub_pos.2 (by exact_mod_cast hQ1)
  have p2 : ((c ^ (n + 1) : Nat) : ℚ) - Q ≤ ((c ^ (n + 2) : Nat) : ℚ) - Q := sub_le_sub_right (by exact_mod_cast hc2) _
  have p3 : (0 : ℚ) < ((c ^ (n + 1) : Nat) : ℚ) := by exact_mod_cast Nat.pow_pos hc0
  set ε : ℚ := D.card / ((c : ℚ) - Q) + 2 * (Q / (((c ^ (n + 1) : Nat) : ℚ) - Q)) with hε
  have e1 : (Q : ℚ) / (((c ^ (n + 2) : Nat) : ℚ) - Q) ≤ Q / (((c ^ (n + 1) : Nat) : ℚ) - Q) := div_le_div_of_nonneg_left (Nat.cast_nonneg _) p1 p2
  have e2 : (D.card * (c ^ (n + 1) : Nat) : ℚ) / (((c ^ (n + 2) : Nat) : ℚ) - Q) ≤ D.card / ((c : ℚ) - Q) := by
    rw [div_le_div_iff₀ (lt_of_lt_of_le p1 p2) p0, mul_assoc]
    refine mul_le_mul_of_nonneg_left ?_ (Nat.cast_nonneg _)
    have h1 : (1 : ℚ) ≤ ((c ^ (n + 1) : Nat) : ℚ) := by exact_mod_cast Nat.pow_pos hc0
    have h2 : (0 : ℚ) ≤ (Q : ℚ) := Nat.cast_nonneg _
    have h3 : ((c ^ (n + 2) : Nat) : ℚ) = (c ^ (n + 1) : Nat) * (c : ℚ) := by push_cast; ring
    rw [h3, mul_sub]
    nlinarith
  have e3 : (0 : ℚ) ≤ Q / (((c ^ (n + 1) : Nat) : ℚ) - Q) := div_nonneg (Nat.cast_nonneg _) p1.le
  have e4 : (0 : ℚ) ≤ D.card / ((c : ℚ) - Q) := div_nonneg (Nat.cast_nonneg _) p0.le
  have key : ∀ B : Distinguisher (Fin (n + 2) → F) F (fun x => x 0 ∈ D), B.Within Q → realChance B ≤ idealChance (listSimulator n D) B + Q * ε := by
    intro B hB
    have h := real_le (D := D) (n := n) hQ1 (ε := ε) (by rw [hε]; positivity) (by rw [← hc]; linarith) (by rw [← hc, mul_one_div]; linarith) B Q [] [] hB
      ⟨by simp, by simp⟩ (by simp [known]) (by simp)
    have h1 : Agreeing ([] : List ((Fin (n + 2) → F) × (Fin (n + 2) → F))) ([] : List ((Fin (n + 2) → F) × F)) = univ := by ext π; simp [mem_agreeing]
    have h2 : Functions ([] : List ((Fin (n + 2) → F) × F)) = univ := by ext ρ; simp [mem_functions]
    rw [yes, chance, h1, h2, card_univ, card_univ] at h
    rw [realChance, div_le_iff₀ (by exact_mod_cast Fintype.card_pos)]
    exact h
  have hbound : (Q : ℚ) * ε = Q * D.card / (c - Q) + 2 * Q ^ 2 / (c ^ (n + 1) - Q) := by
    rw [hε]
    push_cast
    ring
  rw [← hbound, abs_le]
  have h1 := key A hA
  have h2 := key A.opposite (within_opposite hA)
  rw [realChance_opposite, idealChance_opposite] at h2
  constructor <;> linarith

/-- **C111 in numbers.** With up to `2^64` domain separators and `2^80` questions the advantage is less than one in `2^90`, for every rate. -/
theorem C111_numbers (D : Finset Fq) (hD : D.card ≤ 2 ^ 64) : ∃ Z : Simulator (Fin (n + 2) → Fq) Fq,
    ∀ A : Distinguisher (Fin (n + 2) → Fq) Fq (fun x => x 0 ∈ D), A.Within (2 ^ 80) → |realChance A - idealChance Z A| ≤ 1 / 2 ^ 90 := by
  obtain ⟨Z, hZ⟩ := C111_random_function (n := n) D
  refine ⟨Z, fun A hA => ?_⟩
  have h := hZ A _ hA (by rw [card_Fq]; decide +kernel)
  refine h.trans ?_
  rw [card_Fq]
  have h1 : (2 ^ 80 * 2 ^ 64 * 2 ^ 91 + 2 ^ 80 : Nat) ≤ q := by decide +kernel
  have h2 : (2 * (2 ^ 80) ^ 2 * 2 ^ 91 + 2 ^ 80 : Nat) ≤ q ^ (n + 1) :=
    le_trans (by decide +kernel) (Nat.le_self_pow (Nat.succ_ne_zero n) q)
  have h3 : ((2 ^ 80 * 2 ^ 64 * 2 ^ 91 + 2 ^ 80 : Nat) : ℚ) ≤ q := by exact_mod_cast h1
  have h4 : ((2 * (2 ^ 80) ^ 2 * 2 ^ 91 + 2 ^ 80 : Nat) : ℚ) ≤ (q : ℚ) ^ (n + 1) := by exact_mod_cast h2
  have h5 : (D.card : ℚ) ≤ 2 ^ 64 := by exact_mod_cast hD
  generalize (q : ℚ) ^ (n + 1) = b at h4 ⊢
  generalize (q : ℚ) = a at h3 ⊢
  have h6 : ((2 ^ 80 : Nat) : ℚ) * D.card / (a - ((2 ^ 80 : Nat) : ℚ)) ≤ 1 / 2 ^ 91 := by
    push_cast at h3 ⊢
    rw [div_le_div_iff₀ (by linarith) (by positivity)]
    linarith
  have h7 : 2 * ((2 ^ 80 : Nat) : ℚ) ^ 2 / (b - ((2 ^ 80 : Nat) : ℚ)) ≤ 1 / 2 ^ 91 := by
    push_cast at h4 ⊢
    rw [div_le_div_iff₀ (by linarith) (by positivity)]
    linarith
  calc _ ≤ (1 / 2 ^ 91 + 1 / 2 ^ 91 : ℚ) := add_le_add h6 h7
    _ = 1 / 2 ^ 90 := by norm_num

/-- **C111 needs the set of domain separators.** If digests with any domain separator may be asked for, two questions suffice to tell a random permutation from a
random function and any simulator: ask for a preimage, and for its digest. -/
theorem C111_needed [Nonempty F] : ∃ A : Distinguisher (Fin (n + 2) → F) F (fun x => x 0 ∈ (univ : Finset F)), A.Within 2 ∧ realChance A = 1 ∧
    ∀ Z : Simulator (Fin (n + 2) → F) F, idealChance Z A = 1 / Fintype.card F := by
  obtain ⟨y⟩ : Nonempty (Fin (n + 2) → F) := inferInstance
  refine ⟨.askBack y fun x => .hash x (mem_univ _) fun d => .answer (decide (d = y 1)), fun _ _ => trivial, ?_, fun Z => ?_⟩
  · have h : ∀ π : Equiv.Perm (Fin (n + 2) → F), (Distinguisher.askBack y fun x => .hash x (mem_univ (x 0)) fun d => .answer (decide (d = y 1)) :
        Distinguisher (Fin (n + 2) → F) F (fun x => x 0 ∈ (univ : Finset F))).real π = true := by
      intro π
      simp [Distinguisher.real, digestWith]
    rw [realChance, filter_true_of_mem fun π _ => h π, card_univ]
    exact div_self (by exact_mod_cast Fintype.card_ne_zero)
  · have hF : (Fintype.card F : ℚ) ≠ 0 := by exact_mod_cast Fintype.card_ne_zero
    have h0 : ((Z.preimage Z.start y).1.card : ℚ) ≠ 0 := by exact_mod_cast (Z.preimage Z.start y).2.card_pos.ne'
    have h1 : (Fintype.card ((Fin (n + 2) → F) → F) : ℚ) ≠ 0 := by exact_mod_cast Fintype.card_ne_zero
    have h2 : ∀ x : Fin (n + 2) → F, ∑ ρ : (Fin (n + 2) → F) → F, (if decide (ρ x = y 1) = true then (1 : ℚ) else 0) =
        Fintype.card ((Fin (n + 2) → F) → F) / Fintype.card F := by
      intro x
      have h3 := functions_card (C := []) (x := x) (by simp) (y 1)
      have h4 : Functions ([] : List ((Fin (n + 2) → F) × F)) = univ := by ext ρ; simp [mem_functions]
      have h5 : Functions [(x, y 1)] = univ.filter fun ρ : (Fin (n + 2) → F) → F => ρ x = y 1 := by ext ρ; simp [mem_functions]
      rw [h4, h5, card_univ] at h3
      simp only [decide_eq_true_eq, sum_boole]
      rw [h3, Nat.cast_mul, mul_div_cancel_left₀ _ hF]
    show (∑ ρ : (Fin (n + 2) → F) → F, (∑ r ∈ (Z.preimage Z.start y).1, if decide (ρ r.2 = y 1) = true then (1 : ℚ) else 0) /
      (Z.preimage Z.start y).1.card) / _ = _
    rw [mean_swap, sum_congr rfl fun r _ => by rw [h2 r.2], sum_const, nsmul_eq_mul, mul_div_cancel_left₀ _ h0]
    field_simp

/-- **C111 is about something.** An algorithm that compares a digest with word 1 of the image asks two questions and says yes for every permutation. -/
example (x : Fin 3 → Fq) (hx : x 0 ∈ ({5} : Finset Fq)) : ∃ A : Distinguisher (Fin 3 → Fq) Fq (fun x => x 0 ∈ ({5} : Finset Fq)), A.Within 2 ∧ realChance A = 1 := by
  refine ⟨.hash x hx fun d => .ask x fun y => .answer (decide (d = y 1)), fun _ _ => trivial, ?_⟩
  have h : ∀ π : Equiv.Perm (Fin 3 → Fq), (Distinguisher.hash x hx fun d => .ask x fun y => .answer (decide (d = y 1)) :
      Distinguisher (Fin 3 → Fq) Fq (fun x => x 0 ∈ ({5} : Finset Fq))).real π = true := by
    intro π
    simp [Distinguisher.real, digestWith]
  rw [realChance, filter_true_of_mem fun π _ => h π, card_univ]
  exact div_self (by exact_mod_cast Fintype.card_ne_zero)

end Poseidon
