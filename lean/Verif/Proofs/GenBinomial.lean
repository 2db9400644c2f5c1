import Verif.Props.Security
import Verif.Proofs.BinomialTable

/-!
# When the binomial condition of Poseidon2 follows from the conditions of Poseidon
-/

namespace Poseidon

theorem chooseRun_eq (u : Nat) : ∀ i, chooseRun u i = Nat.choose u i
  | 0 => (Nat.choose_zero_right u).symm
  | i + 1 => by
    show chooseRun u i * (u - i) / (i + 1) = _
    rw [chooseRun_eq u i, choose_step]

theorem bitLen_eq (x : Nat) : bitLen x = numBits x := rfl

theorem pow_le_middle (u : Nat) : 2 ^ u / (u + 1) ≤ Nat.choose u (u / 2) := by
  rw [Nat.div_le_iff_le_mul_add_pred (by omega), ← Nat.sum_range_choose]
  refine (Finset.sum_le_card_nsmul _ _ (Nat.choose u (u / 2)) (fun i _ => Nat.choose_le_middle i u)).trans ?_
  rw [Finset.card_range, smul_eq_mul]
  omega

theorem binomialCheckAll_spec {a S : Nat} : ∀ {n T0 : Nat}, binomialCheckAll a S n T0 = true → ∀ T, T0 ≤ T →
    (∀ T', T0 ≤ T' → T' < T → Nat.log2 (a ^ T') < 256) → binomialCheck a S T = true
  | 0, _, h => by simp [binomialCheckAll] at h
  | n + 1, T0, h => by
    intro T hT hlt
    rw [binomialCheckAll, Bool.and_eq_true, Bool.or_eq_true, decide_eq_true_eq] at h
    rcases hT.eq_or_lt with rfl | hT'
    · exact h.1
    · rcases h.2 with h2 | h2
      · have := hlt T0 le_rfl hT'; omega
      · exact binomialCheckAll_spec h2 T hT' (fun T' h3 h4 => hlt T' (by omega) h4)

/-- The numeric core: enough rounds against interpolation give a large binomial coefficient. -/
theorem binomialLarge_of_pow {M t a rP S T : Nat} (hM : M ≤ 256) (ht : 2 ≤ t) (ha : 3 ≤ a) (hS : S = 6 ∨ S = 10)
    (hP : 1 ≤ rP) (hT : T ≤ rP + S) (hpow : 2 ^ M ≤ a ^ T) : Spec.BinomialLarge M t a rP S := by
  have hU : 2 * (S - 1) ≤ (S - 1) * t := by rw [mul_comm]; exact Nat.mul_le_mul_left _ ht
  have fin : ∀ u i, 1 ≤ i → i ≤ rP + a → u ≤ 2 * (S - 1) + 2 * rP + a → i ≤ u → M ≤ 2 * numBits (Nat.choose u i) →
      Spec.BinomialLarge M t a rP S := by
    intro u i h1 h2 h3 h4 h5
    have hc : Nat.choose u i ≤ Nat.choose ((S - 1) * t + rP + t / 3 + (t / 3 * (S / 2) + rP + a)) i :=
      choose_le_of_le (by omega)
    have hpos : Nat.choose u i ≠ 0 := (Nat.choose_pos h4).ne'
    refine ⟨i, _, h1, by omega, numBits_spec (by omega), ?_⟩
    have := numBits_mono hpos hc
    omega
  rcases Nat.lt_or_ge a 128 with hlt | hge
  · -- the table
    have hex : ∃ n, 2 ^ M ≤ a ^ n := ⟨T, hpow⟩
    classical
    have hT0 := Nat.find_spec hex
    have hmin : ∀ n, n < Nat.find hex → ¬ 2 ^ M ≤ a ^ n := fun n hn => Nat.find_min hex hn
    have hle : Nat.find hex ≤ T := Nat.find_min' hex hpow
    generalize Nat.find hex = T0 at hT0 hmin hle
    have hlog : M ≤ Nat.log2 (a ^ T0) := (Nat.le_log2 (by positivity)).2 hT0
    have hchk : binomialCheck a S T0 = true := by
      have tab := List.all_eq_true.1 binomialCheck_table (a - 3) (List.mem_range.2 (by omega))
      rw [show a - 3 + 3 = a by omega, Bool.and_eq_true] at tab
      have hall : binomialCheckAll a S 170 0 = true := by
        rcases hS with rfl | rfl
        · exact tab.1
        · exact tab.2
      refine binomialCheckAll_spec hall T0 (Nat.zero_le _) (fun T' _ h4 => ?_)
      by_contra hcon
      refine hmin T' h4 (le_trans (Nat.pow_le_pow_right (by norm_num) hM) ?_)
      exact (Nat.le_log2 (by positivity)).1 (by omega)
    rw [binomialCheck] at hchk
    simp only [Bool.or_eq_true, Bool.and_eq_true, decide_eq_true_eq, chooseRun_eq, bitLen_eq] at hchk
    rcases hchk with ⟨h17, hchk⟩ | hchk
    · have hchk := of_decide_eq_true hchk
      have hm := pow_le_middle (2 * (S - 1) + 2 * max 1 (T0 - S) + a)
      have hp : 2 ^ (2 * (S - 1) + 2 * max 1 (T0 - S) + a) / (2 * (S - 1) + 2 * max 1 (T0 - S) + a + 1) ≠ 0 := by
        rw [Nat.div_ne_zero_iff]
        exact ⟨by omega, Nat.lt_two_pow_self⟩
      have := numBits_mono hp hm
      refine fin (2 * (S - 1) + 2 * max 1 (T0 - S) + a) ((2 * (S - 1) + 2 * max 1 (T0 - S) + a) / 2) ?_ ?_ ?_ ?_ ?_ <;> omega
    refine fin (2 * (S - 1) + 2 * max 1 (T0 - S) + a)
      (min (max 1 (T0 - S) + a) ((2 * (S - 1) + 2 * max 1 (T0 - S) + a) / 2)) ?_ ?_ ?_ ?_ ?_ <;> omega
  · -- large exponents
    refine fin 140 64 (by norm_num) (by omega) (by omega) (by norm_num) ?_
    have : 128 ≤ numBits (Nat.choose 140 64) := by rw [← chooseRun_eq]; decide +kernel
    omega

end Poseidon
