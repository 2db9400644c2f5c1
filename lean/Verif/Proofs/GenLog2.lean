import Verif.Proofs.GenSecurity
import Mathlib.Data.Nat.Log
import Mathlib.Tactic.NormNum.NatFactorial

/-!
# Lemmas for the logarithm of a big integer
-/

namespace Poseidon

theorem log2Loop_spec : ∀ (p b : Nat), ∃ k, log2Loop p b = (p >>> (48 * k), b + 48 * k) ∧ p >>> (48 * k) ≤ 2 ^ 50 ∧
    ∀ j, j < k → 2 ^ 50 < p >>> (48 * j) := by
  intro p
  induction p using Nat.strong_induction_on with
  | _ p ih =>
    intro b
    rw [log2Loop]
    split_ifs with h
    · have hlt : p >>> 48 < p := by
        rw [Nat.shiftRight_eq_div_pow]
        exact Nat.div_lt_self (by omega) (by norm_num)
      obtain ⟨k, h1, h2, h3⟩ := ih _ hlt (b + 48)
      have e : ∀ j, p >>> 48 >>> (48 * j) = p >>> (48 * (j + 1)) := by
        intro j; rw [← Nat.shiftRight_add]; congr 1; ring
      refine ⟨k + 1, ?_, by rw [← e]; exact h2, ?_⟩
      · rw [h1, e]; congr 1; ring
      · intro j hj
        rcases j with _ | j
        · simpa using h
        · rw [← e]; exact h3 j (by omega)
    · exact ⟨0, by simp, by simpa using h, by simp⟩

/-- What remains after the blocks have been shifted away, as a real number. -/
theorem log2_block {p k : Nat} (hp : 1 ≤ p) (h : ∀ j, j < k → 2 ^ 50 < p >>> (48 * j)) :
    1 ≤ p >>> (48 * k) ∧ (p >>> (48 * k)) * 2 ^ (48 * k) ≤ p ∧ 4 * p ≤ 5 * ((p >>> (48 * k)) * 2 ^ (48 * k)) ∧
      p < (p >>> (48 * k) + 1) * 2 ^ (48 * k) := by
  rcases k with _ | k
  · simp; omega
  · have h1 := h k (by omega)
    have e : p >>> (48 * (k + 1)) = p >>> (48 * k) / 2 ^ 48 := by
      rw [show 48 * (k + 1) = 48 * k + 48 by ring, Nat.shiftRight_add, Nat.shiftRight_eq_div_pow]
    have hx : 4 ≤ p >>> (48 * (k + 1)) := by
      rw [e, Nat.le_div_iff_mul_le (by norm_num)]; omega
    have hd := Nat.div_mul_le_self p (2 ^ (48 * (k + 1)))
    have hd2 := Nat.lt_div_mul_add (a := p) (b := 2 ^ (48 * (k + 1))) (by positivity)
    rw [← Nat.shiftRight_eq_div_pow] at hd hd2
    have hpos : 0 < 2 ^ (48 * (k + 1)) := by positivity
    generalize p >>> (48 * (k + 1)) = x at *
    generalize 2 ^ (48 * (k + 1)) = y at *
    refine ⟨by omega, hd, ?_, by nlinarith⟩
    nlinarith

end Poseidon
