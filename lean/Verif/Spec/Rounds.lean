import Mathlib.Data.Rat.Floor
import Mathlib.Data.Nat.Choose.Basic

/-!
# Specification of the choice of round numbers

Independent of the model: plain natural and rational numbers.
-/

namespace Poseidon.Spec

/-- The candidates: `1 ≤ R_P ≤ 399`, `4 ≤ R_F ≤ 99`. -/
def InRange (rP rF : ℕ) : Prop := 1 ≤ rP ∧ rP ≤ 399 ∧ 4 ≤ rF ∧ rF ≤ 99

/-- 7.5 % more partial rounds, rounded up. -/
def partialWithMargin (rP : ℕ) : ℕ := ⌈(1075 / 1000 : ℚ) * rP⌉₊

/-- Number of S-boxes of the permutation of width `t` with the security margin applied. -/
def cost (t rP rF : ℕ) : ℕ := t * (rF + 2) + partialWithMargin rP

/-- `(rP, rF)` is cheaper than `(sP, sF)`, or equally expensive with at most as many full rounds. -/
def Preferred (t rP rF sP sF : ℕ) : Prop :=
  cost t rP rF < cost t sP sF ∨ (cost t rP rF = cost t sP sF ∧ rF ≤ sF)

/-- `(rP, rF)` is a secure candidate preferred to every secure candidate. -/
def IsBest (secure : ℕ → ℕ → Prop) (t rP rF : ℕ) : Prop :=
  InRange rP rF ∧ secure rP rF ∧ ∀ sP sF, InRange sP sF → secure sP sF → Preferred t rP rF sP sF

/-- Number of bits of a positive integer: the `b` with `2^(b-1) ≤ x < 2^b`. -/
def IsBitLength (x b : ℕ) : Prop := 2 ^ (b - 1) ≤ x ∧ x < 2 ^ b ∧ 1 ≤ b

end Poseidon.Spec
