import Mathlib.Analysis.SpecialFunctions.Log.Base
import Mathlib.Data.Nat.Choose.Basic
import Verif.Spec.Rounds

/-!
# Specification of the security inequalities of the Poseidon paper

Exact real arithmetic, independent of the model.  `M` is the security level, `lp` the (approximate) binary logarithm of the
field size, `t` the width, `x ↦ x^α` the S-box, `rP`, `rF` the numbers of partial and full rounds.  Every inequality has a slack
`ε`: with `ε = 0` it is the inequality of the paper, with `ε > 0` it is slightly stronger, with `ε < 0` slightly weaker.
-/

namespace Poseidon.Spec

open Classical in
/-- Full rounds needed against statistical attacks, Section 5.5.1: 6, or 10 if `M > (⌊log₂ p⌋ - log₂(α - 1)) (t + 1)`. -/
noncomputable def fullRoundsNeeded (ε : ℝ) (M : ℕ) (lp : ℝ) (t α : ℕ) : ℕ :=
  if (M : ℝ) ≤ (⌊lp⌋ - Real.logb 2 ((α : ℝ) - 1)) * (t + 1) - ε then 6 else 10

/-- The inequalities for a power S-box. -/
structure SecurePower (ε : ℝ) (M : ℕ) (lp : ℝ) (t α rP rF : ℕ) : Prop where
  /-- Section 5.5.1 -/
  statistical : fullRoundsNeeded ε M lp t α ≤ rF
  /-- Interpolation attack, Equation 3 -/
  interpolation : ⌈⌈Real.logb α 2 * min (M : ℝ) lp + ε⌉ + Real.logb α t + ε⌉ < ((rP + rF : ℕ) : ℤ)
  /-- Gröbner basis attack, first condition of Section C.2.2 -/
  grobner1 : Real.logb α 2 * min (M / 3 : ℝ) (lp / 2) + ε < ((rP + rF : ℕ) : ℝ)
  /-- Gröbner basis attack, second condition of Section C.2.2 -/
  grobner2 : (t : ℝ) - 1 + Real.logb α 2 * min (M / (t + 1) : ℝ) (lp / 2) + ε < ((rP + rF : ℕ) : ℝ)

/-- The additional condition of Poseidon2 (eprint 2023/537, Section 4.3, with `ω = 2`): one of the binomial coefficients
`C(upper, 1), ..., C(upper, lower)` has at least `M / 2` bits. -/
def BinomialLarge (M t α rP rF : ℕ) : Prop :=
  ∃ i b, 1 ≤ i ∧ i ≤ t / 3 * (rF / 2) + rP + α ∧
    IsBitLength (Nat.choose ((rF - 1) * t + rP + t / 3 + (t / 3 * (rF / 2) + rP + α)) i) b ∧ M ≤ 2 * b

/-- The inequalities for the inverse S-box; `⌊rF log₂ t⌋` and `⌈log₂ t⌉` are written with integers: the largest `k` with
`2^k ≤ t^rF` and the least `k` with `t ≤ 2^k`. -/
structure SecureInverse (M : ℕ) (lp : ℝ) (t rP rF : ℕ) : Prop where
  /-- Section 5.5.1, with 2 in place of the logarithm -/
  statistical : (M : ℝ) ≤ (⌊lp⌋ - 2) * (t + 1) ∧ 6 ≤ rF ∨ 10 ≤ rF
  /-- Interpolation attack, Equation 4, and first Gröbner basis condition -/
  interpolation : (Nat.clog 2 t : ℤ) + ⌈min (M : ℝ) lp / 2⌉ < ((Nat.log 2 (t ^ rF) + rP : ℕ) : ℤ)
  /-- Gröbner basis attack, second condition -/
  grobner2 : (t : ℤ) - 1 + Nat.clog 2 t + min ⌈(M : ℝ) / (t + 1)⌉ ⌈lp / 2⌉ < ((Nat.log 2 (t ^ rF) + rP : ℕ) : ℤ)

end Poseidon.Spec
