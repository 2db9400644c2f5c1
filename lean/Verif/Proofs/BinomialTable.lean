import Mathlib.Data.Nat.Choose.Basic
import Mathlib.Algebra.Order.Ring.Nat

/-!
# Kernel-checked tables about binomial coefficients and powers

Kept apart from the model so that they are not rebuilt with it.
-/

namespace Poseidon

/-- Number of bits (same as `numBits`). -/
def bitLen (x : Nat) : Nat := if x = 0 then 0 else x.log2 + 1

/-- Binomial coefficients by running products. -/
def chooseRun (u i : Nat) : Nat := Nat.rec (motive := fun _ => Nat) 1 (fun i acc => acc * (u - i) / (i + 1)) i

/-- The condition at width 2 for the least security level that needs `T` rounds, `S` of them full. -/
def binomialCheck (a S T : Nat) : Bool :=
  let rP := max 1 (T - S)
  let u := 2 * (S - 1) + 2 * rP + a
  let m := min 256 (Nat.log2 (a ^ T))
  (17 ≤ a && m ≤ 2 * bitLen (2 ^ u / (u + 1))) || m ≤ 2 * bitLen (chooseRun u (min (rP + a) (u / 2)))

/-- All `T` up to the first with `2^256 ≤ a^T`. -/
def binomialCheckAll (a S : Nat) : Nat → Nat → Bool
  | 0, _ => false
  | n + 1, T => binomialCheck a S T && (256 ≤ Nat.log2 (a ^ T) || binomialCheckAll a S n (T + 1))

set_option maxRecDepth 4000 in
theorem binomialCheck_table : ((List.range 125).all fun k => binomialCheckAll (k + 3) 6 170 0 && binomialCheckAll (k + 3) 10 170 0) = true := by
  decide +kernel

/-- No power `t^r` of a width that is not a power of two is close to a power of two. -/
def farFromPow (t r : Nat) : Bool :=
  let k := Nat.log2 (t ^ r)
  2 ^ k * (2 ^ 19 + 1) ≤ t ^ r * 2 ^ 19 && t ^ r * (2 ^ 19 + 1) ≤ 2 ^ (k + 1) * 2 ^ 19

theorem farFromPow_all : ∀ t < 65, 1 ≤ t → 2 ^ Nat.log2 t = t ∨ ∀ r < 102, 1 ≤ r → farFromPow t r = true := by
  decide +kernel

end Poseidon
