import Verif.Model.Basic
import Verif.Model.Field
import Mathlib.Algebra.BigOperators.Ring.Finset
import Mathlib.Algebra.Field.ZMod

/-!
# Sums of digests

What it means that the values of a function of one field element, which may panic, add up to zero, with their moments.
-/

namespace Poseidon

/-- `h` never panics, and with `d z` its value at `z`: the moments `∑ z^k d(z)` over the whole field are zero for `k + D < q - 1`, and not for
`k + D = q - 1`; over every coset of a subgroup of the multiplicative group with more than `D` elements the mean of the values is the value at zero. -/
def ZeroSums (D : Nat) (h : Fq → R Fq) : Prop :=
  ∃ d : Fq → Fq, (∀ z, h z = .ok (d z)) ∧ (∀ k, k + D < q - 1 → ∑ z, z ^ k * d z = 0) ∧ (∀ k, k + D = q - 1 → ∑ z, z ^ k * d z ≠ 0) ∧
    ∀ (G : Subgroup Fqˣ), D < Nat.card G → ∀ a : Fq, ∑ᶠ g : G, d (a * (g : Fqˣ)) = Nat.card G * d 0

end Poseidon
