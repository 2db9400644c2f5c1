import Mathlib.Data.Nat.Nth
import Mathlib.Algebra.BigOperators.Group.Finset.Basic
import Mathlib.Algebra.Field.ZMod
import Mathlib.LinearAlgebra.Matrix.Defs

/-!
# Specification: the Grain generator

As in Appendix E of the Poseidon paper: a shift register of 80 bits, of which 160 bits are discarded and the rest taken in pairs; the
second bit of a pair counts if the first one is 1.
-/

namespace Poseidon

/-- `s 0, s 1, …` are the bits of a register that starts with `init`. -/
structure IsRegister (init : List Bool) (s : Nat → Bool) : Prop where
  init : ∀ i (h : i < init.length), s i = init[i]
  step : ∀ i, s (i + 80) = (s (i + 62) ^^ s (i + 51) ^^ s (i + 38) ^^ s (i + 23) ^^ s (i + 13) ^^ s i)

/-- The pairs that count: 80 bits of the start and 160 bits are 120 pairs. -/
def Taken (s : Nat → Bool) (j : Nat) : Prop := 120 ≤ j ∧ s (2 * j) = true

/-- Bit number `k` of the generator -/
noncomputable def grainBit (s : Nat → Bool) (k : Nat) : Bool := s (2 * Nat.nth (Taken s) k + 1)

/-- The number made of the `n` bits from bit `g` on, the first the most significant -/
noncomputable def grainNumber (s : Nat → Bool) (n g : Nat) : Nat := ∑ l ∈ Finset.range n, (grainBit s (g + l)).toNat * 2 ^ (n - 1 - l)

/-- Number `i` of `n` bits, counting from the first bit of the generator -/
noncomputable def grainBlock (s : Nat → Bool) (n i : Nat) : Nat := grainNumber s n (n * i)

/-- Number `i` is below `p`. -/
def Below (s : Nat → Bool) (n p i : Nat) : Prop := grainBlock s n i < p

noncomputable instance (s : Nat → Bool) (n p : Nat) : DecidablePred (Below s n p) := fun _ => Nat.decLt _ _

/-- `B` is the least number such that `N` of the first `B` numbers are below `p`. -/
def HasBelow (s : Nat → Bool) (n p N B : Nat) : Prop := Nat.count (Below s n p) B = N ∧ ∀ B' < B, Nat.count (Below s n p) B' < N

/-- The elements of `GF(p)` for rows and columns of a `t × t` matrix, from the `2 t` numbers of `n` bits from number `B` on -/
noncomputable def grainRows (s : Nat → Bool) (p n t B : Nat) (i : Fin t) : ZMod p := (grainBlock s n (B + i) : ZMod p)
noncomputable def grainColumns (s : Nat → Bool) (p n t B : Nat) (j : Fin t) : ZMod p := (grainBlock s n (B + (t + j)) : ZMod p)

/-- They are different, and no row element is minus a column element. -/
def GrainAdmissible (s : Nat → Bool) (p n t B : Nat) : Prop :=
  (∀ i j : Fin (2 * t), (grainBlock s n (B + i) : ZMod p) = (grainBlock s n (B + j) : ZMod p) → i = j) ∧
    ∀ i j, grainRows s p n t B i + grainColumns s p n t B j ≠ 0

/-- The Cauchy matrix of these elements -/
noncomputable def grainMatrix (s : Nat → Bool) (p n t B : Nat) [Fact p.Prime] : Matrix (Fin t) (Fin t) (ZMod p) :=
  Matrix.of fun i j => (grainRows s p n t B i + grainColumns s p n t B j)⁻¹

end Poseidon
