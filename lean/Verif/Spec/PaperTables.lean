import Mathlib.Data.Nat.Notation

/-!
# Specification: Tables 7, 8 and 9 of Appendix G of the Poseidon paper

The concrete instances of the paper, as transcribed in poseidon-paramgen/src/appendix_g.rs:39-50, 110-121 and 167-178 (the columns
the generator is compared with).
-/

namespace Poseidon.Spec

/-- A row: security level `M`, size `n` of the prime in bits, width `t`, full rounds, partial rounds. -/
structure TableRow where
  M : ℕ
  n : ℕ
  t : ℕ
  rF : ℕ
  rP : ℕ
  deriving DecidableEq

/-- Table 7: `x^3`. -/
def table7 : List TableRow :=
  [⟨128, 768, 2, 8, 83⟩, ⟨128, 384, 4, 8, 84⟩, ⟨128, 256, 6, 8, 84⟩, ⟨128, 192, 8, 8, 84⟩, ⟨128, 96, 16, 8, 64⟩,
   ⟨256, 768, 2, 8, 170⟩, ⟨256, 384, 4, 8, 171⟩, ⟨256, 256, 6, 8, 171⟩, ⟨256, 192, 8, 8, 128⟩, ⟨256, 96, 16, 8, 64⟩]

/-- Table 8: `x^5`. -/
def table8 : List TableRow :=
  [⟨128, 768, 2, 8, 56⟩, ⟨128, 384, 4, 8, 56⟩, ⟨128, 256, 6, 8, 57⟩, ⟨128, 192, 8, 8, 57⟩, ⟨128, 96, 16, 8, 42⟩,
   ⟨256, 768, 2, 8, 116⟩, ⟨256, 384, 4, 8, 116⟩, ⟨256, 256, 6, 8, 117⟩, ⟨256, 192, 8, 8, 86⟩, ⟨256, 96, 16, 8, 42⟩]

/-- Table 9: `x^(-1)`. -/
def table9 : List TableRow :=
  [⟨128, 768, 2, 8, 65⟩, ⟨128, 384, 4, 8, 60⟩, ⟨128, 256, 6, 8, 57⟩, ⟨128, 192, 8, 8, 54⟩, ⟨128, 96, 16, 8, 32⟩,
   ⟨256, 768, 2, 8, 134⟩, ⟨256, 384, 4, 8, 128⟩, ⟨256, 256, 6, 8, 126⟩, ⟨256, 192, 8, 8, 89⟩, ⟨256, 96, 16, 8, 32⟩]

end Poseidon.Spec
