import Verif.Model.Groth16
import Verif.Model.KeyShape
import Mathlib.RingTheory.RootsOfUnity.PrimitiveRoots

/-!
# Specification: the proof system used by the tests

The vocabulary of C86 and C87: what the evaluation domain, the coset generator, the pairing and the secrets of the key are.
-/

namespace Poseidon.Groth16

variable {F : Type} [Field F]

/-- The domain as the library builds it: all roots of unity of order `size`. -/
structure Domain.Good (d : Domain F) : Prop where
  root : IsPrimitiveRoot d.gen d.size
  size : (d.size : F) ≠ 0
  offset : d.offset = 1

/-- The coset on which the prover divides is not the domain. -/
def Domain.Coset (d : Domain F) (g : F) : Prop := g ≠ 0 ∧ g ^ d.size ≠ 1

/-- The generator inverts these two secrets. -/
def Secrets.Usable (w : Secrets F) : Prop := w.gamma ≠ 0 ∧ w.delta ≠ 0

/-- The key has this shape. -/
structure KeyShape.Matches {G1 G2 : Type} [Zero G1] [Zero G2] (k : KeyShape) (pk : ProvingKey G1 G2) : Prop where
  gammaAbcG1 : pk.vk.gammaAbcG1.length = k.gammaAbcG1
  aQuery : pk.aQuery.length = k.aQuery
  bG1Query : pk.bG1Query.length = k.bG1Query
  bG2Query : pk.bG2Query.length = k.bG2Query
  hQuery : pk.hQuery.length = k.hQuery
  lQuery : pk.lQuery.length = k.lQuery
  aZero : ∀ (j : Nat) (x : G1), pk.aQuery[j]? = some x → (x = 0 ↔ k.aZero.testBit j = true)
  bG1Zero : ∀ (j : Nat) (x : G1), pk.bG1Query[j]? = some x → (x = 0 ↔ k.bG1Zero.testBit j = true)
  bG2Zero : ∀ (j : Nat) (x : G2), pk.bG2Query[j]? = some x → (x = 0 ↔ k.bG2Zero.testBit j = true)
  same : ∀ (j : Nat) (x y : G1), pk.aQuery[j]? = some x → pk.bG1Query[j]? = some y → (x = y ↔ k.same.testBit j = true)

/-- A proof written down without any preimage, by someone who knows the secrets of the key: for public inputs `y`, from any two numbers. -/
def simulate [DecidableEq F] {G1 G2 : Type} [AddCommGroup G1] [Module F G1] [AddCommGroup G2] [Module F G2] (g1 : G1) (g2 : G2) (w : Secrets F)
    (vk : VerifyingKey G1 G2) (y : List F) (a b : F) : R (Proof G1 G2) := do
  let prepared ← prepareInputs vk y
  return ⟨a • g1, b • g2, w.delta⁻¹ • ((a * b - w.alpha * w.beta) • g1 - w.gamma • prepared)⟩

/-! ### A prover that does not follow the algorithm -/

variable [DecidableEq F] {G1 G2 : Type} [AddCommGroup G1] [Module F G1] [AddCommGroup G2] [Module F G2]

/-- Coefficients for the generator and for all points of the first group in the key. -/
structure Coeffs1 (F : Type) where
  one : F
  alpha : F
  beta : F
  delta : F
  a : List F
  b : List F
  h : List F
  l : List F
  abc : List F

/-- Coefficients for the generator and for all points of the second group in the key. -/
structure Coeffs2 (F : Type) where
  one : F
  beta : F
  gamma : F
  delta : F
  b : List F

/-- The combination of the points of a key with these coefficients. -/
def Coeffs1.point (k : Coeffs1 F) (g1 : G1) (pk : ProvingKey G1 G2) : G1 :=
  k.one • g1 + k.alpha • pk.vk.alphaG1 + k.beta • pk.betaG1 + k.delta • pk.deltaG1 + msm pk.aQuery k.a + msm pk.bG1Query k.b +
    msm pk.hQuery k.h + msm pk.lQuery k.l + msm pk.vk.gammaAbcG1 k.abc

/-- The same in the second group. -/
def Coeffs2.point (k : Coeffs2 F) (g2 : G2) (pk : ProvingKey G1 G2) : G2 :=
  k.one • g2 + k.beta • pk.vk.betaG2 + k.gamma • pk.vk.gammaG2 + k.delta • pk.vk.deltaG2 + msm pk.bG2Query k.b

/-- A way to make proofs out of the points of the key. -/
structure Strategy (F : Type) where
  a : Coeffs1 F
  b : Coeffs2 F
  c : Coeffs1 F

/-- The proof it makes with a key. -/
def Strategy.proof (k : Strategy F) (g1 : G1) (g2 : G2) (pk : ProvingKey G1 G2) : Proof G1 G2 :=
  ⟨k.a.point g1 pk, k.b.point g2 pk, k.c.point g1 pk⟩

end Poseidon.Groth16
