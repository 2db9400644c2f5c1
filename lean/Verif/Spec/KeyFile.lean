import Verif.Model.KeyFile
import Mathlib.Data.Nat.Digits.Defs

/-!
# The format of the files with keys

Written without the readers and writers of the model: which texts denote which numbers, points and keys.
-/

namespace Poseidon.Groth16

/-- The number a text denotes, least significant byte first. -/
def number (w : List UInt8) : Nat := Nat.ofDigits 256 (w.map UInt8.toNat)

/-- 48 bytes that denote an element of the base field: its canonical representative. -/
def FpText (x : Fp) (w : List UInt8) : Prop := w.length = 48 ∧ number w = x.val

/-- The two highest of the 384 bits. -/
def SWFlags.code : SWFlags → Nat
  | .yIsPositive => 0
  | .pointAtInfinity => 1
  | .yIsNegative => 2

/-- The same with flags in the two highest bits. -/
def FpFlagText (x : Fp) (f : SWFlags) (w : List UInt8) : Prop := w.length = 48 ∧ number w = x.val + f.code * 2 ^ 382

/-- Texts of coordinates, without and with flags. -/
class CoordinateText (F : Type) where
  text : F → List UInt8 → Prop
  flagText : F → SWFlags → List UInt8 → Prop

instance : CoordinateText Fp := ⟨FpText, FpFlagText⟩

instance : CoordinateText Fp2 where
  text x w := ∃ w0 w1, w = w0 ++ w1 ∧ FpText x.c0 w0 ∧ FpText x.c1 w1
  flagText x f w := ∃ w0 w1, w = w0 ++ w1 ∧ FpText x.c0 w0 ∧ FpFlagText x.c1 f w1

variable {F : Type} [Coordinate F] [CoordinateText F]

/-- The points a key may contain: the point at infinity, in its normal form, and points that pass the tests. -/
def ValidPoint (E : Curve F) (P : Affine F) : Prop :=
  P = Affine.identity ∨ P.infinity = false ∧
    Coordinate.mul P.y P.y = Coordinate.add (Coordinate.mul (Coordinate.mul P.x P.x) P.x) E.b ∧ E.subgroup P = true

/-- Texts that are read as the point `P`: `x` and `y` with flags.  If the flag says infinity the coordinates do not matter; otherwise
the sign does not. -/
def PointText (E : Curve F) (P : Affine F) (w : List UInt8) : Prop :=
  ∃ (x y : F) (f : SWFlags) (w0 w1 : List UInt8), w = w0 ++ w1 ∧ CoordinateText.text x w0 ∧ CoordinateText.flagText y f w1 ∧
    (f = .pointAtInfinity ∧ P = Affine.identity ∨ f ≠ .pointAtInfinity ∧ P = ⟨x, y, false⟩ ∧ ValidPoint E P)

/-- A list: its length in 8 bytes, then its elements. -/
def VecText {α : Type} (T : α → List UInt8 → Prop) (l : List α) (w : List UInt8) : Prop :=
  ∃ (n : List UInt8) (ws : List (List UInt8)), w = n ++ ws.flatten ∧ n.length = 8 ∧ number n = l.length ∧ List.Forall₂ T l ws

/-- A verifying key. -/
def VkText (E1 : Curve Fp) (E2 : Curve Fp2) (vk : VerifyingKey (Affine Fp) (Affine Fp2)) (w : List UInt8) : Prop :=
  ∃ a b c d e, w = a ++ b ++ c ++ d ++ e ∧ PointText E1 vk.alphaG1 a ∧ PointText E2 vk.betaG2 b ∧ PointText E2 vk.gammaG2 c ∧
    PointText E2 vk.deltaG2 d ∧ VecText (PointText E1) vk.gammaAbcG1 e

/-- A proving key. -/
def PkText (E1 : Curve Fp) (E2 : Curve Fp2) (pk : ProvingKey (Affine Fp) (Affine Fp2)) (w : List UInt8) : Prop :=
  ∃ v a b c d e f g, w = v ++ a ++ b ++ c ++ d ++ e ++ f ++ g ∧ VkText E1 E2 pk.vk v ∧ PointText E1 pk.betaG1 a ∧ PointText E1 pk.deltaG1 b ∧
    VecText (PointText E1) pk.aQuery c ∧ VecText (PointText E1) pk.bG1Query d ∧ VecText (PointText E2) pk.bG2Query e ∧
    VecText (PointText E1) pk.hQuery f ∧ VecText (PointText E1) pk.lQuery g

/-- All points of a verifying key are valid, and its list is not longer than a machine can hold. -/
structure ValidVk (E1 : Curve Fp) (E2 : Curve Fp2) (vk : VerifyingKey (Affine Fp) (Affine Fp2)) : Prop where
  alphaG1 : ValidPoint E1 vk.alphaG1
  betaG2 : ValidPoint E2 vk.betaG2
  gammaG2 : ValidPoint E2 vk.gammaG2
  deltaG2 : ValidPoint E2 vk.deltaG2
  gammaAbcG1 : vk.gammaAbcG1.length < 2 ^ 64 ∧ ∀ P ∈ vk.gammaAbcG1, ValidPoint E1 P

/-- The same for a proving key. -/
structure ValidPk (E1 : Curve Fp) (E2 : Curve Fp2) (pk : ProvingKey (Affine Fp) (Affine Fp2)) : Prop where
  vk : ValidVk E1 E2 pk.vk
  betaG1 : ValidPoint E1 pk.betaG1
  deltaG1 : ValidPoint E1 pk.deltaG1
  aQuery : pk.aQuery.length < 2 ^ 64 ∧ ∀ P ∈ pk.aQuery, ValidPoint E1 P
  bG1Query : pk.bG1Query.length < 2 ^ 64 ∧ ∀ P ∈ pk.bG1Query, ValidPoint E1 P
  bG2Query : pk.bG2Query.length < 2 ^ 64 ∧ ∀ P ∈ pk.bG2Query, ValidPoint E2 P
  hQuery : pk.hQuery.length < 2 ^ 64 ∧ ∀ P ∈ pk.hQuery, ValidPoint E1 P
  lQuery : pk.lQuery.length < 2 ^ 64 ∧ ∀ P ∈ pk.lQuery, ValidPoint E1 P

/-- The points of a key in the first group. -/
def ProvingKey.points1 {G1 G2 : Type} (pk : ProvingKey G1 G2) : List G1 :=
  pk.vk.alphaG1 :: pk.betaG1 :: pk.deltaG1 :: (pk.vk.gammaAbcG1 ++ pk.aQuery ++ pk.bG1Query ++ pk.hQuery ++ pk.lQuery)

/-- The points of a key in the second group. -/
def ProvingKey.points2 {G1 G2 : Type} (pk : ProvingKey G1 G2) : List G2 :=
  pk.vk.betaG2 :: pk.vk.gammaG2 :: pk.vk.deltaG2 :: pk.bG2Query

/-- The zero of the groups is the point at infinity. -/
instance {F : Type} [Coordinate F] : Zero (Affine F) := ⟨Affine.identity⟩

end Poseidon.Groth16
