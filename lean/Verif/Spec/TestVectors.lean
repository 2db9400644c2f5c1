import Verif.Model.TestVectors
import Verif.Spec.Groth16
import Verif.Spec.KeyFile
import Verif.Spec.WriteParams

/-!
# Specification: the files with the keys, over many runs

The vocabulary of C97 and C98.
-/

namespace Poseidon.Groth16

variable {G1 G2 : Type} [AddCommGroup G1] [Module Fq G1] [AddCommGroup G2] [Module Fq G2]

/-- The library does what it promises: the domain has the 4096 roots of unity, the pieces are all of the bytes, and points have coordinates that
determine them and pass the tests of the reader. -/
structure Setting.Good (S : Setting G1 G2) (E1 : Curve Fp) (E2 : Curve Fp2) (back1 : Affine Fp → G1) (back2 : Affine Fp2 → G2) : Prop where
  domain : S.domain.Good
  size : S.domain.size = 4096
  pieces : ∀ bytes, (S.pieces bytes).flatten = bytes
  coords1 : ∀ x, ValidPoint E1 (S.coords1 x) ∧ back1 (S.coords1 x) = x
  coords2 : ∀ x, ValidPoint E2 (S.coords2 x) ∧ back2 (S.coords2 x) = x

/-- `k` and `v` are the two keys of one run of the key generator, in coordinates. -/
def MadeBy (S : Setting G1 G2) (x : Run) (k : ProvingKey (Affine Fp) (Affine Fp2)) (v : VerifyingKey (Affine Fp) (Affine Fp2)) : Prop :=
  ∃ pk, setup S.domain S.g1 S.g2 x.secrets x.circuit = .ok pk ∧ k = pk.map S.coords1 S.coords2 ∧ v = pk.vk.map S.coords1 S.coords2

/-- Nothing failed, and the process lived long enough to write two files of the sizes of the keys. -/
def Run.Undisturbed (x : Run) : Prop := (∀ r ∈ x.responses, r.Good) ∧ 2 + 1577232 + 1448 ≤ effective x.responses

end Poseidon.Groth16
