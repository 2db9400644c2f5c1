import Verif.Model.PowerLoss

/-!
# A loss of power, byte by byte

`write_params` (poseidon-tests/tests/poseidon377_r1cs.rs:247-266) does not ask the operating system to bring the files to the disk.  In
`Model/PowerLoss.lean` a file is after a loss of power as it was at one moment.  Here its length and each of its bytes are from moments of
their own, as on a file system that writes the blocks of a file in any order; and bytes that were not written can be zero, as on one that
extends a file before it fills it.  Which bytes make a block does not matter: the model allows all combinations.
-/

namespace Poseidon.Groth16

variable {G1 G2 : Type} [AddCommGroup G1] [Module Fq G1] [AddCommGroup G2] [Module Fq G2]

/-- What can be left of a file that had the contents `M` at different moments.  `zeros`: bytes that were not written can be zero.
poseidon377_r1cs.rs:256-265 -/
def Torn (zeros : Bool) (M : Option (List UInt8) → Prop) (file : Option (List UInt8)) : Prop :=
  (file = none ∧ M none) ∨
  ∃ a m, file = some a ∧ M (some m) ∧ a.length = m.length ∧
    ∀ (i : Nat) (b : UInt8), a[i]? = some b → (∃ m', M (some m') ∧ m'[i]? = some b) ∨ (zeros = true ∧ b = 0)

/-- What can be on the disk if the power is lost after a history.  poseidon377_r1cs.rs:256-265 -/
def TornLoss (zeros : Bool) (S : Setting G1 G2) (l : List Run) (old files : Files) : Prop :=
  Torn zeros (fun f => ∃ m, Moment S l old m ∧ f = m.pk) files.pk ∧ Torn zeros (fun f => ∃ m, Moment S l old m ∧ f = m.vk) files.vk

end Poseidon.Groth16
