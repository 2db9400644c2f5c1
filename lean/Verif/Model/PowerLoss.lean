import Verif.Model.TestVectors

/-!
# A loss of power

`write_params` (poseidon-tests/tests/poseidon377_r1cs.rs:247-266) does not ask the operating system to bring the files to the disk (there is no
`sync_all`).  So after a loss of power each of the two files may be as it was at any earlier moment, and not both need be from the same moment.
Simplified: one file is as it was at one moment; parts of it from different moments are in `Model/TornFile.lean`.
-/

namespace Poseidon.Groth16

variable {G1 G2 : Type} [AddCommGroup G1] [Module Fq G1] [AddCommGroup G2] [Module Fq G2]

/-- `files` were there at some moment of a history: at its end, or after the first `n` answers of the operating system to some run.
poseidon377_r1cs.rs:256-263 -/
def Moment (S : Setting G1 G2) (l : List Run) (old files : Files) : Prop :=
  files = history S l old ∨
    ∃ l₁ x l₂ n, l = l₁ ++ x :: l₂ ∧ files = (generateTestVectors S { x with responses := x.responses.take n } (history S l₁ old)).2

/-- What can be on the disk if the power is lost after a history: each file as it was at some moment.  poseidon377_r1cs.rs:256-265 -/
def PowerLoss (S : Setting G1 G2) (l : List Run) (old files : Files) : Prop :=
  (∃ m, Moment S l old m ∧ files.pk = m.pk) ∧ ∃ m, Moment S l old m ∧ files.vk = m.vk

end Poseidon.Groth16
