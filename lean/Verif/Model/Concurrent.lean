import Verif.Model.TestVectors

/-!
# Runs at the same time, with buffers and errors

What `write_params` (poseidon-tests/tests/poseidon377_r1cs.rs:247-266) does next depends on the answers that it got from the operating system, and
not on the contents of the files, which it never reads.  So a run is given by the answers that it got so far, and its next call can be seen from
what it would have made, with these answers and with one more, of two files that it uses alone.
-/

namespace Poseidon.Groth16

/-- What a run has made of two files that were not there and that no other run uses.  poseidon377_r1cs.rs:247-266 -/
def ownFiles (capacity : Nat) (pk vk : List (List UInt8)) (rs : List Response) : Files :=
  (writeParamsRun capacity pk vk ⟨none, none⟩ rs).2

/-- What a call of a run does to a file: `own` is what the run had made of a file of its own before the call, `own'` what it has made of it after the
call.  `File::create` empties the file; a `write` puts the new bytes at the run's own position.  poseidon377_r1cs.rs:256-263 -/
def applyCall (own own' file : Option (List UInt8)) : Option (List UInt8) :=
  match own, own' with
  | _, none => file
  | none, some a => some a
  | some a, some a' => if a.length < a'.length then writeTo file a.length (a'.drop a.length) else file

/-- Runs at the same time: the answers that each has got, and the files.  poseidon377_r1cs.rs:268-275 -/
structure Crowd (ι : Type) where
  responses : ι → List Response
  files : Files

/-- Before the first call.  poseidon377_r1cs.rs:268-275 -/
def Crowd.init {ι : Type} (old : Files) : Crowd ι := ⟨fun _ => [], old⟩

/-- A run gets the next answer.  poseidon377_r1cs.rs:268-275 -/
def Crowd.step {ι : Type} [DecidableEq ι] (capacity : Nat) (pk vk : ι → List (List UInt8)) (m : Crowd ι) (i : ι) (r : Response) : Crowd ι :=
  let own := ownFiles capacity (pk i) (vk i) (m.responses i)
  let own' := ownFiles capacity (pk i) (vk i) (m.responses i ++ [r])
  ⟨Function.update m.responses i (m.responses i ++ [r]), ⟨applyCall own.pk own'.pk m.files.pk, applyCall own.vk own'.vk m.files.vk⟩⟩

/-- A schedule: who gets the next answer of the operating system, and which.  poseidon377_r1cs.rs:268-275 -/
def Crowd.run {ι : Type} [DecidableEq ι] (capacity : Nat) (pk vk : ι → List (List UInt8)) : List (ι × Response) → Crowd ι → Crowd ι
  | [], m => m
  | (i, r) :: l, m => Crowd.run capacity pk vk l (m.step capacity pk vk i r)

/-- How `write_params` of a run has ended; `killed` if it has not.  poseidon377_r1cs.rs:247-266 -/
def Crowd.outcome {ι : Type} (capacity : Nat) (pk vk : ι → List (List UInt8)) (m : Crowd ι) (i : ι) : Outcome :=
  (writeParamsRun capacity (pk i) (vk i) ⟨none, none⟩ (m.responses i)).1

end Poseidon.Groth16
