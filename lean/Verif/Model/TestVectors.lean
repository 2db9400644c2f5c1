import Verif.Model.WriteParams

/-!
# Making the files with the keys

`generate_test_vectors` (poseidon-tests/tests/poseidon377_r1cs.rs:268-275) makes a key and writes it; the tests read what they find
(lines 27-37).  First one run after the other, each with its own errors, then runs at the same time.
-/

namespace Poseidon.Groth16

variable {G1 G2 : Type} [AddCommGroup G1] [Module Fq G1] [AddCommGroup G2] [Module Fq G2]

/-- What stays the same from run to run: the size of the buffers, the pieces in which bytes are handed to them, the coordinates of points,
the domain and the generators of the groups.  Library code under poseidon377_r1cs.rs:161-170 and 247-266. -/
structure Setting (G1 G2 : Type) where
  capacity : Nat
  pieces : List UInt8 → List (List UInt8)
  coords1 : G1 → Affine Fp
  coords2 : G2 → Affine Fp2
  domain : Domain Fq
  g1 : G1
  g2 : G2

/-- What changes: the secrets that were drawn, the circuit, and the answers of the operating system.  After the last of these the process is
killed.  poseidon377_r1cs.rs:271-273 -/
structure Run where
  secrets : Secrets Fq
  circuit : R1cs.PreimageCircuit
  responses : List Response

/-- `generate_test_vectors`, poseidon377_r1cs.rs:268-275.  An error of `write_params` is a panic here. -/
def generateTestVectors (S : Setting G1 G2) (x : Run) (old : Files) : Outcome × Files :=
  match setup S.domain S.g1 S.g2 x.secrets x.circuit with
  | .error _ => (.panicked, old)
  | .ok pk =>
    let pk := pk.map S.coords1 S.coords2
    let r := writeParamsRun S.capacity (S.pieces (writePk pk)) (S.pieces (writeVk pk.vk)) old x.responses
    (if r.1 = .error then .panicked else r.1, r.2)

/-- The files after several runs, one after the other.  poseidon377_r1cs.rs:268-275 -/
def history (S : Setting G1 G2) : List Run → Files → Files
  | [], files => files
  | x :: l, files => history S l (generateTestVectors S x files).2

/-- `PREIMAGE_PK` and `PREIMAGE_VK`, poseidon377_r1cs.rs:27-37: `include_bytes!` of a file that does not exist is an error of the
compiler (`none`), a file that cannot be read is a panic. -/
def loadKeys (E1 : Curve Fp) (E2 : Curve Fp2) (files : Files) :
    Option (R (ProvingKey (Affine Fp) (Affine Fp2) × VerifyingKey (Affine Fp) (Affine Fp2))) :=
  match files.pk, files.vk with
  | some a, some b => some do
    let pk ← preimagePk E1 E2 a
    let vk ← preimageVk E1 E2 b
    return (pk, vk)
  | _, _ => none

/-! ## Runs at the same time -/

/-- Where a run is.  poseidon377_r1cs.rs:256-263 -/
inductive Stage where
  | start
  | createdPk
  /-- both files were created, this many bytes of the proving key were written -/
  | writingPk (offset : Nat)
  | writingVk (offset : Nat)
  | done
deriving DecidableEq

/-- `write` of `bytes` at a position of a file; a gap before it is filled with zeros.  A file that several runs have created is one file, which
each of them writes at a position of its own.  Library code under poseidon377_r1cs.rs:262-263. -/
def writeAt (file : List UInt8) (offset : Nat) (bytes : List UInt8) : List UInt8 :=
  (file ++ List.replicate (offset - file.length) 0).take offset ++ bytes ++ file.drop (offset + bytes.length)

/-- The contents of a file that was created.  poseidon377_r1cs.rs:256-263 -/
def writeTo (file : Option (List UInt8)) (offset : Nat) (bytes : List UInt8) : Option (List UInt8) :=
  file.map fun f => writeAt f offset bytes

/-- The next call to the operating system of a run that writes `pk` and `vk`; a `write` takes `n + 1` bytes, or what is left.  Simplified: no
errors; a run that is killed makes no more calls.  poseidon377_r1cs.rs:256-263 -/
def call (pk vk : List UInt8) (n : Nat) (stage : Stage) (files : Files) : Stage × Files :=
  match stage with
  | .start => (.createdPk, { files with pk := some [] })
  | .createdPk => (.writingPk 0, { files with vk := some [] })
  | .writingPk i =>
    if i < pk.length then
      let bytes := (pk.drop i).take (n + 1)
      (.writingPk (i + bytes.length), { files with pk := writeTo files.pk i bytes })
    else (.writingVk 0, files)
  | .writingVk i =>
    if i < vk.length then
      let bytes := (vk.drop i).take (n + 1)
      (.writingVk (i + bytes.length), { files with vk := writeTo files.vk i bytes })
    else (.done, files)
  | .done => (.done, files)

/-- Runs at the same time: where each of them is, and the files.  poseidon377_r1cs.rs:268-275 -/
structure Machine (ι : Type) where
  stage : ι → Stage
  files : Files

/-- Before the first call.  poseidon377_r1cs.rs:268-275 -/
def Machine.init {ι : Type} (old : Files) : Machine ι := ⟨fun _ => .start, old⟩

/-- A schedule: who makes the next call, and how many bytes it takes.  poseidon377_r1cs.rs:268-275 -/
def Machine.run {ι : Type} [DecidableEq ι] (pk vk : ι → List UInt8) : List (ι × Nat) → Machine ι → Machine ι
  | [], m => m
  | (i, n) :: l, m =>
    let c := call (pk i) (vk i) n (m.stage i) m.files
    Machine.run pk vk l ⟨Function.update m.stage i c.1, c.2⟩

end Poseidon.Groth16
