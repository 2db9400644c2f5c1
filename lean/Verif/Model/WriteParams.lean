import Verif.Model.KeyFile

/-!
# Writing the files with the keys

`write_params` (poseidon-tests/tests/poseidon377_r1cs.rs:247-266) with the calls to the operating system that it makes through
`std::fs::File` and `std::io::BufWriter`.  Each call takes the next of a list of responses; when the list is at its end the process is
killed.  So a list of responses stands for a run with its errors up to any point, and a run that is stopped there.

Here contents that were handed to the operating system are kept; for a loss of power, after which they may not be, see `PowerLoss`.
-/

namespace Poseidon.Groth16

/-- What the operating system answers to a call.  Part of poseidon377_r1cs.rs:256-263. -/
inductive Response where
  /-- success; `write` has taken at most this number of bytes -/
  | done (n : Nat)
  /-- `EINTR`, after which the library calls again -/
  | interrupted
  /-- any other error -/
  | failed
deriving DecidableEq

/-- How a part of the program ends.  Part of poseidon377_r1cs.rs:256-263. -/
inductive Status where
  | ok
  /-- an `io::Error` -/
  | error
  /-- the process was killed -/
  | killed
deriving DecidableEq

/-- `File::create` of a file: empties it, or makes it.  Returns the status, the file and the responses that are left.
poseidon377_r1cs.rs:256-257 -/
def createFile : List Response → Option (List UInt8) → Status × Option (List UInt8) × List Response
  | [], file => (.killed, file, [])
  | .done _ :: rs, _ => (.ok, some [], rs)
  | .interrupted :: rs, file => createFile rs file
  | .failed :: rs, file => (.error, file, rs)

/-- A writer: the bytes in its buffer, the contents of its file, and the responses to come.  `BufWriter<File>`,
poseidon377_r1cs.rs:259-260 -/
structure Writer where
  buffer : List UInt8
  file : List UInt8
  responses : List Response

/-- The loop around `write`, in `Write::write_all` of files and in `BufWriter::flush_buf`: what is left of the bytes, the
file, and the responses.  A `write` that takes no byte is an error.  Library code under poseidon377_r1cs.rs:262. -/
def writeLoop : List Response → List UInt8 → List UInt8 → Status × List UInt8 × List UInt8 × List Response
  | rs, [], file => (.ok, [], file, rs)
  | [], b :: bytes, file => (.killed, b :: bytes, file, [])
  | .done 0 :: rs, b :: bytes, file => (.error, b :: bytes, file, rs)
  | .done (n + 1) :: rs, b :: bytes, file => writeLoop rs ((b :: bytes).drop (n + 1)) (file ++ (b :: bytes).take (n + 1))
  | .interrupted :: rs, b :: bytes, file => writeLoop rs (b :: bytes) file
  | .failed :: rs, b :: bytes, file => (.error, b :: bytes, file, rs)

/-- `BufWriter::flush_buf`.  Library code under poseidon377_r1cs.rs:262. -/
def Writer.flush (w : Writer) : Status × Writer :=
  let r := writeLoop w.responses w.buffer w.file
  (r.1, ⟨r.2.1, r.2.2.1, r.2.2.2⟩)

/-- `BufWriter::write_all`, where it makes room for `n` bytes; `capacity` is 8192.  Library code under poseidon377_r1cs.rs:262. -/
def Writer.makeRoom (capacity : Nat) (w : Writer) (n : Nat) : Status × Writer :=
  if n > capacity - w.buffer.length then w.flush else (.ok, w)

/-- `BufWriter::write_all`.  Library code under poseidon377_r1cs.rs:262. -/
def Writer.writeAll (capacity : Nat) (w : Writer) (bytes : List UInt8) : Status × Writer :=
  if bytes.length < capacity - w.buffer.length then (.ok, { w with buffer := w.buffer ++ bytes })
  else match w.makeRoom capacity bytes.length with
    | (.ok, v) =>
      if bytes.length ≥ capacity then
        let l := writeLoop v.responses bytes v.file
        (l.1, ⟨v.buffer, l.2.2.1, l.2.2.2⟩)
      else (.ok, { v with buffer := v.buffer ++ bytes })
    | r => r

/-- `serialize_uncompressed` hands its bytes to the writer in pieces, and stops at the first error.  Which pieces does not matter: the
theorems are for all.  poseidon377_r1cs.rs:262-263 -/
def Writer.writePieces (capacity : Nat) : Writer → List (List UInt8) → Status × Writer
  | w, [] => (.ok, w)
  | w, x :: l =>
    let r := w.writeAll capacity x
    if r.1 ≠ .ok then r else r.2.writePieces capacity l

/-- `serialize_uncompressed(.., writer)`: at its end the writer is dropped, also after an error.  `drop` writes what is in the buffer
and ignores errors.  poseidon377_r1cs.rs:262-263 -/
def writeFile (capacity : Nat) (pieces : List (List UInt8)) (file : List UInt8) (rs : List Response) : Status × List UInt8 × List Response :=
  let r := Writer.writePieces capacity ⟨[], file, rs⟩ pieces
  if r.1 = .killed then (.killed, r.2.file, r.2.responses)
  else
    let d := r.2.flush
    (if d.1 = .killed then .killed else r.1, d.2.file, d.2.responses)

/-- The two files, if they exist.  poseidon377_r1cs.rs:253-254 -/
structure Files where
  pk : Option (List UInt8)
  vk : Option (List UInt8)

/-- How `write_params` ends.  poseidon377_r1cs.rs:252 and 262-265 -/
inductive Outcome where
  /-- `Ok(())` -/
  | ok
  /-- `Err(..)` -/
  | error
  /-- `.expect(..)` on an error -/
  | panicked
  | killed
deriving DecidableEq

/-- `write_params`, poseidon377_r1cs.rs:247-266.  `pk` and `vk` are the pieces that the two calls of `serialize_uncompressed` write. -/
def writeParamsRun (capacity : Nat) (pk vk : List (List UInt8)) (old : Files) (rs : List Response) : Outcome × Files :=
  match createFile rs old.pk with
  | (.killed, f, _) => (.killed, ⟨f, old.vk⟩)
  | (.error, f, _) => (.error, ⟨f, old.vk⟩)
  | (.ok, f, rs) =>
    match createFile rs old.vk with
    | (.killed, g, _) => (.killed, ⟨f, g⟩)
    | (.error, g, _) => (.error, ⟨f, g⟩)
    | (.ok, g, rs) =>
      match writeFile capacity pk [] rs with
      | (.killed, a, _) => (.killed, ⟨some a, g⟩)
      | (.error, a, _) => (.panicked, ⟨some a, g⟩)
      | (.ok, a, rs) =>
        match writeFile capacity vk [] rs with
        | (.killed, b, _) => (.killed, ⟨some a, some b⟩)
        | (.error, b, _) => (.panicked, ⟨some a, some b⟩)
        | (.ok, b, _) => (.ok, ⟨some a, some b⟩)

end Poseidon.Groth16
