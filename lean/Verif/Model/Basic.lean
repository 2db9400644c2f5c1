import Mathlib.Algebra.Field.Defs
import Mathlib.Algebra.BigOperators.Group.List.Basic

/-!
# Panics, loops and arrays

Rust control flow shared by all modelled functions.  A panic is an explicit error value, a
`for` loop over a range threads its mutable variables through `forRange`, `[T; N]` is `Vector T N`.
`usize` is modelled by unbounded `Nat`; subtractions that can underflow are explicit (`usub`).
-/

namespace Poseidon

/-- The ways the modelled code can panic.
Sites: matrix.rs:38, matrix.rs:53, matrix.rs:254, matrix.rs:270, matrix_ops.rs:32, mds_matrix.rs:26-28, r1cs.rs:139, rounds.rs:24, and the indexing, subtractions and divisions of the modelled functions. -/
inductive Panic where
  /-- `panic!("Matrix has an insufficient number of elements")`, matrix.rs:38,53 -/
  | badDims
  /-- `try_into().expect("Matrix has the correct number of elements")`, matrix.rs:57-58 -/
  | sliceLen
  /-- slice/array index out of bounds -/
  | indexOOB
  /-- `usize` subtraction underflow (debug builds panic; release builds: Model/Machine.lean) -/
  | underflow
  /-- `usize` addition or multiplication overflow (only in Model/Machine.lean) -/
  | overflow
  /-- division by zero in the field (`Fq: Div`, `inverse().expect`) -/
  | divZero
  /-- `unimplemented!` -/
  | unimplemented
  /-- `panic!("matrix has no elements!")`, matrix.rs:254,293 -/
  | noElements
  /-- `assert!`, `assert_eq!`, `debug_assert_eq!` -/
  | assertFailed
  /-- `chunks(0)` panics in the standard library -/
  | chunkZero
  /-- `panic!("vecs not same len")`, matrix_ops.rs:32 -/
  | vecLen
  /-- `Option::unwrap`/`expect` on `None`/`Err` -/
  | unwrapNone
  /-- an explicit `panic!` of the parameter generator -/
  | explicit
  deriving DecidableEq, Repr

/-- A Rust computation that may panic.  Return types of all modelled functions, for instance permutation.rs:79-90. -/
abbrev R := Except Panic

/-- `n` iterations of a loop body starting at index `i`.  Used for the loops cited at `forRange`. -/
def loopN {σ : Type _} (body : Nat → σ → R σ) : Nat → Nat → σ → R σ
  | 0, _, s => .ok s
  | n + 1, i, s => body i s >>= loopN body n (i + 1)

/-- `for i in lo..hi { body }`; `s` are the mutable variables of the body.
For instance permutation.rs:105-113, matrix.rs:378-401, r1cs.rs:98-106. -/
def forRange {σ : Type _} (lo hi : Nat) (s : σ) (body : Nat → σ → R σ) : R σ :=
  loopN body (hi - lo) lo s

/-- `for x in list { body }`.  For instance permutation.rs:276-283, matrix.rs:118-124. -/
def forList {α σ : Type _} : List α → σ → (α → σ → R σ) → R σ
  | [], s, _ => .ok s
  | x :: xs, s, body => body x s >>= fun s' => forList xs s' body

/-- `arr[i]`.  For instance permutation.rs:89, matrix.rs:67-69. -/
def aget {α : Type _} {n : Nat} (v : Vector α n) (i : Nat) : R α :=
  if h : i < n then .ok v[i] else .error .indexOOB

/-- `arr[i] = x`.  For instance permutation.rs:82, matrix.rs:71-73. -/
def aset {α : Type _} {n : Nat} (v : Vector α n) (i : Nat) (x : α) : R (Vector α n) :=
  if h : i < n then .ok (v.set i x h) else .error .indexOOB

/-- `vec[i]` for a `Vec`/slice.  For instance r1cs.rs:87, permutation.rs:276. -/
def lget {α : Type _} (l : List α) (i : Nat) : R α :=
  match l[i]? with
  | some x => .ok x
  | none => .error .indexOOB

/-- `a - b` on `usize`.  For instance permutation.rs:127, rounds.rs:227. -/
def usub (a b : Nat) : R Nat := if b ≤ a then .ok (a - b) else .error .underflow

/-- `a / b` on field elements: `decaf377`/`ark-ff` compute `a * b.inverse().unwrap()`.
For instance permutation.rs:222, permutation.rs:236. -/
def fdiv {F : Type _} [Field F] [DecidableEq F] (a b : F) : R F :=
  if b = 0 then .error .divZero else .ok (a * b⁻¹)

/-- `iter().sum()` on field elements.  permutation.rs:250, permutation.rs:265, matrix_ops.rs:35. -/
def fsum {F : Type _} [Zero F] [Add F] (l : List F) : F := l.foldl (· + ·) 0

/-- Auxiliary for `chunks`: at most `fuel` chunks.  matrix_ops.rs:16-18. -/
def chunksAux {α : Type _} (k : Nat) : Nat → List α → List (List α)
  | 0, _ => []
  | _ + 1, [] => []
  | fuel + 1, x :: xs => (x :: xs).take k :: chunksAux k fuel ((x :: xs).drop k)

/-- `slice.chunks(k)` (standard library): consecutive chunks of length `k`, the last one possibly
shorter; panics for `k = 0`.  matrix_ops.rs:16-18. -/
def chunks {α : Type _} (k : Nat) (l : List α) : R (List (List α)) :=
  if k = 0 then .error .chunkZero else .ok (chunksAux k l.length l)

end Poseidon
