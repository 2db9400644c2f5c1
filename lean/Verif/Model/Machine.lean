import Verif.Model.R1cs

/-!
# The permutations with machine integers

The other files model `usize` by unbounded naturals.  Here every `usize` operation of `permutation.rs`, of the `permute` of the
circuit and of `Matrix::get_element` goes through an `Arith`: a debug build panics when a result does not fit the word, a release
build computes modulo the word size `W` (`2^64`, or `2^32` on wasm32).
-/

namespace Poseidon

/-- The operations `+`, `*`, `-` on `usize`.  The `usize` operations of permutation.rs:101-296 and matrix.rs:67-73. -/
structure Arith where
  add : Nat → Nat → R Nat
  mul : Nat → Nat → R Nat
  sub : Nat → Nat → R Nat

/-- Debug build (`overflow-checks = true`): overflow panics.  The `usize` operations of permutation.rs:101-296 and matrix.rs:67-73. -/
def Arith.checked (W : Nat) : Arith where
  add a b := if a + b < W then .ok (a + b) else .error .overflow
  mul a b := if a * b < W then .ok (a * b) else .error .overflow
  sub a b := if b ≤ a then .ok (a - b) else .error .underflow

/-- Release build: arithmetic modulo the word size.  The `usize` operations of permutation.rs:101-296 and matrix.rs:67-73. -/
def Arith.wrapping (W : Nat) : Arith where
  add a b := .ok ((a + b) % W)
  mul a b := .ok ((a * b) % W)
  sub a b := .ok ((a + W - b) % W)

namespace Machine

variable {F : Type} [Field F] [DecidableEq F] {t tm1 nmds nhat rows cols nround npart : Nat}

/-- `get_element`, matrix.rs:67-69 -/
def get (A : Arith) {r c n : Nat} (m : Mat F r c n) (i j : Nat) : R F := do
  let a ← A.mul i c
  let idx ← A.add a j
  aget m.elements idx

/-- `set_element`, matrix.rs:71-73 -/
def set (A : Arith) {r c n : Nat} (m : Mat F r c n) (i j : Nat) (val : F) : R (Mat F r c n) := do
  let a ← A.mul i c
  let idx ← A.add a j
  let els ← aset m.elements idx val
  return ⟨els⟩

/-- `Matrix::new`, matrix.rs:48-61 -/
def new (A : Arith) (r c n : Nat) (elements : List F) : R (Mat F r c n) := do
  let rc ← A.mul r c
  if n ≠ rc then .error .badDims
  else if h : elements.length = n then .ok ⟨⟨elements.toArray, by simpa using h⟩⟩
  else .error .sliceLen

/-- `state_words[i] += arc.get_element(row, i)` for all `i`, permutation.rs:107-109, 118-124, 147-153 -/
def addRow (A : Arith) (arc : Mat F rows cols nround) (row : Nat) (s : Vector F t) : R (Vector F t) :=
  forRange 0 t s fun i s => do
    let x ← aget s i
    let k ← get A arc row i
    aset s i (x + k)

/-- `state_words[i] += round_constants[counter]; counter += 1` for all `i`, permutation.rs:187-190, 198-201, 209-212 -/
def addLinear (A : Arith) (arc : Mat F rows cols nround) (st : Vector F t × Nat) : R (Vector F t × Nat) :=
  forRange 0 t st fun i (s, counter) => do
    let x ← aget s i
    let k ← aget arc.elements counter
    let s ← aset s i (x + k)
    let counter ← A.add counter 1
    return (s, counter)

/-- `sparse_mat_mul`, permutation.rs:272-296 -/
def sparseMatMul (A : Arith) (o : OptimizedMds F npart t tm1 nmds nhat) (round : Nat) (s : Vector F t) :
    R (Vector F t) := do
  let v ← aget o.vCollection round
  let addRow ← forList v.elements.toList.zipIdx (Vector.replicate tm1 (0 : F)) fun (x, i) acc => do
    let s0 ← aget s 0
    let i1 ← A.add i 1
    let si ← aget s i1
    aset acc i (x * s0 + si)
  let s0 ← aget s 0
  let w ← aget o.wHatCollection round
  -- `state_words[1..STATE_SIZE]` panics if `STATE_SIZE = 0`
  let s ← if 1 ≤ t then
      aset s 0 (o.m00 * s0 + fsum (List.zipWith (· * ·) w.elements.toList (s.toList.drop 1)))
    else .error .indexOOB
  -- `add_row[..(STATE_SIZE - 1)]`, then `copy_from_slice` (the two slices have equal length)
  let k ← A.sub t 1
  if k ≤ tm1 then
    forList (addRow.toList.take k).zipIdx s fun (x, i) s => aset s (i + 1) x
  else .error .indexOOB

/-- `permute`, permutation.rs:101-158 -/
def permute (A : Arith) (p : Params F t tm1 nmds nhat rows cols nround npart) (s : Vector F t) :
    R (Vector F t) := do
  let rf := p.rounds.full / 2
  -- First chunk of full rounds
  let s ← forRange 0 rf s fun r s => do
    let s ← addRow A p.optimizedArc r s
    let s ← fullSubWords p.alpha s
    mixLayer p.mds s
  let counter := rf
  -- Partial rounds
  let s ← addRow A p.optimizedArc counter s
  let s ← mixLayer p.optimizedMds.mI s
  let lim ← A.sub p.rounds.partialRounds 1
  let (s, counter) ← forRange 0 lim (s, counter) fun r (s, counter) => do
    let s ← partialSubWords p.alpha s
    let counter ← A.add counter 1
    let x ← aget s 0
    let k ← get A p.optimizedArc counter 0
    let s ← aset s 0 (x + k)
    let idx ← A.sub p.rounds.partialRounds r
    let idx ← A.sub idx 1
    let s ← sparseMatMul A p.optimizedMds idx s
    return (s, counter)
  -- Last partial round
  let s ← partialSubWords p.alpha s
  let s ← sparseMatMul A p.optimizedMds 0 s
  let counter ← A.add counter 1
  -- Final full rounds
  let (s, _) ← forRange 0 rf (s, counter) fun _ (s, counter) => do
    let s ← addRow A p.optimizedArc counter s
    let s ← fullSubWords p.alpha s
    let s ← mixLayer p.mds s
    let counter ← A.add counter 1
    return (s, counter)
  return s

/-- `unoptimized_permute`, permutation.rs:178-216 -/
def unoptimizedPermute (A : Arith) (p : Params F t tm1 nmds nhat rows cols nround npart) (s : Vector F t) :
    R (Vector F t) := do
  let rf := p.rounds.full / 2
  let rp := p.rounds.partialRounds
  -- First full rounds
  let st ← forRange 0 rf (s, 0) fun _ st => do
    let (s, counter) ← addLinear A p.arc st
    let s ← fullSubWords p.alpha s
    let s ← mixLayer p.mds s
    return (s, counter)
  -- Partial rounds
  let st ← forRange 0 rp st fun _ st => do
    let (s, counter) ← addLinear A p.arc st
    let s ← partialSubWords p.alpha s
    let s ← mixLayer p.mds s
    return (s, counter)
  -- Final full rounds
  let st ← forRange 0 rf st fun _ st => do
    let (s, counter) ← addLinear A p.arc st
    let s ← fullSubWords p.alpha s
    let s ← mixLayer p.mds s
    return (s, counter)
  return st.1

/-- `n_to_1_fixed_hash`, permutation.rs:79-90: the digest and the instance afterwards -/
def nTo1FixedHash (A : Arith) (self : Instance F t tm1 nmds nhat rows cols nround npart)
    (input : Vector F t) : R (F × Instance F t tm1 nmds nhat rows cols nround npart) := do
  let s ← setState self.stateWords input
  let s ← permute A self.parameters s
  let out ← aget s 1
  return (out, { self with stateWords := s })

/-- `unoptimized_n_to_1_fixed_hash`, permutation.rs:161-172 -/
def unoptimizedNTo1FixedHash (A : Arith) (self : Instance F t tm1 nmds nhat rows cols nround npart)
    (input : Vector F t) : R (F × Instance F t tm1 nmds nhat rows cols nround npart) := do
  let s ← setState self.stateWords input
  let s ← unoptimizedPermute A self.parameters s
  let out ← aget s 1
  return (out, { self with stateWords := s })

open R1cs in
/-- `self.state_words[i] += round_constants[round_constants_counter]; round_constants_counter += 1` for
all `i`, r1cs.rs:100-103, 111-114, 122-125 -/
def addRoundConstants (A : Arith) (t : Nat) (arc : Mat F rows cols nround) (s : List (FpVar F)) (counter : Nat) :
    R (List (FpVar F) × Nat) :=
  forRange 0 t (s, counter) fun i (s, counter) => do
    let x ← lget s i
    let k ← aget arc.elements counter
    let s ← lset s i (x.addConstant k)
    let counter ← A.add counter 1
    return (s, counter)

open R1cs in
/-- A round of the circuit's `permute`, r1cs.rs:98-106 (`full`) and 109-117 (not `full`) -/
def circuitRound (A : Arith) (p : Params F t tm1 nmds nhat rows cols nround npart) (full : Bool)
    (st : List (FpVar F) × Nat × CS F) : R (List (FpVar F) × Nat × CS F) := do
  let (s, counter, cs) := st
  let (s, counter) ← addRoundConstants A t p.arc s counter
  let (s, cs) ← if full then R1cs.fullSubWords t p.alpha s cs else R1cs.partialSubWords p.alpha s cs
  let (s, cs) ← R1cs.mixLayer p.mds s cs
  return (s, counter, cs)

open R1cs in
/-- `InstanceVar::permute`, r1cs.rs:91-129 -/
def circuitPermute (A : Arith) (p : Params F t tm1 nmds nhat rows cols nround npart) (s : List (FpVar F)) (cs : CS F) :
    R (List (FpVar F) × CS F) := do
  let rf := p.rounds.full / 2
  let rp := p.rounds.partialRounds
  let st ← forRange 0 rf (s, 0, cs) fun _ st => circuitRound A p true st
  let st ← forRange 0 rp st fun _ st => circuitRound A p false st
  let st ← forRange 0 rf st fun _ st => circuitRound A p true st
  return (st.1, st.2.2)

open R1cs in
/-- `InstanceVar::n_to_1_fixed_hash`, r1cs.rs:61-88 -/
def circuitHash (A : Arith) (p : Params F t tm1 nmds nhat rows cols nround npart) (inputWords : Vector (FpVar F) t)
    (cs : CS F) : R (FpVar F × CS F) := do
  let (s, cs) ← circuitPermute A p inputWords.toList cs
  let out ← lget s 1
  return (out, cs)

end Machine

end Poseidon
