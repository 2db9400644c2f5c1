import Verif.Model.RandomTests
import Verif.Model.Trace

/-!
# The benchmark

poseidon-consistency/benches/permutation.rs: the two permutations on the same hundred random inputs.  The random generator is any function
of its own state, and Criterion chooses how often it runs a closure.  What is recorded of a run is its result and its trace; how
long a field operation takes is not modelled, and neither are the names under which Criterion reports.
-/

namespace Poseidon.Bench

/-- A tuple of `test_field_elements`, poseidon-consistency/benches/permutation.rs:36-42 -/
structure Elements where
  i : Fq
  j : Fq
  k : Fq
  l : Fq
  m : Fq

/-- `hash_4_1_our_impl`, benches/permutation.rs:9-12 -/
def ourImpl (i j k l m : Fq) : Traced Fq := do
  let hashed ← Traced.nTo1FixedHash (Instance.new rate4Params) #v[i, j, k, l, m]
  return hashed.1

/-- `hash_4_1_our_impl_unoptimized`, benches/permutation.rs:14-17 -/
def ourImplUnoptimized (i j k l m : Fq) : Traced Fq := do
  let hashed ← Traced.unoptimizedNTo1FixedHash (Instance.new rate4Params) #v[i, j, k, l, m]
  return hashed.1

variable {σ : Type}

/-- One pass of the first loop, benches/permutation.rs:25-43.  `fill`: `rng.fill_bytes` on an array of 32 bytes, with the generator's next
state. -/
def draw (fill : σ → Vector UInt8 32 × σ) (rng : σ) : Elements × σ :=
  let (iBytes, rng) := fill rng
  let (jBytes, rng) := fill rng
  let (kBytes, rng) := fill rng
  let (lBytes, rng) := fill rng
  let (mBytes, rng) := fill rng
  (⟨fromLeBytesModOrder iBytes.toList, fromLeBytesModOrder jBytes.toList, fromLeBytesModOrder kBytes.toList,
    fromLeBytesModOrder lBytes.toList, fromLeBytesModOrder mBytes.toList⟩, rng)

/-- The first loop, benches/permutation.rs:24-43, for `n` passes -/
def elements (fill : σ → Vector UInt8 32 × σ) : Nat → σ → List Elements
  | 0, _ => []
  | n + 1, rng =>
    let (e, rng) := draw fill rng
    e :: elements fill n rng

/-- `b.iter(|| …)`, benches/permutation.rs:49 and 54: the closure is run `n` times; a panic ends the program. -/
def iter (run : Traced Fq) : Nat → R (List (Traced Fq))
  | 0 => .ok []
  | n + 1 => do
    let _ ← run.result
    let rest ← iter run n
    return run :: rest

/-- What is measured for one index: the runs reported as `base_alg` and those reported as `optimized_alg`.
benches/permutation.rs:46-55 -/
structure Sample where
  baseAlg : List (Traced Fq)
  optimizedAlg : List (Traced Fq)

/-- The second loop, benches/permutation.rs:45-56.  `times`: how often Criterion runs the closures of an index. -/
def measure (times : Nat → Nat × Nat) : Nat → List Elements → R (List Sample)
  | _, [] => .ok []
  | index, e :: rest => do
    let baseAlg ← iter (ourImplUnoptimized e.i e.j e.k e.l e.m) (times index).1
    let optimizedAlg ← iter (ourImpl e.i e.j e.k e.l e.m) (times index).2
    let samples ← measure times (index + 1) rest
    return ⟨baseAlg, optimizedAlg⟩ :: samples

/-- `bench_unoptimized_vs_optimized`, benches/permutation.rs:19-58.  `seed`: the state of the generator after `seed_from_u64`. -/
def benchUnoptimizedVsOptimized (fill : σ → Vector UInt8 32 × σ) (seed : σ) (times : Nat → Nat × Nat) : R (List Sample) := do
  let n := 100
  let testFieldElements := elements fill n seed
  measure times 0 testFieldElements

end Poseidon.Bench
