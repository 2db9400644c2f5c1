import Verif.Proofs.Bench

/-!
# Property C116: the benchmark

`word fill seed n` (Spec/Bench.lean) is the field element of the generator's draw number `n`.  Draws `5 n` to `5 n + 4` belong to index `n`.
-/

namespace Poseidon

open Poseidon.Bench

variable {σ σ' : Type}

/-- **C116, the benchmark compares equal functions.** Whatever the random generator and however often the closures are run, nothing
panics; there are a hundred indices; and at each index all runs, with and without the optimization, return the one digest that `hash_4`
gives for the five words drawn for it. -/
theorem C116_results (fill : σ → Vector UInt8 32 × σ) (seed : σ) (times : Nat → Nat × Nat) :
    ∃ out, benchUnoptimizedVsOptimized fill seed times = .ok out ∧ out.length = 100 ∧
      ∀ n (h : n < out.length), out[n].baseAlg.length = (times n).1 ∧ out[n].optimizedAlg.length = (times n).2 ∧
        ∃ d, hash4 (word fill seed (5 * n)) (word fill seed (5 * n + 1), word fill seed (5 * n + 2), word fill seed (5 * n + 3),
            word fill seed (5 * n + 4)) = .ok d ∧
          (∀ r ∈ out[n].baseAlg, r.result = .ok d) ∧ ∀ r ∈ out[n].optimizedAlg, r.result = .ok d := by
  refine ⟨_, bench_eq fill seed times, by simp, fun n h => ?_⟩
  rw [List.getElem_map, List.getElem_range]
  obtain ⟨d, h0, h1, -, h2, -⟩ := ourImpl_eq (word fill seed (5 * n)) (word fill seed (5 * n + 1)) (word fill seed (5 * n + 2))
    (word fill seed (5 * n + 3)) (word fill seed (5 * n + 4))
  exact ⟨List.length_replicate, List.length_replicate, d, h0, fun r hr => (List.eq_of_mem_replicate hr) ▸ h2,
    fun r hr => (List.eq_of_mem_replicate hr) ▸ h1⟩

/-- **C116, the inputs do not matter.** All runs of one kind, at any index of any two benchmarks, do the same operations on the same
places in the same order: that the inputs are a hundred draws of one seeded generator has no influence on the work measured. -/
theorem C116_same_work (fill : σ → Vector UInt8 32 × σ) (seed : σ) (times : Nat → Nat × Nat) (fill' : σ' → Vector UInt8 32 × σ')
    (seed' : σ') (times' : Nat → Nat × Nat) (out out' : List Sample) (h : benchUnoptimizedVsOptimized fill seed times = .ok out)
    (h' : benchUnoptimizedVsOptimized fill' seed' times' = .ok out') (x x' : Sample) (hx : x ∈ out) (hx' : x' ∈ out') :
    (∀ r ∈ x.baseAlg, ∀ r' ∈ x'.baseAlg, r.trace = r'.trace) ∧
    (∀ r ∈ x.optimizedAlg, ∀ r' ∈ x'.optimizedAlg, r.trace = r'.trace) := by
  obtain ⟨n, e, rfl⟩ := mem_bench h hx
  obtain ⟨n', e', rfl⟩ := mem_bench h' hx'
  obtain ⟨-, -, -, h1, -, h2⟩ := ourImpl_eq e.i e.j e.k e.l e.m
  obtain ⟨-, -, -, h1', -, h2'⟩ := ourImpl_eq e'.i e'.j e'.k e'.l e'.m
  have key := C80_shipped 3 (Vector.replicate _ 0) #v[e.i, e.j, e.k, e.l, e.m] (Vector.replicate _ 0) #v[e'.i, e'.j, e'.k, e'.l, e'.m]
  refine ⟨fun r hr r' hr' => ?_, fun r hr r' hr' => ?_⟩
  · rw [List.eq_of_mem_replicate hr, List.eq_of_mem_replicate hr']
    exact h2.trans (key.2.trans h2'.symm)
  · rw [List.eq_of_mem_replicate hr, List.eq_of_mem_replicate hr']
    exact h1.trans (key.1.trans h1'.symm)

/-- **C116, what the benchmark measures.** Every run of the base algorithm is 71 S-boxes, 975 multiplications and 1170 additions, every run
of the optimized one 71 S-boxes, 504 multiplications and 579 additions.  So wherever an addition is no dearer than a multiplication, the
optimized runs are cheaper, and by less than half. -/
theorem C116_cost (fill : σ → Vector UInt8 32 × σ) (seed : σ) (times : Nat → Nat × Nat) (out : List Sample)
    (h : benchUnoptimizedVsOptimized fill seed times = .ok out) (x : Sample) (hx : x ∈ out) (a m c : Nat) :
    (∀ r ∈ x.baseAlg, r.price a m c = 71 * c + 975 * m + 1170 * a) ∧
    (∀ r ∈ x.optimizedAlg, r.price a m c = 71 * c + 504 * m + 579 * a) ∧
    (0 < m → a ≤ m → ∀ r ∈ x.baseAlg, ∀ r' ∈ x.optimizedAlg, r'.price a m c < r.price a m c ∧ r.price a m c < 2 * r'.price a m c) := by
  obtain ⟨n, e, rfl⟩ := mem_bench h hx
  obtain ⟨-, -, -, h1, -, h2⟩ := ourImpl_eq e.i e.j e.k e.l e.m
  have key := C80_cost_shipped 3 a m c (Vector.replicate _ 0) #v[e.i, e.j, e.k, e.l, e.m]
  have k1 : (ourImpl e.i e.j e.k e.l e.m).price a m c = 71 * c + 504 * m + 579 * a := by
    refine (congrArg (fun t => (t.map (Event.price a m c)).sum) h1).trans (key.1.trans ?_)
    have e : (3 : Fin 7).val = 3 := rfl
    rw [e]
    ring
  have k2 : (ourImplUnoptimized e.i e.j e.k e.l e.m).price a m c = 71 * c + 975 * m + 1170 * a := by
    refine (congrArg (fun t => (t.map (Event.price a m c)).sum) h2).trans (key.2.1.trans ?_)
    have e : (3 : Fin 7).val = 3 := rfl
    rw [e]
    ring
  have m1 : ∀ r ∈ (sample n e).optimizedAlg, r.price a m c = 71 * c + 504 * m + 579 * a :=
    fun r hr => (List.eq_of_mem_replicate hr) ▸ k1
  have m2 : ∀ r ∈ (sample n e).baseAlg, r.price a m c = 71 * c + 975 * m + 1170 * a :=
    fun r hr => (List.eq_of_mem_replicate hr) ▸ k2
  refine ⟨m2, m1, fun hm ha r hr r' hr' => ?_⟩
  rw [m1 r' hr', m2 r hr]
  omega

/-! ### Non-vacuity: a generator that counts -/

/-- A generator that fills the array with the number of the draw. -/
def counting (s : Nat) : Vector UInt8 32 × Nat := (Vector.replicate 32 (UInt8.ofNat s), s + 1)

/-- Run three times and twice at each index, the benchmark returns samples with three and two runs. -/
example : ∃ out, benchUnoptimizedVsOptimized counting 0 (fun _ => (3, 2)) = .ok out ∧
    ∃ x ∈ out, x.baseAlg.length = 3 ∧ x.optimizedAlg.length = 2 := by
  obtain ⟨out, h, hl, k⟩ := C116_results counting 0 (fun _ => (3, 2))
  have h7 : 7 < out.length := by omega
  exact ⟨out, h, out[7], List.getElem_mem h7, (k 7 h7).1, (k 7 h7).2.1⟩

/-- The draws differ: the inputs of two indices are not the same. -/
example : word counting 0 0 ≠ word counting 0 5 := by
  have e0 : word counting 0 0 = 0 := by simp [word, after, counting, Groth16.number, Nat.ofDigits]
  have e5 : after counting 0 5 = 5 := rfl
  rw [e0, word, e5, counting]
  decide +kernel

end Poseidon
