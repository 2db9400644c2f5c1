import Verif.Model.Bench
import Verif.Spec.Bench
import Verif.Props.Trace
import Verif.Props.Native
import Verif.Proofs.KeyFile

/-!
# Lemmas for the benchmark
-/

namespace Poseidon.Bench

open Poseidon.Groth16

variable {σ : Type}

theorem after_succ (fill : σ → Vector UInt8 32 × σ) (s : σ) (n : Nat) : after fill (fill s).2 n = after fill s (n + 1) :=
  (Function.iterate_succ_apply _ n s).symm

theorem word_after (fill : σ → Vector UInt8 32 × σ) (s : σ) (k n : Nat) : word fill (after fill s k) n = word fill s (n + k) := by
  rw [word, word, after, after, after, Function.iterate_add_apply]

/-- The tuple of pass `n`. -/
def tuple (fill : σ → Vector UInt8 32 × σ) (s : σ) (n : Nat) : Elements :=
  ⟨word fill s (5 * n), word fill s (5 * n + 1), word fill s (5 * n + 2), word fill s (5 * n + 3), word fill s (5 * n + 4)⟩

theorem draw_eq (fill : σ → Vector UInt8 32 × σ) (s : σ) : draw fill s = (tuple fill s 0, after fill s 5) := by
  simp only [draw, tuple, word, fromLeBytesModOrder, leNat_eq]
  rfl

theorem elements_eq (fill : σ → Vector UInt8 32 × σ) (n : Nat) (s : σ) :
    elements fill n s = (List.range n).map (tuple fill s) := by
  induction n generalizing s with
  | zero => rfl
  | succ n ih =>
    rw [elements, draw_eq]
    dsimp only
    rw [ih, List.range_succ_eq_map, List.map_cons, List.map_map]
    refine congrArg₂ _ rfl (List.map_congr_left fun k _ => ?_)
    simp only [tuple, word_after, Function.comp_apply]
    refine congr (congr (congr (congr (congrArg Elements.mk ?_) ?_) ?_) ?_) ?_ <;> congr 1

theorem iter_eq (run : Traced Fq) (d : Fq) (h : run.result = .ok d) (n : Nat) : iter run n = .ok (List.replicate n run) := by
  induction n with
  | zero => rfl
  | succ n ih => rw [iter, h, ok_bind, ih, ok_bind]; rfl

theorem first_eq {β : Type} (x : Traced (Fq × β)) (r : Fq × β) (h : x.result = .ok r) :
    (do let r ← x; return r.1 : Traced Fq).result = .ok r.1 ∧ (do let r ← x; return r.1 : Traced Fq).trace = x.trace := by
  obtain ⟨y, t⟩ := x
  dsimp only at h
  subst h
  exact ⟨rfl, List.append_nil t⟩

theorem traced_eq {t tm1 nmds nhat rows cols nround npart : Nat} (self : Instance Fq t tm1 nmds nhat rows cols nround npart) (x : Vector Fq t)
    (r r' : Fq × Instance Fq t tm1 nmds nhat rows cols nround npart) (h : self.nTo1FixedHash x = .ok r)
    (h' : self.unoptimizedNTo1FixedHash x = .ok r') :
    ((do let r ← Traced.nTo1FixedHash self x; return r.1 : Traced Fq).result = .ok r.1 ∧
      (do let r ← Traced.nTo1FixedHash self x; return r.1 : Traced Fq).trace = (Traced.nTo1FixedHash self x).trace) ∧
    ((do let r ← Traced.unoptimizedNTo1FixedHash self x; return r.1 : Traced Fq).result = .ok r'.1 ∧
      (do let r ← Traced.unoptimizedNTo1FixedHash self x; return r.1 : Traced Fq).trace =
        (Traced.unoptimizedNTo1FixedHash self x).trace) :=
  ⟨first_eq _ _ ((C80_result self x).1.trans h), first_eq _ _ ((C80_result self x).2.trans h')⟩

theorem ourImpl_def (i j k l m : Fq) : ourImpl i j k l m =
    (do let r ← Traced.nTo1FixedHash (Instance.new rate4Params) #v[i, j, k, l, m]; return r.1) := by
  delta ourImpl
  with_reducible rfl

theorem ourImplUnoptimized_def (i j k l m : Fq) : ourImplUnoptimized i j k l m =
    (do let r ← Traced.unoptimizedNTo1FixedHash (Instance.new rate4Params) #v[i, j, k, l, m]; return r.1) := by
  delta ourImplUnoptimized
  with_reducible rfl

/-- What the two functions compute, and the trace they leave. -/
theorem ourImpl_eq (i j k l m : Fq) : ∃ d, hash4 i (j, k, l, m) = .ok d ∧ (ourImpl i j k l m).result = .ok d ∧
    (ourImpl i j k l m).trace = (Traced.nTo1FixedHash (Instance.new rate4Params) #v[i, j, k, l, m]).trace ∧
    (ourImplUnoptimized i j k l m).result = .ok d ∧
    (ourImplUnoptimized i j k l m).trace = (Traced.unoptimizedNTo1FixedHash (Instance.new rate4Params) #v[i, j, k, l, m]).trace := by
  obtain ⟨y, h1, h2⟩ := C02_instance 3 (Vector.replicate _ 0) ![i, j, k, l, m]
  obtain ⟨y', h1', h2'⟩ := C02_unoptimized 3 (Vector.replicate _ 0) ![i, j, k, l, m]
  have h3 : Instance.nTo1FixedHash (Instance.new rate4Params) #v[i, j, k, l, m] = .ok (y 1, ⟨rate4Params, Vector.ofFn y⟩) := h2
  have h3' : Instance.unoptimizedNTo1FixedHash (Instance.new rate4Params) #v[i, j, k, l, m] =
    .ok (y' 1, ⟨rate4Params, Vector.ofFn y'⟩) := h2'
  have e : y' = y := Option.some.inj (h1'.symm.trans h1)
  have t := traced_eq (Instance.new rate4Params) #v[i, j, k, l, m] _ _ h3 h3'
  have h0 : hash4 i (j, k, l, m) = .ok (y 1) := by
    rw [hash4]
    dsimp only
    rw [h3]
    rfl
  subst e
  clear h1 h1' h2 h2' h3 h3'
  refine ⟨y' 1, h0, ?_⟩
  obtain ⟨⟨t1, t2⟩, t3, t4⟩ := t
  rw [ourImpl_def, ourImplUnoptimized_def, t1, t2, t3, t4]
  exact ⟨rfl, rfl, rfl, rfl⟩

/-- What is measured for one tuple. -/
def sample (times : Nat × Nat) (e : Elements) : Sample :=
  ⟨List.replicate times.1 (ourImplUnoptimized e.i e.j e.k e.l e.m), List.replicate times.2 (ourImpl e.i e.j e.k e.l e.m)⟩

theorem measure_eq (times : Nat → Nat × Nat) (es : List Elements) (index : Nat) :
    measure times index es = .ok (es.mapIdx fun n e => sample (times (index + n)) e) := by
  induction es generalizing index with
  | nil => rfl
  | cons e es ih =>
    obtain ⟨d, -, h1, -, h2, -⟩ := ourImpl_eq e.i e.j e.k e.l e.m
    rw [measure, iter_eq _ d h2, ok_bind, iter_eq _ d h1, ok_bind, ih, ok_bind, List.mapIdx_cons]
    refine congrArg Except.ok (congrArg₂ _ rfl ?_)
    refine congrArg (fun f => List.mapIdx f es) (funext fun n => funext fun e => ?_)
    rw [Nat.add_right_comm, Nat.add_assoc]

theorem bench_eq (fill : σ → Vector UInt8 32 × σ) (seed : σ) (times : Nat → Nat × Nat) :
    benchUnoptimizedVsOptimized fill seed times =
      .ok ((List.range 100).map fun n => sample (times n) (tuple fill seed n)) := by
  rw [benchUnoptimizedVsOptimized]
  rw [measure_eq, elements_eq]
  refine congrArg Except.ok (List.ext_getElem (by simp) fun n h1 h2 => ?_)
  simp

theorem mem_bench {fill : σ → Vector UInt8 32 × σ} {seed : σ} {times : Nat → Nat × Nat} {out : List Sample}
    (h : benchUnoptimizedVsOptimized fill seed times = .ok out) {x : Sample} (hx : x ∈ out) :
    ∃ n e, x = sample n e := by
  rw [bench_eq] at h
  cases h
  obtain ⟨n, -, rfl⟩ := List.mem_map.1 hx
  exact ⟨_, _, rfl⟩

end Poseidon.Bench
