import Verif.Model.Permutation

/-!
# The permutations with a record of what they do

Here every arithmetic operation of the field and every access to an array in `permutation.rs` is recorded, in order.  This is what an
observer sees who can tell apart field operations and addresses, and what a cost model counts.  How long a
single field operation takes is a matter of `decaf377` and not modelled.
-/

namespace Poseidon

/-- The arrays `permutation.rs` reads and writes.  The statements of permutation.rs:79-296. -/
inductive Loc where
  | input | state | arc | optimizedArc | mds | mI
  /-- `v_collection[round]` -/
  | v (round : Nat)
  /-- `w_hat_collection[round]` -/
  | wHat (round : Nat)
  | m00
  /-- the local `new_state_words` -/
  | newState
  /-- the local `add_row` -/
  | addRow
  deriving DecidableEq

/-- One step of a run.  The statements of permutation.rs:79-296. -/
inductive Event where
  | add | mul | pow (e : Nat) | inv
  | read (l : Loc) (i : Nat)
  | write (l : Loc) (i : Nat)
  deriving DecidableEq

/-- A computation that may panic, with the events up to its end or to the panic.  The statements of permutation.rs:79-296. -/
structure Traced (α : Type) where
  result : R α
  trace : List Event

namespace Traced

instance : Monad Traced where
  pure a := ⟨.ok a, []⟩
  bind x f := match x.result with
    | .ok a => ⟨(f a).result, x.trace ++ (f a).trace⟩
    | .error e => ⟨.error e, x.trace⟩

/-- control flow without events.  The statements of permutation.rs:79-296. -/
def lift {α : Type} (x : R α) : Traced α := ⟨x, []⟩

/-- one event.  The statements of permutation.rs:79-296. -/
def emit (e : Event) : Traced Unit := ⟨.ok (), [e]⟩

variable {F : Type} [Field F] [DecidableEq F] {t tm1 nmds nhat rows cols nround npart : Nat}

/-- `a + b`.  The statements of permutation.rs:79-296. -/
def fadd (a b : F) : Traced F := ⟨.ok (a + b), [.add]⟩

/-- `a * b`.  The statements of permutation.rs:79-296. -/
def fmul (a b : F) : Traced F := ⟨.ok (a * b), [.mul]⟩

/-- `arr[i]`.  The statements of permutation.rs:79-296. -/
def get {α : Type} {n : Nat} (l : Loc) (v : Vector α n) (i : Nat) : Traced α := ⟨aget v i, [.read l i]⟩

/-- `arr[i] = x`.  The statements of permutation.rs:79-296. -/
def set {α : Type} {n : Nat} (l : Loc) (v : Vector α n) (i : Nat) (x : α) : Traced (Vector α n) := ⟨aset v i x, [.write l i]⟩

/-- `n` iterations of a loop body starting at index `i`.  The statements of permutation.rs:79-296. -/
def loopN {σ : Type} (body : Nat → σ → Traced σ) : Nat → Nat → σ → Traced σ
  | 0, _, s => pure s
  | n + 1, i, s => body i s >>= loopN body n (i + 1)

/-- `for i in lo..hi { body }`.  The statements of permutation.rs:79-296. -/
def forRange {σ : Type} (lo hi : Nat) (s : σ) (body : Nat → σ → Traced σ) : Traced σ :=
  loopN body (hi - lo) lo s

/-- `for x in list { body }`.  The statements of permutation.rs:79-296. -/
def forList {α σ : Type} : List α → σ → (α → σ → Traced σ) → Traced σ
  | [], s, _ => pure s
  | x :: xs, s, body => body x s >>= fun s' => forList xs s' body

/-- The S-box of `partial_sub_words`/`full_sub_words`, permutation.rs:219-240 -/
def sbox (alpha : Alpha) (x : F) : Traced F :=
  match alpha with
  | .exponent e => ⟨.ok (x ^ e), [.pow e]⟩
  | .inverse => ⟨fdiv 1 x, [.inv]⟩

/-- `partial_sub_words`, permutation.rs:219-224 -/
def partialSubWords (alpha : Alpha) (s : Vector F t) : Traced (Vector F t) := do
  let x ← get .state s 0
  let y ← sbox alpha x
  set .state s 0 y

/-- `full_sub_words`, permutation.rs:227-240 -/
def fullSubWords (alpha : Alpha) (s : Vector F t) : Traced (Vector F t) :=
  forRange 0 t s fun i s => do
    let x ← get .state s i
    let y ← sbox alpha x
    set .state s i y

/-- `zip(..).map(|(x, y)| *x * *y).sum()`, permutation.rs:246-250, 261-265, 288-293: `sum` starts at zero and adds every product; the left factors are elements `off`, `off + 1`, ..
of the array `l`, the right ones the words `off'`, `off' + 1`, .. of the state -/
def dot (l : Loc) (off off' : Nat) (xs ys : List F) : Traced F :=
  forList (xs.zip ys).zipIdx 0 fun ((x, y), j) acc => do
    emit (.read l (off + j))
    emit (.read .state (off' + j))
    let xy ← fmul x y
    fadd acc xy

/-- `mix_layer_mi`, permutation.rs:243-254 and `mix_layer_mds`, permutation.rs:257-269 -/
def mixLayer (l : Loc) (m : Mat F t t nmds) (s : Vector F t) : Traced (Vector F t) := do
  let rws ← lift m.iterRows
  forList rws.zipIdx (Vector.replicate t (0 : F)) fun (row, i) new => do
    let sum ← dot l (i * t) 0 row s.toList
    set .newState new i sum

/-- `state_words[i] += arc.get_element(row, i)` for all `i`, permutation.rs:107-109, 118-124, 147-153 -/
def addRow (arc : Mat F rows cols nround) (row : Nat) (s : Vector F t) : Traced (Vector F t) :=
  forRange 0 t s fun i s => do
    let x ← get .state s i
    let k ← get .optimizedArc arc.elements (row * cols + i)
    let y ← fadd x k
    set .state s i y

/-- `state_words[i] += round_constants[counter]; counter += 1` for all `i`, permutation.rs:187-190, 198-201, 209-212 -/
def addLinear (arc : Mat F rows cols nround) (st : Vector F t × Nat) : Traced (Vector F t × Nat) :=
  forRange 0 t st fun i (s, counter) => do
    let x ← get .state s i
    let k ← get .arc arc.elements counter
    let y ← fadd x k
    let s ← set .state s i y
    return (s, counter + 1)

/-- `sparse_mat_mul`, permutation.rs:272-296 -/
def sparseMatMul (o : OptimizedMds F npart t tm1 nmds nhat) (round : Nat) (s : Vector F t) : Traced (Vector F t) := do
  let v ← lift (aget o.vCollection round)
  let addRow ← forList v.elements.toList.zipIdx (Vector.replicate tm1 (0 : F)) fun (x, i) acc => do
    emit (.read (.v round) i)
    let s0 ← get .state s 0
    let xs ← fmul x s0
    let si ← get .state s (i + 1)
    let y ← fadd xs si
    set .addRow acc i y
  emit (.read .m00 0)
  let s0 ← get .state s 0
  let a ← fmul o.m00 s0
  let w ← lift (aget o.wHatCollection round)
  let s ← if 1 ≤ t then do
      let b ← dot (.wHat round) 0 1 w.elements.toList (s.toList.drop 1)
      let c ← fadd a b
      set .state s 0 c
    else lift (.error .indexOOB)
  let k ← lift (usub t 1)
  if k ≤ tm1 then
    forList (addRow.toList.take k).zipIdx s fun (x, i) s => do
      emit (.read .addRow i)
      set .state s (i + 1) x
  else lift (.error .indexOOB)

/-- `permute`, permutation.rs:101-158 -/
def permute (p : Params F t tm1 nmds nhat rows cols nround npart) (s : Vector F t) : Traced (Vector F t) := do
  let rf := p.rounds.full / 2
  -- First chunk of full rounds
  let s ← forRange 0 rf s fun r s => do
    let s ← addRow p.optimizedArc r s
    let s ← fullSubWords p.alpha s
    mixLayer .mds p.mds s
  let counter := rf
  -- Partial rounds
  let s ← addRow p.optimizedArc counter s
  let s ← mixLayer .mI p.optimizedMds.mI s
  let lim ← lift (usub p.rounds.partialRounds 1)
  let (s, counter) ← forRange 0 lim (s, counter) fun r (s, counter) => do
    let s ← partialSubWords p.alpha s
    let counter := counter + 1
    let x ← get .state s 0
    let k ← get .optimizedArc p.optimizedArc.elements (counter * cols + 0)
    let y ← fadd x k
    let s ← set .state s 0 y
    let idx ← lift (usub p.rounds.partialRounds r)
    let idx ← lift (usub idx 1)
    let s ← sparseMatMul p.optimizedMds idx s
    return (s, counter)
  -- Last partial round
  let s ← partialSubWords p.alpha s
  let s ← sparseMatMul p.optimizedMds 0 s
  let counter := counter + 1
  -- Final full rounds
  let (s, _) ← forRange 0 rf (s, counter) fun _ (s, counter) => do
    let s ← addRow p.optimizedArc counter s
    let s ← fullSubWords p.alpha s
    let s ← mixLayer .mds p.mds s
    return (s, counter + 1)
  return s

/-- `unoptimized_permute`, permutation.rs:178-216 -/
def unoptimizedPermute (p : Params F t tm1 nmds nhat rows cols nround npart) (s : Vector F t) : Traced (Vector F t) := do
  let rf := p.rounds.full / 2
  let rp := p.rounds.partialRounds
  -- First full rounds
  let st ← forRange 0 rf (s, 0) fun _ st => do
    let (s, counter) ← addLinear p.arc st
    let s ← fullSubWords p.alpha s
    let s ← mixLayer .mds p.mds s
    return (s, counter)
  -- Partial rounds
  let st ← forRange 0 rp st fun _ st => do
    let (s, counter) ← addLinear p.arc st
    let s ← partialSubWords p.alpha s
    let s ← mixLayer .mds p.mds s
    return (s, counter)
  -- Final full rounds
  let st ← forRange 0 rf st fun _ st => do
    let (s, counter) ← addLinear p.arc st
    let s ← fullSubWords p.alpha s
    let s ← mixLayer .mds p.mds s
    return (s, counter)
  return st.1

/-- The loop `self.state_words[i] = *input_word`, permutation.rs:81-83 and 163-165 -/
def setState (state input : Vector F t) : Traced (Vector F t) :=
  forList input.toList.zipIdx state fun (x, i) s => do
    emit (.read .input i)
    set .state s i x

/-- `n_to_1_fixed_hash`, permutation.rs:79-90 -/
def nTo1FixedHash (self : Instance F t tm1 nmds nhat rows cols nround npart) (input : Vector F t) :
    Traced (F × Instance F t tm1 nmds nhat rows cols nround npart) := do
  let s ← setState self.stateWords input
  let s ← permute self.parameters s
  let out ← get .state s 1
  return (out, { self with stateWords := s })

/-- `unoptimized_n_to_1_fixed_hash`, permutation.rs:161-172 -/
def unoptimizedNTo1FixedHash (self : Instance F t tm1 nmds nhat rows cols nround npart) (input : Vector F t) :
    Traced (F × Instance F t tm1 nmds nhat rows cols nround npart) := do
  let s ← setState self.stateWords input
  let s ← unoptimizedPermute self.parameters s
  let out ← get .state s 1
  return (out, { self with stateWords := s })

end Traced

/-- Price of an event: `a` for an addition, `m` for a multiplication, `s` for an S-box, nothing for memory accesses.
No counterpart in /repo (counts the steps of permutation.rs:79-296). -/
def Event.price (a m s : Nat) : Event → Nat
  | .add => a
  | .mul => m
  | .pow _ => s
  | .inv => s
  | .read _ _ => 0
  | .write _ _ => 0

/-- Price of a run.  No counterpart in /repo (counts the steps of permutation.rs:79-296). -/
def Traced.price {α : Type} (a m s : Nat) (x : Traced α) : Nat := (x.trace.map (Event.price a m s)).sum

end Poseidon
