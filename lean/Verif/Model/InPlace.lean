import Verif.Model.Permutation

/-!
# The permutations in place, one access to the state at a time

`Permutation.lean` models a call as a function from the instance to the instance.  Here a call is a program of single reads and writes of
`self.state_words`, in the order of permutation.rs:79-296.  So there is a state of the instance at every moment of a call: the one that is
left behind if the call panics and the panic is caught, and the one other threads would see.  The tables in the parameters are read only
(`&'a PoseidonParameters`, permutation.rs:21) and their reads are not steps.
-/

namespace Poseidon

/-- A program with access to the words of an instance: it returns, panics, reads word `i`, or writes `x` to word `i`.
The statements of permutation.rs:79-296. -/
inductive Prog (F α : Type) : Type where
  | ret (a : α)
  | panic (e : Panic)
  | rd (i : Nat) (k : F → Prog F α)
  | wr (i : Nat) (x : F) (k : Prog F α)

namespace Prog

variable {F α β σ : Type}

/-- `P; f`.  The statements of permutation.rs:79-296. -/
def bind : Prog F α → (α → Prog F β) → Prog F β
  | ret a, f => f a
  | panic e, _ => panic e
  | rd i k, f => rd i fun x => (k x).bind f
  | wr i x k, f => wr i x (k.bind f)

instance : Monad (Prog F) where
  pure := ret
  bind := bind

/-- What does not touch the state.  The statements of permutation.rs:79-296. -/
def lift : R α → Prog F α
  | .ok a => ret a
  | .error e => panic e

/-- `self.state_words[i]`, for instance permutation.rs:89, 221-222 -/
def read (i : Nat) : Prog F F := rd i ret

/-- `self.state_words[i] = x`, for instance permutation.rs:82, 221 -/
def write (i : Nat) (x : F) : Prog F Unit := wr i x (ret ())

/-- One access to the state (an index out of range panics); a program that has ended stays as it is.  The indexing of permutation.rs:79-296. -/
def step {t : Nat} : Prog F α → Vector F t → Prog F α × Vector F t
  | ret a, s => (ret a, s)
  | panic e, s => (panic e, s)
  | rd i k, s => if h : i < t then (k s[i], s) else (panic .indexOOB, s)
  | wr i x k, s => if h : i < t then (k, s.set i x h) else (panic .indexOOB, s)

/-- A call that is alone: its result, and the state it leaves behind, also if it panics.  The statements of permutation.rs:79-296. -/
def run {t : Nat} : Prog F α → Vector F t → R α × Vector F t
  | ret a, s => (.ok a, s)
  | panic e, s => (.error e, s)
  | rd i k, s => if h : i < t then (k s[i]).run s else (.error .indexOOB, s)
  | wr i x k, s => if h : i < t then k.run (s.set i x h) else (.error .indexOOB, s)

/-- The number of accesses to the state of such a call.  The statements of permutation.rs:79-296. -/
def accesses {t : Nat} : Prog F α → Vector F t → Nat
  | ret _, _ => 0
  | panic _, _ => 0
  | rd i k, s => 1 + if h : i < t then (k s[i]).accesses s else 0
  | wr i x k, s => 1 + if h : i < t then k.accesses (s.set i x h) else 0

/-- `n` iterations of a loop body starting at index `i`.  The loops of permutation.rs:79-296. -/
def loopN (body : Nat → σ → Prog F σ) : Nat → Nat → σ → Prog F σ
  | 0, _, a => pure a
  | n + 1, i, a => body i a >>= loopN body n (i + 1)

/-- `for i in lo..hi { body }`.  The loops of permutation.rs:79-296. -/
def forRange (lo hi : Nat) (a : σ) (body : Nat → σ → Prog F σ) : Prog F σ := loopN body (hi - lo) lo a

/-- `for x in list { body }`.  The loops of permutation.rs:79-296. -/
def forList : List α → σ → (α → σ → Prog F σ) → Prog F σ
  | [], a, _ => pure a
  | x :: xs, a, body => body x a >>= fun a' => forList xs a' body

variable [Field F] [DecidableEq F] {t tm1 nmds nhat rows cols nround npart : Nat}

/-- `partial_sub_words`, permutation.rs:219-224 -/
def partialSubWords (alpha : Alpha) : Prog F Unit := do
  let x ← read 0
  let y ← lift (sbox alpha x)
  write 0 y

/-- `full_sub_words`, permutation.rs:227-240 -/
def fullSubWords (t : Nat) (alpha : Alpha) : Prog F Unit :=
  forRange 0 t () fun i _ => do
    let x ← read i
    let y ← lift (sbox alpha x)
    write i y

/-- `zip(..).map(|(x, y)| *x * *y).sum()`, permutation.rs:246-250, 261-265, 288-293: the right factors are the words `off`, `off + 1`, ..
of the state, as many as there are -/
def dot (t off : Nat) (xs : List F) : Prog F F :=
  forList (xs.take (t - off)).zipIdx 0 fun (x, j) acc => do
    let y ← read (off + j)
    return acc + x * y

/-- `self.state_words = new_state_words`, permutation.rs:253, 268 -/
def assign (new : Vector F t) : Prog F Unit :=
  forList new.toList.zipIdx () fun (x, i) _ => write i x

/-- `mix_layer_mi`, permutation.rs:243-254 and `mix_layer_mds`, permutation.rs:257-269 -/
def mixLayer (m : Mat F t t nmds) : Prog F Unit := do
  let rws ← lift m.iterRows
  let new ← forList rws.zipIdx (Vector.replicate t (0 : F)) fun (row, i) new => do
    let sum ← dot t 0 row
    lift (aset new i sum)
  assign new

/-- `state_words[i] += arc.get_element(row, i)` for all `i`, permutation.rs:107-109, 118-124, 147-153 -/
def addRow (t : Nat) (arc : Mat F rows cols nround) (row : Nat) : Prog F Unit :=
  forRange 0 t () fun i _ => do
    let x ← read i
    let k ← lift (arc.get row i)
    write i (x + k)

/-- `state_words[i] += round_constants[counter]; counter += 1` for all `i`, permutation.rs:187-190, 198-201, 209-212 -/
def addLinear (t : Nat) (arc : Mat F rows cols nround) (counter : Nat) : Prog F Nat :=
  forRange 0 t counter fun i counter => do
    let x ← read i
    let k ← lift (aget arc.elements counter)
    write i (x + k)
    return counter + 1

/-- `sparse_mat_mul`, permutation.rs:272-296 -/
def sparseMatMul (o : OptimizedMds F npart t tm1 nmds nhat) (round : Nat) : Prog F Unit := do
  let v ← lift (aget o.vCollection round)
  let addRow ← forList v.elements.toList.zipIdx (Vector.replicate tm1 (0 : F)) fun (x, i) acc => do
    let s0 ← read 0
    let si ← read (i + 1)
    lift (aset acc i (x * s0 + si))
  let s0 ← read 0
  let w ← lift (aget o.wHatCollection round)
  -- `state_words[1..STATE_SIZE]` panics if `STATE_SIZE = 0`
  if 1 ≤ t then do
    let sum ← dot t 1 w.elements.toList
    write 0 (o.m00 * s0 + sum)
  else lift (.error .indexOOB)
  -- `add_row[..(STATE_SIZE - 1)]`, then `copy_from_slice`
  let k ← lift (usub t 1)
  if k ≤ tm1 then
    forList (addRow.toList.take k).zipIdx () fun (x, i) _ => write (i + 1) x
  else lift (.error .indexOOB)

/-- `permute`, permutation.rs:101-158 -/
def permute (p : Params F t tm1 nmds nhat rows cols nround npart) : Prog F Unit := do
  let rf := p.rounds.full / 2
  -- First chunk of full rounds
  forRange 0 rf () fun r _ => do
    addRow t p.optimizedArc r
    fullSubWords t p.alpha
    mixLayer p.mds
  let counter := rf
  -- Partial rounds
  addRow t p.optimizedArc counter
  mixLayer p.optimizedMds.mI
  let lim ← lift (usub p.rounds.partialRounds 1)
  let counter ← forRange 0 lim counter fun r counter => do
    partialSubWords p.alpha
    let counter := counter + 1
    let x ← read 0
    let k ← lift (p.optimizedArc.get counter 0)
    write 0 (x + k)
    let idx ← lift (usub p.rounds.partialRounds r)
    let idx ← lift (usub idx 1)
    sparseMatMul p.optimizedMds idx
    return counter
  -- Last partial round
  partialSubWords p.alpha
  sparseMatMul p.optimizedMds 0
  let counter := counter + 1
  -- Final full rounds
  let _ ← forRange 0 rf counter fun _ counter => do
    addRow t p.optimizedArc counter
    fullSubWords t p.alpha
    mixLayer p.mds
    return counter + 1
  return ()

/-- `unoptimized_permute`, permutation.rs:178-216 -/
def unoptimizedPermute (p : Params F t tm1 nmds nhat rows cols nround npart) : Prog F Unit := do
  let rf := p.rounds.full / 2
  let rp := p.rounds.partialRounds
  -- First full rounds
  let counter ← forRange 0 rf 0 fun _ counter => do
    let counter ← addLinear t p.arc counter
    fullSubWords t p.alpha
    mixLayer p.mds
    return counter
  -- Partial rounds
  let counter ← forRange 0 rp counter fun _ counter => do
    let counter ← addLinear t p.arc counter
    partialSubWords p.alpha
    mixLayer p.mds
    return counter
  -- Final full rounds
  let _ ← forRange 0 rf counter fun _ counter => do
    let counter ← addLinear t p.arc counter
    fullSubWords t p.alpha
    mixLayer p.mds
    return counter
  return ()

/-- The loop `self.state_words[i] = *input_word`, permutation.rs:81-83 and 163-165 -/
def setState (input : Vector F t) : Prog F Unit :=
  forList input.toList.zipIdx () fun (x, i) _ => write i x

/-- `n_to_1_fixed_hash`, permutation.rs:79-90 -/
def nTo1FixedHash (p : Params F t tm1 nmds nhat rows cols nround npart) (input : Vector F t) : Prog F F := do
  setState input
  permute p
  read 1

/-- `unoptimized_n_to_1_fixed_hash`, permutation.rs:161-172 -/
def unoptimizedNTo1FixedHash (p : Params F t tm1 nmds nhat rows cols nround npart) (input : Vector F t) : Prog F F := do
  setState input
  unoptimizedPermute p
  read 1

end Prog

/-! ## Threads

Any number of threads call the two functions on any number of instances.  The functions take `&mut self` (permutation.rs:79, 161), so while
a call runs no other call uses the instance; `output_words` takes `&self` (permutation.rs:93).  The parameters are shared.  All instances
exist from the start (`Instance::new`, permutation.rs:60-76, returns the same at any time). -/

/-- A call of one of the two functions, permutation.rs:79, 161 -/
inductive HashCall (F : Type) (t : Nat) where
  | optimized (input : Vector F t)
  | unoptimized (input : Vector F t)

variable {F : Type} [Field F] [DecidableEq F] {t tm1 nmds nhat rows cols nround npart : Nat}

/-- The program of a call, permutation.rs:79-90, 161-172 -/
def HashCall.prog (p : Params F t tm1 nmds nhat rows cols nround npart) : HashCall F t → Prog F F
  | .optimized x => Prog.nTo1FixedHash p x
  | .unoptimized x => Prog.unoptimizedNTo1FixedHash p x

/-- A call that has not ended: the instance, the call, and the rest of its program.  permutation.rs:79, 161 -/
structure Running (F : Type) (t : Nat) where
  inst : Nat
  call : HashCall F t
  prog : Prog F F

/-- What the callers see: the end of a call (its digest, or its panic, which is caught), or the result of `output_words`.
permutation.rs:79, 93, 161 -/
inductive Entry (F : Type) (t : Nat) where
  | ended (inst : Nat) (call : HashCall F t) (result : R F)
  | observed (inst : Nat) (words : Vector F t)

/-- The words of all instances, what every thread is doing, and what was seen so far (oldest first).  permutation.rs:9-34 -/
structure Threads (F : Type) (t : Nat) where
  states : Nat → Vector F t
  running : Nat → Option (Running F t)
  log : List (Entry F t)

/-- All instances are new (permutation.rs:73), no call runs. -/
def Threads.init (F : Type) [Field F] (t : Nat) : Threads F t := ⟨fun _ => Vector.replicate t 0, fun _ => none, []⟩

/-- The scheduler's choices: thread `th` starts a call on instance `i`, makes one access to the state or ends, or calls `output_words`.
permutation.rs:79-172 -/
inductive Choice (F : Type) (t : Nat) where
  | start (th i : Nat) (call : HashCall F t)
  | go (th : Nat)
  | observe (i : Nat)

/-- No call runs on instance `i`: what the borrow checker demands before `&mut self` (permutation.rs:79, 161) and `&self`
(permutation.rs:93). -/
def Threads.Free (y : Threads F t) (i : Nat) : Prop := ∀ th r, y.running th = some r → r.inst ≠ i

/-- One step.  `P i` are the parameters of instance `i`.  With `borrow` false the rule about `&mut self` is dropped, as unsafe code could.
permutation.rs:79-172 -/
inductive Threads.Step (borrow : Prop) (P : Nat → Params F t tm1 nmds nhat rows cols nround npart) (y : Threads F t) :
    Choice F t → Threads F t → Prop
  | start {th i : Nat} {c : HashCall F t} (idle : y.running th = none) (free : borrow → y.Free i) :
      Step borrow P y (.start th i c) { y with running := Function.update y.running th (some ⟨i, c, c.prog (P i)⟩) }
  | access {th : Nat} {r : Running F t} (h : y.running th = some r) (h1 : ∀ a, r.prog ≠ .ret a) (h2 : ∀ e, r.prog ≠ .panic e) :
      Step borrow P y (.go th)
        { y with
          states := Function.update y.states r.inst (r.prog.step (y.states r.inst)).2
          running := Function.update y.running th (some { r with prog := (r.prog.step (y.states r.inst)).1 }) }
  | returned {th : Nat} {r : Running F t} {a : F} (h : y.running th = some r) (h1 : r.prog = .ret a) :
      Step borrow P y (.go th) { y with running := Function.update y.running th none, log := y.log ++ [.ended r.inst r.call (.ok a)] }
  | panicked {th : Nat} {r : Running F t} {e : Panic} (h : y.running th = some r) (h1 : r.prog = .panic e) :
      Step borrow P y (.go th) { y with running := Function.update y.running th none, log := y.log ++ [.ended r.inst r.call (.error e)] }
  | observe {i : Nat} (free : borrow → y.Free i) : Step borrow P y (.observe i) { y with log := y.log ++ [.observed i (y.states i)] }

/-- A sequence of steps.  permutation.rs:79-172 -/
inductive Threads.Steps (borrow : Prop) (P : Nat → Params F t tm1 nmds nhat rows cols nround npart) (y : Threads F t) :
    List (Choice F t) → Threads F t → Prop
  | none : Steps borrow P y [] y
  | snoc {cs : List (Choice F t)} {z z' : Threads F t} {c : Choice F t} (h : Steps borrow P y cs z) (h' : Threads.Step borrow P z c z') :
      Steps borrow P y (cs ++ [c]) z'

end Poseidon
