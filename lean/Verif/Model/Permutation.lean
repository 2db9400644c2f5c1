import Verif.Model.Params

/-!
# Model of `poseidon-permutation/src/permutation.rs`

`Fq::power` is modelled by `^`.
-/

namespace Poseidon

variable {F : Type _} [Field F] [DecidableEq F]
variable {t tm1 nmds nhat rows cols nround npart : Nat}

/-- `Fq::from(1) / x` or `x.power([exp])`: the S-box of `partial_sub_words`/`full_sub_words`,
permutation.rs:219-240. -/
def sbox (alpha : Alpha) (x : F) : R F :=
  match alpha with
  | .exponent e => .ok (x ^ e)
  | .inverse => fdiv 1 x

/-- `partial_sub_words`, permutation.rs:219-224 -/
def partialSubWords (alpha : Alpha) (s : Vector F t) : R (Vector F t) := do
  let x ← aget s 0
  let y ← sbox alpha x
  aset s 0 y

/-- `full_sub_words`, permutation.rs:227-240 -/
def fullSubWords (alpha : Alpha) (s : Vector F t) : R (Vector F t) :=
  forRange 0 t s fun i s => do
    let x ← aget s i
    let y ← sbox alpha x
    aset s i y

/-- `mix_layer_mi`, permutation.rs:243-254 and `mix_layer_mds`, permutation.rs:257-269 (same body, the
matrix is the argument).  `zip` stops at the shorter sequence. -/
def mixLayer (m : Mat F t t nmds) (s : Vector F t) : R (Vector F t) := do
  let rws ← m.iterRows
  forList rws.zipIdx (Vector.replicate t (0 : F)) fun (row, i) new =>
    aset new i (fsum (List.zipWith (· * ·) row s.toList))

/-- `state_words[i] += arc.get_element(row, i)` for all `i`, permutation.rs:107-109, 118-124,
147-153 -/
def addRow (arc : Mat F rows cols nround) (row : Nat) (s : Vector F t) : R (Vector F t) :=
  forRange 0 t s fun i s => do
    let x ← aget s i
    let k ← arc.get row i
    aset s i (x + k)

/-- `state_words[i] += round_constants[counter]; counter += 1` for all `i`, permutation.rs:187-190,
198-201, 209-212 -/
def addLinear (arc : Mat F rows cols nround) (st : Vector F t × Nat) : R (Vector F t × Nat) :=
  forRange 0 t st fun i (s, counter) => do
    let x ← aget s i
    let k ← aget arc.elements counter
    let s ← aset s i (x + k)
    return (s, counter + 1)

/-- `sparse_mat_mul`, permutation.rs:272-296 -/
def sparseMatMul (o : OptimizedMds F npart t tm1 nmds nhat) (round : Nat) (s : Vector F t) :
    R (Vector F t) := do
  let v ← aget o.vCollection round
  let addRow ← forList v.elements.toList.zipIdx (Vector.replicate tm1 (0 : F)) fun (x, i) acc => do
    let s0 ← aget s 0
    let si ← aget s (i + 1)
    aset acc i (x * s0 + si)
  let s0 ← aget s 0
  let w ← aget o.wHatCollection round
  -- `state_words[1..STATE_SIZE]` panics if `STATE_SIZE = 0`
  let s ← if 1 ≤ t then
      aset s 0 (o.m00 * s0 + fsum (List.zipWith (· * ·) w.elements.toList (s.toList.drop 1)))
    else .error .indexOOB
  -- `add_row[..(STATE_SIZE - 1)]`, then `copy_from_slice`
  let k ← usub t 1
  if k ≤ tm1 then
    forList (addRow.toList.take k).zipIdx s fun (x, i) s => aset s (i + 1) x
  else .error .indexOOB

/-- `permute`, permutation.rs:101-158 -/
def permute (p : Params F t tm1 nmds nhat rows cols nround npart) (s : Vector F t) :
    R (Vector F t) := do
  let rf := p.rounds.full / 2
  -- First chunk of full rounds
  let s ← forRange 0 rf s fun r s => do
    let s ← addRow p.optimizedArc r s
    let s ← fullSubWords p.alpha s
    mixLayer p.mds s
  let counter := rf
  -- Partial rounds
  let s ← addRow p.optimizedArc counter s
  let s ← mixLayer p.optimizedMds.mI s
  let lim ← usub p.rounds.partialRounds 1
  let (s, counter) ← forRange 0 lim (s, counter) fun r (s, counter) => do
    let s ← partialSubWords p.alpha s
    let counter := counter + 1
    let x ← aget s 0
    let k ← p.optimizedArc.get counter 0
    let s ← aset s 0 (x + k)
    let idx ← usub p.rounds.partialRounds r
    let idx ← usub idx 1
    let s ← sparseMatMul p.optimizedMds idx s
    return (s, counter)
  -- Last partial round
  let s ← partialSubWords p.alpha s
  let s ← sparseMatMul p.optimizedMds 0 s
  let counter := counter + 1
  -- Final full rounds
  let (s, _) ← forRange 0 rf (s, counter) fun _ (s, counter) => do
    let s ← addRow p.optimizedArc counter s
    let s ← fullSubWords p.alpha s
    let s ← mixLayer p.mds s
    return (s, counter + 1)
  return s

/-- `unoptimized_permute`, permutation.rs:178-216 -/
def unoptimizedPermute (p : Params F t tm1 nmds nhat rows cols nround npart) (s : Vector F t) :
    R (Vector F t) := do
  let rf := p.rounds.full / 2
  let rp := p.rounds.partialRounds
  -- First full rounds
  let st ← forRange 0 rf (s, 0) fun _ st => do
    let (s, counter) ← addLinear p.arc st
    let s ← fullSubWords p.alpha s
    let s ← mixLayer p.mds s
    return (s, counter)
  -- Partial rounds
  let st ← forRange 0 rp st fun _ st => do
    let (s, counter) ← addLinear p.arc st
    let s ← partialSubWords p.alpha s
    let s ← mixLayer p.mds s
    return (s, counter)
  -- Final full rounds
  let st ← forRange 0 rf st fun _ st => do
    let (s, counter) ← addLinear p.arc st
    let s ← fullSubWords p.alpha s
    let s ← mixLayer p.mds s
    return (s, counter)
  return st.1

/-- `Instance`, permutation.rs:9-34 -/
structure Instance (F : Type _) (t tm1 nmds nhat rows cols nround npart : Nat) where
  parameters : Params F t tm1 nmds nhat rows cols nround npart
  stateWords : Vector F t

/-- `Instance::new`, permutation.rs:60-76 -/
def Instance.new (p : Params F t tm1 nmds nhat rows cols nround npart) :
    Instance F t tm1 nmds nhat rows cols nround npart :=
  { parameters := p, stateWords := Vector.replicate t 0 }

/-- The loop `self.state_words[i] = *input_word`, permutation.rs:81-83 and 163-165 -/
def setState (state input : Vector F t) : R (Vector F t) :=
  forList input.toList.zipIdx state fun (x, i) s => aset s i x

/-- `n_to_1_fixed_hash`, permutation.rs:79-90: the digest and the instance afterwards -/
def Instance.nTo1FixedHash (self : Instance F t tm1 nmds nhat rows cols nround npart)
    (input : Vector F t) : R (F × Instance F t tm1 nmds nhat rows cols nround npart) := do
  let s ← setState self.stateWords input
  let s ← permute self.parameters s
  let out ← aget s 1
  return (out, { self with stateWords := s })

/-- `output_words`, permutation.rs:93-95 -/
def Instance.outputWords (self : Instance F t tm1 nmds nhat rows cols nround npart) : Vector F t :=
  self.stateWords

/-- `unoptimized_n_to_1_fixed_hash`, permutation.rs:161-172 -/
def Instance.unoptimizedNTo1FixedHash (self : Instance F t tm1 nmds nhat rows cols nround npart)
    (input : Vector F t) : R (F × Instance F t tm1 nmds nhat rows cols nround npart) := do
  let s ← setState self.stateWords input
  let s ← unoptimizedPermute self.parameters s
  let out ← aget s 1
  return (out, { self with stateWords := s })

end Poseidon
