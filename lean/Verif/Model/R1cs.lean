import Verif.Model.Hash

/-!
# Model of `poseidon-permutation/src/r1cs.rs` and `poseidon377/src/r1cs.rs`

The gadget is written against `ark-relations` / `ark-r1cs-std` 0.4, which are not part of the
repository.  The operations it uses are modelled here from their published source:

* a constraint system stores numbers of variables, the assignment (absent in setup mode) and rank-1
  constraints `a * b = c` over linear combinations;
* `FpVar` is a constant or an allocated variable with an optional value; `AllocatedFp::variable` is a
  linear combination.  In the library it is a *symbolic* linear combination that `finalize` inlines;
  here it is inlined at once.  Linear combinations are kept as unsorted lists of terms;
* constraints are always recorded (`construct_matrices = true`) and all variables live in one
  constraint system, the one passed along.
-/

namespace Poseidon.R1cs

variable {F : Type} [Field F] [DecidableEq F]

/-- `ark_relations::r1cs::Variable` (`Zero` never occurs).  Library type, imported in poseidon-permutation/src/r1cs.rs:4-5. -/
inductive Variable where
  | one
  | input (i : Nat)
  | witness (i : Nat)
  deriving DecidableEq, Repr

/-- `ark_relations::r1cs::LinearCombination`.  Library type, imported in poseidon-permutation/src/r1cs.rs:4-5. -/
abbrev LC (F : Type) := List (F × Variable)

/-- `ark_relations::r1cs::ConstraintSystem`; `setup` is `SynthesisMode::Setup`, otherwise
`SynthesisMode::Prove`.  Library type, imported in poseidon-permutation/src/r1cs.rs:4-5. -/
structure CS (F : Type) where
  setup : Bool
  numInstance : Nat
  numWitness : Nat
  instanceAssignment : List F
  witnessAssignment : List F
  constraints : List (LC F × LC F × LC F)

/-- `AllocatedFp` (without its handle of the constraint system); `lc` is its `variable`.
Library type, imported in poseidon-permutation/src/r1cs.rs:4-5. -/
structure AllocatedFp (F : Type) where
  value : Option F
  lc : LC F

/-- `FpVar`.  Library type, imported in poseidon-permutation/src/r1cs.rs:4-5. -/
inductive FpVar (F : Type) where
  | constant (c : F)
  | var (v : AllocatedFp F)

/-- `AllocatedFp::new_witness`: in setup mode the closure is not run and there is no value; otherwise a
missing value is an `Err` that the callers unwrap.
Library code under poseidon-permutation/src/r1cs.rs:136 and poseidon-permutation/src/r1cs.rs:149. -/
def newWitness (value : Option F) (cs : CS F) : R (AllocatedFp F × CS F) :=
  let lc : LC F := [(1, .witness cs.numWitness)]
  if cs.setup then .ok (⟨none, lc⟩, { cs with numWitness := cs.numWitness + 1 })
  else match value with
    | none => .error .unwrapNone
    | some v => .ok (⟨some v, lc⟩,
        { cs with numWitness := cs.numWitness + 1, witnessAssignment := cs.witnessAssignment ++ [v] })

/-- `ConstraintSystemRef::enforce_constraint`.
Library code under poseidon-permutation/src/r1cs.rs:136 and poseidon-permutation/src/r1cs.rs:149. -/
def enforce (a b c : LC F) (cs : CS F) : CS F := { cs with constraints := cs.constraints ++ [(a, b, c)] }

/-- `AllocatedFp::mul`.  Library code under poseidon-permutation/src/r1cs.rs:136 and poseidon-permutation/src/r1cs.rs:149. -/
def AllocatedFp.mul (a b : AllocatedFp F) (cs : CS F) : R (AllocatedFp F × CS F) := do
  let (product, cs) ← newWitness (do let x ← a.value; let y ← b.value; return x * y) cs
  return (product, enforce a.lc b.lc product.lc cs)

/-- `AllocatedFp::add_constant`.  Called in poseidon-permutation/src/r1cs.rs:101. -/
def AllocatedFp.addConstant (a : AllocatedFp F) (c : F) : AllocatedFp F :=
  if c = 0 then a else ⟨a.value.map (· + c), a.lc ++ [(c, .one)]⟩

/-- `AllocatedFp::mul_constant`.  Library code under poseidon-permutation/src/r1cs.rs:172-173. -/
def AllocatedFp.mulConstant (a : AllocatedFp F) (c : F) : AllocatedFp F :=
  if c = 1 then a else ⟨a.value.map (· * c), a.lc.map fun (k, v) => (k * c, v)⟩

/-- `AllocatedFp::addmany`.  With no variable to sum there is no constraint system to register the new
linear combination in, and the library panics.  Library code under poseidon-permutation/src/r1cs.rs:176. -/
def AllocatedFp.addmany (l : List (AllocatedFp F)) : R (AllocatedFp F) :=
  if l.isEmpty then .error .assertFailed
  else .ok ⟨l.foldl (fun acc v => do let x ← acc; let y ← v.value; return x + y) (some 0),
    l.foldl (fun acc v => acc ++ v.lc) []⟩

/-- `FpVar * FpVar`.
Called in poseidon-permutation/src/r1cs.rs:172-173; also under `pow_by_constant`, poseidon-permutation/src/r1cs.rs:149. -/
def FpVar.mul (a b : FpVar F) (cs : CS F) : R (FpVar F × CS F) :=
  match a, b with
  | .constant x, .constant y => .ok (.constant (x * y), cs)
  | .constant c, .var v => .ok (.var (v.mulConstant c), cs)
  | .var v, .constant c => .ok (.var (v.mulConstant c), cs)
  | .var v, .var w => do
    let (p, cs) ← v.mul w cs
    return (.var p, cs)

/-- `FpVar += F`.  Called in poseidon-permutation/src/r1cs.rs:101. -/
def FpVar.addConstant (a : FpVar F) (c : F) : FpVar F :=
  match a with
  | .constant x => .constant (x + c)
  | .var v => .var (v.addConstant c)

/-- `FpVar::square`.  Library code under poseidon-permutation/src/r1cs.rs:136 and poseidon-permutation/src/r1cs.rs:149. -/
def FpVar.square (a : FpVar F) (cs : CS F) : R (FpVar F × CS F) :=
  match a with
  | .constant x => .ok (.constant (x * x), cs)
  | .var v => do
    let (p, cs) ← v.mul v cs
    return (.var p, cs)

/-- The constants among the summands (the `filter_map` of `Sum<&FpVar> for FpVar`).
Library code under poseidon-permutation/src/r1cs.rs:176. -/
def FpVar.const? : FpVar F → Option F
  | .constant c => some c
  | .var _ => none

/-- The variables among the summands (the `filter_map` of `Sum<&FpVar> for FpVar`).
Library code under poseidon-permutation/src/r1cs.rs:176. -/
def FpVar.var? : FpVar F → Option (AllocatedFp F)
  | .constant _ => none
  | .var v => some v

/-- `Sum<&FpVar> for FpVar`: constants are summed apart, the variables with `addmany`.
Library code under poseidon-permutation/src/r1cs.rs:176. -/
def FpVar.sum (l : List (FpVar F)) : R (FpVar F) := do
  let sumConstants := fsum (l.filterMap FpVar.const?)
  let v ← AllocatedFp.addmany (l.filterMap FpVar.var?)
  return FpVar.addConstant (.var v) sumConstants

/-- `BitIteratorBE::without_leading_zeros` on one 64-bit limb: the bits from the most significant one.
Library code under poseidon-permutation/src/r1cs.rs:136 and poseidon-permutation/src/r1cs.rs:149. -/
def bitsBE (e : Nat) : List Bool :=
  ((List.range 64).reverse.map fun i => e.testBit i).dropWhile (fun b => !b)

/-- `FieldVar::pow_by_constant`.  Library code under poseidon-permutation/src/r1cs.rs:136 and poseidon-permutation/src/r1cs.rs:149. -/
def FpVar.powByConstant (a : FpVar F) (e : Nat) (cs : CS F) : R (FpVar F × CS F) :=
  forList (bitsBE e) (FpVar.constant 1, cs) fun bit (res, cs) => do
    let (res, cs) ← res.square cs
    if bit then res.mul a cs else return (res, cs)

/-- `vec[i] = x`.  poseidon-permutation/src/r1cs.rs:135, poseidon-permutation/src/r1cs.rs:148. -/
def lset {α : Type} (l : List α) (i : Nat) (x : α) : R (List α) :=
  if i < l.length then .ok (l.set i x) else .error .indexOOB

variable {t tm1 nmds nhat rows cols nround npart : Nat}

/-- `self.state_words[i] += round_constants[round_constants_counter]; round_constants_counter += 1` for
all `i`, r1cs.rs:100-103, 111-114, 122-125 -/
def addRoundConstants (t : Nat) (arc : Mat F rows cols nround) (s : List (FpVar F)) (counter : Nat) :
    R (List (FpVar F) × Nat) :=
  forRange 0 t (s, counter) fun i (s, counter) => do
    let x ← lget s i
    let k ← aget arc.elements counter
    let s ← lset s i (x.addConstant k)
    return (s, counter + 1)

/-- `partial_sub_words`, r1cs.rs:132-141 -/
def partialSubWords (alpha : Alpha) (s : List (FpVar F)) (cs : CS F) : R (List (FpVar F) × CS F) :=
  match alpha with
  | .exponent exp => do
    let x ← lget s 0
    let (y, cs) ← x.powByConstant exp cs
    let s ← lset s 0 y
    return (s, cs)
  | .inverse => .error .unimplemented

/-- `full_sub_words`, r1cs.rs:144-157 -/
def fullSubWords (t : Nat) (alpha : Alpha) (s : List (FpVar F)) (cs : CS F) : R (List (FpVar F) × CS F) :=
  match alpha with
  | .exponent exp => forRange 0 t (s, cs) fun i (s, cs) => do
    let x ← lget s i
    let (y, cs) ← x.powByConstant exp cs
    let s ← lset s i y
    return (s, cs)
  | .inverse => .error .unimplemented

/-- One row of `mix_layer_mds`: `new_constant(x) * y` for each pair, then the sum, r1cs.rs:168-178 -/
def mixRow (row : List F) (s : List (FpVar F)) (cs : CS F) : R (FpVar F × CS F) := do
  let (terms, cs) ← forList (row.zip s) ([], cs) fun (x, y) (terms, cs) => do
    let (p, cs) ← (FpVar.constant x).mul y cs
    return (terms ++ [p], cs)
  let r ← FpVar.sum terms
  return (r, cs)

/-- `mix_layer_mds`, r1cs.rs:160-180 -/
def mixLayer (m : Mat F t t nmds) (s : List (FpVar F)) (cs : CS F) : R (List (FpVar F) × CS F) := do
  let rws ← m.iterRows
  forList rws ([], cs) fun row (new, cs) => do
    let (x, cs) ← mixRow row s cs
    return (new ++ [x], cs)

/-- A round of `permute`: constants, S-boxes, mixing; r1cs.rs:98-106 (`full`) and 109-117 (not `full`) -/
def round (p : Params F t tm1 nmds nhat rows cols nround npart) (full : Bool)
    (st : List (FpVar F) × Nat × CS F) : R (List (FpVar F) × Nat × CS F) := do
  let (s, counter, cs) := st
  let (s, counter) ← addRoundConstants t p.arc s counter
  let (s, cs) ← if full then fullSubWords t p.alpha s cs else partialSubWords p.alpha s cs
  let (s, cs) ← mixLayer p.mds s cs
  return (s, counter, cs)

/-- `InstanceVar::permute`, r1cs.rs:91-129 -/
def permute (p : Params F t tm1 nmds nhat rows cols nround npart) (s : List (FpVar F)) (cs : CS F) :
    R (List (FpVar F) × CS F) := do
  let rf := p.rounds.full / 2
  let rp := p.rounds.partialRounds
  let st ← forRange 0 rf (s, 0, cs) fun _ st => round p true st
  let st ← forRange 0 rp st fun _ st => round p false st
  let st ← forRange 0 rf st fun _ st => round p true st
  return (st.1, st.2.2)

/-- `InstanceVar::n_to_1_fixed_hash`, r1cs.rs:61-88 -/
def nTo1FixedHash (p : Params F t tm1 nmds nhat rows cols nround npart) (inputWords : Vector (FpVar F) t)
    (cs : CS F) : R (FpVar F × CS F) := do
  let (s, cs) ← permute p inputWords.toList cs
  let out ← lget s 1
  return (out, cs)

/-- Circuit `hash_1`, poseidon377/src/r1cs.rs:7-17 (never `Err`; the `Ok` is dropped, as in the others) -/
def hash1 (ds : FpVar Fq) (v : FpVar Fq) (cs : CS Fq) : R (FpVar Fq × CS Fq) :=
  nTo1FixedHash rate1Params #v[ds, v] cs

/-- Circuit `hash_2`, poseidon377/src/r1cs.rs:19-29 -/
def hash2 (ds : FpVar Fq) (v : FpVar Fq × FpVar Fq) (cs : CS Fq) : R (FpVar Fq × CS Fq) :=
  nTo1FixedHash rate2Params #v[ds, v.1, v.2] cs

/-- Circuit `hash_3`, poseidon377/src/r1cs.rs:31-41 -/
def hash3 (ds : FpVar Fq) (v : FpVar Fq × FpVar Fq × FpVar Fq) (cs : CS Fq) : R (FpVar Fq × CS Fq) :=
  nTo1FixedHash rate3Params #v[ds, v.1, v.2.1, v.2.2] cs

/-- Circuit `hash_4`, poseidon377/src/r1cs.rs:43-53 -/
def hash4 (ds : FpVar Fq) (v : FpVar Fq × FpVar Fq × FpVar Fq × FpVar Fq) (cs : CS Fq) : R (FpVar Fq × CS Fq) :=
  nTo1FixedHash rate4Params #v[ds, v.1, v.2.1, v.2.2.1, v.2.2.2] cs

/-- Circuit `hash_5`, poseidon377/src/r1cs.rs:55-72 -/
def hash5 (ds : FpVar Fq) (v : FpVar Fq × FpVar Fq × FpVar Fq × FpVar Fq × FpVar Fq) (cs : CS Fq) : R (FpVar Fq × CS Fq) :=
  nTo1FixedHash rate5Params #v[ds, v.1, v.2.1, v.2.2.1, v.2.2.2.1, v.2.2.2.2] cs

/-- Circuit `hash_6`, poseidon377/src/r1cs.rs:74-92 -/
def hash6 (ds : FpVar Fq) (v : FpVar Fq × FpVar Fq × FpVar Fq × FpVar Fq × FpVar Fq × FpVar Fq) (cs : CS Fq) : R (FpVar Fq × CS Fq) :=
  nTo1FixedHash rate6Params #v[ds, v.1, v.2.1, v.2.2.1, v.2.2.2.1, v.2.2.2.2.1, v.2.2.2.2.2] cs

/-- Circuit `hash_7`, poseidon377/src/r1cs.rs:94-113 -/
def hash7 (ds : FpVar Fq) (v : FpVar Fq × FpVar Fq × FpVar Fq × FpVar Fq × FpVar Fq × FpVar Fq × FpVar Fq) (cs : CS Fq) : R (FpVar Fq × CS Fq) :=
  nTo1FixedHash rate7Params #v[ds, v.1, v.2.1, v.2.2.1, v.2.2.2.1, v.2.2.2.2.1, v.2.2.2.2.2.1, v.2.2.2.2.2.2] cs

end Poseidon.R1cs
