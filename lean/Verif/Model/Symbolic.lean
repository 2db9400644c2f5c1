import Verif.Model.Preimage

/-!
# Model of the circuits with symbolic linear combinations

`Model/R1cs.lean` inlines linear combinations at once.  In `ark-relations` 0.4 every linear operation registers a *symbolic* linear
combination in the constraint system (`new_lc`); a constraint is a triple of indices of such combinations.  `finalize` inlines
them (`transform_lc_map`), deletes those no longer used, and `to_matrices` gives the three matrices to the proof system.  This file
models the gadget and its circuits a second time on top of that.

The library code is written from its published source.  Simplification: a sum `lc!() + a + b` is the list of its terms in the
order of the program text.  The library inserts a term before the first term with a larger variable, and from six terms on adds
coefficients of equal variables; `compactify` sorts the terms and adds coefficients of equal variables in both cases.
-/

namespace Poseidon.Sym

variable {F : Type} [Field F] [DecidableEq F]

/-- `ark_relations::r1cs::Variable` with its `SymbolicLc` (`Zero` never occurs).
Library type, imported in poseidon-permutation/src/r1cs.rs:4-5. -/
inductive Var where
  | one
  | input (i : Nat)
  | witness (i : Nat)
  | lc (i : Nat)
  deriving DecidableEq, Repr

/-- `Ord for Variable` (`<=`): the constant, instance variables, witnesses, linear combinations.
Library code under poseidon-permutation/src/r1cs.rs:4-5. -/
def Var.le : Var → Var → Bool
  | .one, _ => true
  | .input i, .input j => i ≤ j
  | .input _, .one => false
  | .input _, _ => true
  | .witness i, .witness j => i ≤ j
  | .witness _, .lc _ => true
  | .witness _, _ => false
  | .lc i, .lc j => i ≤ j
  | .lc _, _ => false

/-- `LinearCombination`.  Library type, imported in poseidon-permutation/src/r1cs.rs:4-5. -/
abbrev LC (F : Type) := List (F × Var)

/-- `ConstraintSystem`: `lcMap` is `lc_map` (filled in the order of the indices), `constraints` are `a_constraints`, `b_constraints`
and `c_constraints`.  Library type, imported in poseidon-permutation/src/r1cs.rs:4-5. -/
structure CS (F : Type) where
  setup : Bool
  numInstance : Nat
  numWitness : Nat
  instanceAssignment : List F
  witnessAssignment : List F
  lcMap : List (LC F)
  constraints : List (Nat × Nat × Nat)

/-- `ConstraintSystem::new`.  The system passed in poseidon377_r1cs.rs:62. -/
def CS.new (F : Type) [Field F] (setup : Bool) : CS F := ⟨setup, 1, 0, [1], [], [], []⟩

/-- `ConstraintSystem::new_lc`.  Library code under poseidon-permutation/src/r1cs.rs:101, 136, 149, 173 and 176. -/
def newLc (l : LC F) (cs : CS F) : Var × CS F := (.lc cs.lcMap.length, { cs with lcMap := cs.lcMap ++ [l] })

/-- `ConstraintSystem::enforce_constraint`: the three combinations are registered like any others.
Library code under poseidon-permutation/src/r1cs.rs:136 and poseidon-permutation/src/r1cs.rs:149. -/
def enforce (a b c : LC F) (cs : CS F) : CS F :=
  let n := cs.lcMap.length
  { cs with lcMap := cs.lcMap ++ [a, b, c], constraints := cs.constraints ++ [(n, n + 1, n + 2)] }

/-- `AllocatedFp`; `var` is its `variable`.  Library type, imported in poseidon-permutation/src/r1cs.rs:4-5. -/
structure AllocatedFp (F : Type) where
  value : Option F
  var : Var

/-- `FpVar`.  Library type, imported in poseidon-permutation/src/r1cs.rs:4-5. -/
inductive FpVar (F : Type) where
  | constant (c : F)
  | var (v : AllocatedFp F)

/-- `AllocatedFp::new_witness`.  Library code under poseidon-permutation/src/r1cs.rs:136; called in poseidon377_r1cs.rs:67. -/
def newWitness (value : Option F) (cs : CS F) : R (AllocatedFp F × CS F) :=
  let v : Var := .witness cs.numWitness
  if cs.setup then .ok (⟨none, v⟩, { cs with numWitness := cs.numWitness + 1 })
  else match value with
    | none => .error .unwrapNone
    | some x => .ok (⟨some x, v⟩,
        { cs with numWitness := cs.numWitness + 1, witnessAssignment := cs.witnessAssignment ++ [x] })

/-- `AllocatedFp::new_input`.  Called in poseidon377_r1cs.rs:75. -/
def newInput (value : Option F) (cs : CS F) : R (AllocatedFp F × CS F) :=
  let v : Var := .input cs.numInstance
  if cs.setup then .ok (⟨none, v⟩, { cs with numInstance := cs.numInstance + 1 })
  else match value with
    | none => .error .unwrapNone
    | some x => .ok (⟨some x, v⟩,
        { cs with numInstance := cs.numInstance + 1, instanceAssignment := cs.instanceAssignment ++ [x] })

/-- `AllocatedFp::mul`.  Library code under poseidon-permutation/src/r1cs.rs:136 and poseidon-permutation/src/r1cs.rs:149. -/
def AllocatedFp.mul (a b : AllocatedFp F) (cs : CS F) : R (AllocatedFp F × CS F) := do
  let (product, cs) ← newWitness (do let x ← a.value; let y ← b.value; return x * y) cs
  return (product, enforce [(1, a.var)] [(1, b.var)] [(1, product.var)] cs)

/-- `AllocatedFp::add_constant`.  Called in poseidon-permutation/src/r1cs.rs:101. -/
def AllocatedFp.addConstant (a : AllocatedFp F) (c : F) (cs : CS F) : AllocatedFp F × CS F :=
  if c = 0 then (a, cs)
  else
    let (v, cs) := newLc [(1, a.var), (c, .one)] cs
    (⟨a.value.map (· + c), v⟩, cs)

/-- `AllocatedFp::mul_constant`.  Library code under poseidon-permutation/src/r1cs.rs:172-173. -/
def AllocatedFp.mulConstant (a : AllocatedFp F) (c : F) (cs : CS F) : AllocatedFp F × CS F :=
  if c = 1 then (a, cs)
  else
    let (v, cs) := newLc [(c, a.var)] cs
    (⟨a.value.map (· * c), v⟩, cs)

/-- `AllocatedFp::addmany`.  Without variables there is no constraint system, and the library panics.
Library code under poseidon-permutation/src/r1cs.rs:176. -/
def AllocatedFp.addmany (l : List (AllocatedFp F)) (cs : CS F) : R (AllocatedFp F × CS F) :=
  if l.isEmpty then .error .assertFailed
  else
    let (v, cs) := newLc (l.map fun x => (1, x.var)) cs
    .ok (⟨l.foldl (fun acc v => do let x ← acc; let y ← v.value; return x + y) (some 0), v⟩, cs)

/-- `FpVar * FpVar`.  Called in poseidon-permutation/src/r1cs.rs:172-173; also under poseidon-permutation/src/r1cs.rs:149. -/
def FpVar.mul (a b : FpVar F) (cs : CS F) : R (FpVar F × CS F) :=
  match a, b with
  | .constant x, .constant y => .ok (.constant (x * y), cs)
  | .constant c, .var v => let (v, cs) := v.mulConstant c cs; .ok (.var v, cs)
  | .var v, .constant c => let (v, cs) := v.mulConstant c cs; .ok (.var v, cs)
  | .var v, .var w => do
    let (p, cs) ← v.mul w cs
    return (.var p, cs)

/-- `FpVar += F`.  Called in poseidon-permutation/src/r1cs.rs:101. -/
def FpVar.addConstant (a : FpVar F) (c : F) (cs : CS F) : FpVar F × CS F :=
  match a with
  | .constant x => (.constant (x + c), cs)
  | .var v => let (v, cs) := v.addConstant c cs; (.var v, cs)

/-- `FpVar::square`.  Library code under poseidon-permutation/src/r1cs.rs:136 and poseidon-permutation/src/r1cs.rs:149. -/
def FpVar.square (a : FpVar F) (cs : CS F) : R (FpVar F × CS F) :=
  match a with
  | .constant x => .ok (.constant (x * x), cs)
  | .var v => do
    let (p, cs) ← v.mul v cs
    return (.var p, cs)

/-- The constants among the summands of `Sum<&FpVar> for FpVar`.  Library code under poseidon-permutation/src/r1cs.rs:176. -/
def FpVar.const? : FpVar F → Option F
  | .constant c => some c
  | .var _ => none

/-- The variables among the summands of `Sum<&FpVar> for FpVar`.  Library code under poseidon-permutation/src/r1cs.rs:176. -/
def FpVar.var? : FpVar F → Option (AllocatedFp F)
  | .constant _ => none
  | .var v => some v

/-- `Sum<&FpVar> for FpVar`.  Library code under poseidon-permutation/src/r1cs.rs:176. -/
def FpVar.sum (l : List (FpVar F)) (cs : CS F) : R (FpVar F × CS F) := do
  let sumConstants := fsum (l.filterMap FpVar.const?)
  let (v, cs) ← AllocatedFp.addmany (l.filterMap FpVar.var?) cs
  return FpVar.addConstant (.var v) sumConstants cs

/-- `FieldVar::pow_by_constant`.  Library code under poseidon-permutation/src/r1cs.rs:136 and poseidon-permutation/src/r1cs.rs:149. -/
def FpVar.powByConstant (a : FpVar F) (e : Nat) (cs : CS F) : R (FpVar F × CS F) :=
  forList (R1cs.bitsBE e) (FpVar.constant 1, cs) fun bit (res, cs) => do
    let (res, cs) ← res.square cs
    if bit then res.mul a cs else return (res, cs)

/-- `AllocatedFp::conditional_enforce_equal` with the condition `TRUE`.  Called in poseidon377_r1cs.rs:83-155. -/
def AllocatedFp.enforceEqual (a b : AllocatedFp F) (cs : CS F) : CS F :=
  enforce [(1, a.var), (-1, b.var)] [(1, .one)] [] cs

/-- `EqGadget::enforce_equal` for `FpVar`; a constant becomes a linear combination.  Called in poseidon377_r1cs.rs:83-155. -/
def FpVar.enforceEqual (a b : FpVar F) (cs : CS F) : CS F :=
  match a, b with
  | .constant _, .constant _ => cs
  | .constant c, .var v => let (x, cs) := newLc [(c, .one)] cs; AllocatedFp.enforceEqual ⟨some c, x⟩ v cs
  | .var v, .constant c => let (x, cs) := newLc [(c, .one)] cs; AllocatedFp.enforceEqual ⟨some c, x⟩ v cs
  | .var v, .var w => v.enforceEqual w cs

variable {t tm1 nmds nhat rows cols nround npart : Nat}

/-- The loops over the words with `+=`, poseidon-permutation/src/r1cs.rs:100-103, 111-114, 122-125 -/
def addRoundConstants (t : Nat) (arc : Mat F rows cols nround) (s : List (FpVar F)) (counter : Nat) (cs : CS F) :
    R (List (FpVar F) × Nat × CS F) :=
  forRange 0 t (s, counter, cs) fun i (s, counter, cs) => do
    let x ← lget s i
    let k ← aget arc.elements counter
    let (x, cs) := x.addConstant k cs
    let s ← R1cs.lset s i x
    return (s, counter + 1, cs)

/-- `partial_sub_words`, poseidon-permutation/src/r1cs.rs:132-141 -/
def partialSubWords (alpha : Alpha) (s : List (FpVar F)) (cs : CS F) : R (List (FpVar F) × CS F) :=
  match alpha with
  | .exponent exp => do
    let x ← lget s 0
    let (y, cs) ← x.powByConstant exp cs
    let s ← R1cs.lset s 0 y
    return (s, cs)
  | .inverse => .error .unimplemented

/-- `full_sub_words`, poseidon-permutation/src/r1cs.rs:144-157 -/
def fullSubWords (t : Nat) (alpha : Alpha) (s : List (FpVar F)) (cs : CS F) : R (List (FpVar F) × CS F) :=
  match alpha with
  | .exponent exp => forRange 0 t (s, cs) fun i (s, cs) => do
    let x ← lget s i
    let (y, cs) ← x.powByConstant exp cs
    let s ← R1cs.lset s i y
    return (s, cs)
  | .inverse => .error .unimplemented

/-- One row of `mix_layer_mds`, poseidon-permutation/src/r1cs.rs:168-178 -/
def mixRow (row : List F) (s : List (FpVar F)) (cs : CS F) : R (FpVar F × CS F) := do
  let (terms, cs) ← forList (row.zip s) ([], cs) fun (x, y) (terms, cs) => do
    let (p, cs) ← (FpVar.constant x).mul y cs
    return (terms ++ [p], cs)
  FpVar.sum terms cs

/-- `mix_layer_mds`, poseidon-permutation/src/r1cs.rs:160-180 -/
def mixLayer (m : Mat F t t nmds) (s : List (FpVar F)) (cs : CS F) : R (List (FpVar F) × CS F) := do
  let rws ← m.iterRows
  forList rws ([], cs) fun row (new, cs) => do
    let (x, cs) ← mixRow row s cs
    return (new ++ [x], cs)

/-- A round of `permute`, poseidon-permutation/src/r1cs.rs:98-106 (`full`) and 109-117 (not `full`) -/
def round (p : Params F t tm1 nmds nhat rows cols nround npart) (full : Bool)
    (st : List (FpVar F) × Nat × CS F) : R (List (FpVar F) × Nat × CS F) := do
  let (s, counter, cs) := st
  let (s, counter, cs) ← addRoundConstants t p.arc s counter cs
  let (s, cs) ← if full then fullSubWords t p.alpha s cs else partialSubWords p.alpha s cs
  let (s, cs) ← mixLayer p.mds s cs
  return (s, counter, cs)

/-- `InstanceVar::permute`, poseidon-permutation/src/r1cs.rs:91-129 -/
def permute (p : Params F t tm1 nmds nhat rows cols nround npart) (s : List (FpVar F)) (cs : CS F) :
    R (List (FpVar F) × CS F) := do
  let rf := p.rounds.full / 2
  let rp := p.rounds.partialRounds
  let st ← forRange 0 rf (s, 0, cs) fun _ st => round p true st
  let st ← forRange 0 rp st fun _ st => round p false st
  let st ← forRange 0 rf st fun _ st => round p true st
  return (st.1, st.2.2)

/-- `InstanceVar::n_to_1_fixed_hash`, poseidon-permutation/src/r1cs.rs:61-88 -/
def nTo1FixedHash (p : Params F t tm1 nmds nhat rows cols nround npart) (inputWords : Vector (FpVar F) t)
    (cs : CS F) : R (FpVar F × CS F) := do
  let (s, cs) ← permute p inputWords.toList cs
  let out ← lget s 1
  return (out, cs)

/-- Circuit `hash_1`, poseidon377/src/r1cs.rs:7-17 -/
def hash1 (ds : FpVar Fq) (v : FpVar Fq) (cs : CS Fq) : R (FpVar Fq × CS Fq) :=
  nTo1FixedHash rate1Params #v[ds, v] cs

/-- Circuit `hash_2`, poseidon377/src/r1cs.rs:19-29 -/
def hash2 (ds : FpVar Fq) (v : FpVar Fq × FpVar Fq) (cs : CS Fq) : R (FpVar Fq × CS Fq) :=
  nTo1FixedHash rate2Params #v[ds, v.1, v.2] cs

/-- Circuit `hash_3`, poseidon377/src/r1cs.rs:31-41 -/
def hash3 (ds : FpVar Fq) (v : FpVar Fq × FpVar Fq × FpVar Fq) (cs : CS Fq) : R (FpVar Fq × CS Fq) :=
  nTo1FixedHash rate3Params #v[ds, v.1, v.2.1, v.2.2] cs

/-- Circuit `hash_4`, poseidon377/src/r1cs.rs:43-53 -/
def hash4 (ds : FpVar Fq) (v : FpVar Fq × FpVar Fq × FpVar Fq × FpVar Fq) (cs : CS Fq) : R (FpVar Fq × CS Fq) :=
  nTo1FixedHash rate4Params #v[ds, v.1, v.2.1, v.2.2.1, v.2.2.2] cs

/-- Circuit `hash_5`, poseidon377/src/r1cs.rs:55-72 -/
def hash5 (ds : FpVar Fq) (v : FpVar Fq × FpVar Fq × FpVar Fq × FpVar Fq × FpVar Fq) (cs : CS Fq) : R (FpVar Fq × CS Fq) :=
  nTo1FixedHash rate5Params #v[ds, v.1, v.2.1, v.2.2.1, v.2.2.2.1, v.2.2.2.2] cs

/-- Circuit `hash_6`, poseidon377/src/r1cs.rs:74-92 -/
def hash6 (ds : FpVar Fq) (v : FpVar Fq × FpVar Fq × FpVar Fq × FpVar Fq × FpVar Fq × FpVar Fq) (cs : CS Fq) : R (FpVar Fq × CS Fq) :=
  nTo1FixedHash rate6Params #v[ds, v.1, v.2.1, v.2.2.1, v.2.2.2.1, v.2.2.2.2.1, v.2.2.2.2.2] cs

/-- Circuit `hash_7`, poseidon377/src/r1cs.rs:94-113 -/
def hash7 (ds : FpVar Fq) (v : FpVar Fq × FpVar Fq × FpVar Fq × FpVar Fq × FpVar Fq × FpVar Fq × FpVar Fq) (cs : CS Fq) : R (FpVar Fq × CS Fq) :=
  nTo1FixedHash rate7Params #v[ds, v.1, v.2.1, v.2.2.1, v.2.2.2.1, v.2.2.2.2.1, v.2.2.2.2.2.1, v.2.2.2.2.2.2] cs

/-- The loop over `self.preimages`, poseidon-tests/tests/poseidon377_r1cs.rs:65-69 -/
def allocPreimages (l : List Fq) (cs : CS Fq) : R (List (FpVar Fq) × CS Fq) :=
  forList l ([], cs) fun value (vars, cs) => do
    let (v, cs) ← newWitness (some value) cs
    return (vars ++ [.var v], cs)

/-- The loop over `self.hash_outputs`, poseidon-tests/tests/poseidon377_r1cs.rs:73-77 -/
def allocOutputs (l : List Fq) (cs : CS Fq) : R (List (FpVar Fq) × CS Fq) :=
  forList l ([], cs) fun value (vars, cs) => do
    let (v, cs) ← newInput (some value) cs
    return (vars ++ [.var v], cs)

/-- `PreimageCircuit::generate_constraints`, poseidon-tests/tests/poseidon377_r1cs.rs:60-155 -/
def generateConstraints (c : R1cs.PreimageCircuit) (cs : CS Fq) : R (CS Fq) := do
  let (pv, cs) ← allocPreimages c.preimages.toList cs
  let ds : FpVar Fq := .constant R1cs.testDomainSep
  let (hv, cs) ← allocOutputs c.hashOutputs.toList cs
  let (o, cs) ← hash1 ds (← lget pv 0) cs
  let cs := (← lget hv 0).enforceEqual o cs
  let (o, cs) ← hash2 ds (← lget pv 0, ← lget pv 1) cs
  let cs := (← lget hv 1).enforceEqual o cs
  let (o, cs) ← hash3 ds (← lget pv 0, ← lget pv 1, ← lget pv 2) cs
  let cs := (← lget hv 2).enforceEqual o cs
  let (o, cs) ← hash4 ds (← lget pv 0, ← lget pv 1, ← lget pv 2, ← lget pv 3) cs
  let cs := (← lget hv 3).enforceEqual o cs
  let (o, cs) ← hash5 ds (← lget pv 0, ← lget pv 1, ← lget pv 2, ← lget pv 3, ← lget pv 4) cs
  let cs := (← lget hv 4).enforceEqual o cs
  let (o, cs) ← hash6 ds (← lget pv 0, ← lget pv 1, ← lget pv 2, ← lget pv 3, ← lget pv 4, ← lget pv 5) cs
  let cs := (← lget hv 5).enforceEqual o cs
  let (o, cs) ← hash7 ds (← lget pv 0, ← lget pv 1, ← lget pv 2, ← lget pv 3, ← lget pv 4, ← lget pv 5, ← lget pv 6) cs
  return (← lget hv 6).enforceEqual o cs

/-! ## `finalize` and `to_matrices` -/

/-- The loop of `LinearCombination::compactify` over the sorted terms: equal variables are adjacent, their coefficients are added;
`acc` are the terms kept so far, the last first.  Library code under poseidon377_r1cs.rs:167, 199. -/
def mergeTerms : LC F → LC F → LC F
  | acc, [] => acc.reverse
  | [], x :: l => mergeTerms [x] l
  | (c, v) :: acc, (d, w) :: l => if w = v then mergeTerms ((c + d, v) :: acc) l else mergeTerms ((d, w) :: (c, v) :: acc) l

/-- `LinearCombination::compactify`.  Library code under poseidon377_r1cs.rs:167, 199. -/
def compactify (l : LC F) : LC F := mergeTerms [] (l.mergeSort fun a b => a.2.le b.2)

/-- `ConstraintSystem::lc_num_times_used(false)`: how often each combination occurs in others.
Library code under poseidon377_r1cs.rs:167, 199. -/
def numTimesUsed (m : List (LC F)) : List Nat :=
  (List.range m.length).map fun i => (m.map fun l => l.countP fun x => x.2 = .lc i).sum

/-- One step of the inner loop of `ConstraintSystem::transform_lc_map`: a term of the combination `out` being built.  A symbolic
one is replaced by its inlined combination (`expect("should be inlined")`), which is deleted when it is used for the last time.
`map` is `transformed_lc_map`, `used` is `num_times_used`.  Library code under poseidon377_r1cs.rs:167, 199. -/
def inlineTerm (x : F × Var) (st : LC F × List (Option (LC F)) × List Nat) : R (LC F × List (Option (LC F)) × List Nat) := do
  let (out, map, used) := st
  match x.2 with
  | .lc i =>
    let some e ← lget map i | .error .unwrapNone
    let n ← usub (← lget used i) 1
    let used ← R1cs.lset used i n
    let map ← if n = 0 then R1cs.lset map i none else pure map
    return (out ++ e.map fun y => (y.1 * x.1, y.2), map, used)
  | v => return (out ++ [(x.1, v)], map, used)

/-- `ConstraintSystem::transform_lc_map` with the transformer of `inline_all_lcs`, which changes nothing.
Library code under poseidon377_r1cs.rs:167, 199. -/
def inlineAll (m : List (LC F)) : R (List (Option (LC F))) := do
  let (map, _) ← forList m ([], numTimesUsed m) fun l (map, used) => do
    let (out, map, used) ← forList l ([], map, used) inlineTerm
    return (map ++ [some (compactify out)], used)
  return map

/-- `Variable::get_index_unchecked`: the column of a variable; symbolic combinations have none (`expect("no symbolic LCs")`).
Library code under poseidon377_r1cs.rs:167, 199. -/
def column (numInstance : Nat) : Var → R Nat
  | .one => .ok 0
  | .input i => .ok i
  | .witness i => .ok (numInstance + i)
  | .lc _ => .error .unwrapNone

/-- `ConstraintSystem::make_row`: terms with coefficient zero are left out.
Library code under poseidon377_r1cs.rs:167, 199. -/
def makeRow (numInstance : Nat) (l : LC F) : R (List (F × Nat)) :=
  forList l [] fun x row => if x.1 = 0 then return row else do
    let j ← column numInstance x.2
    return row ++ [(x.1, j)]

/-- One of the three matrices of `to_matrices`.  Library code under poseidon377_r1cs.rs:167, 199. -/
def matrixRows (numInstance : Nat) (map : List (Option (LC F))) (indices : List Nat) : R (List (List (F × Nat))) :=
  forList indices [] fun i rows => do
    let some l ← lget map i | .error .unwrapNone
    let row ← makeRow numInstance l
    return rows ++ [row]

/-- `ConstraintMatrices`.  Library type, used under poseidon377_r1cs.rs:167, 199. -/
structure Matrices (F : Type) where
  a : List (List (F × Nat))
  b : List (List (F × Nat))
  c : List (List (F × Nat))
  deriving DecidableEq

/-- `finalize` and `to_matrices`.  Library code under poseidon377_r1cs.rs:167, 199. -/
def CS.toMatrices (cs : CS F) : R (Matrices F) := do
  let map ← inlineAll cs.lcMap
  let a ← matrixRows cs.numInstance map (cs.constraints.map (·.1))
  let b ← matrixRows cs.numInstance map (cs.constraints.map (·.2.1))
  let c ← matrixRows cs.numInstance map (cs.constraints.map (·.2.2))
  return ⟨a, b, c⟩

end Poseidon.Sym
