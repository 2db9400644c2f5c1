import Verif.Model.Preimage
import Verif.Props.CircuitHash
import Verif.Proofs.R1csGrow

/-! # The circuit of the test-suite as a sequence of blocks: a hash and an equality -/

set_option linter.unusedSectionVars false

namespace Poseidon.R1cs

variable {F : Type} [Field F] [DecidableEq F]

theorem LC.eval_neg (σ : Variable → F) (a : LC F) : LC.eval σ (a.map fun (k, v) => (-k, v)) = - LC.eval σ a := by
  induction a with
  | nil => simp [LC.eval]
  | cons x l ih =>
    simp only [LC.eval, List.map_cons, List.sum_cons] at ih ⊢
    rw [ih]; ring

theorem aenforceEqual_sat {σ : Variable → F} (a b : AllocatedFp F) (cs : CS F) :
    Satisfies σ (a.enforceEqual b cs) ↔ Satisfies σ cs ∧ LC.eval σ a.lc = LC.eval σ b.lc := by
  unfold AllocatedFp.enforceEqual enforce Satisfies
  simp only [List.forall_mem_append, List.forall_mem_singleton, LC.eval_append, LC.eval_neg]
  constructor
  · rintro ⟨h1, h2, h3⟩
    refine ⟨⟨h1, h2⟩, ?_⟩
    simp only [LC.eval, List.map_cons, List.map_nil, List.sum_cons, List.sum_nil, h1, mul_one, add_zero] at h3
    exact sub_eq_zero.1 (by rw [sub_eq_add_neg]; exact h3)
  · rintro ⟨⟨h1, h2⟩, h3⟩
    refine ⟨h1, h2, ?_⟩
    rw [h3, add_neg_cancel, zero_mul]
    simp [LC.eval]

theorem enforceEqual_sat {σ : Variable → F} {a : FpVar F} (ha : a.isVar = true) (b : FpVar F) (cs : CS F) :
    Satisfies σ (a.enforceEqual b cs) ↔ Satisfies σ cs ∧ a.eval σ = b.eval σ := by
  cases a with
  | constant c => cases ha
  | var v =>
    cases b with
    | constant c =>
      refine (aenforceEqual_sat _ _ _).trans ?_
      constructor
      · rintro ⟨h1, h2⟩
        refine ⟨h1, ?_⟩
        simp only [LC.eval, List.map_cons, List.map_nil, List.sum_cons, List.sum_nil, h1.1, mul_one, add_zero] at h2
        exact h2.symm
      · rintro ⟨h1, h2⟩
        refine ⟨h1, ?_⟩
        simp only [LC.eval, List.map_cons, List.map_nil, List.sum_cons, List.sum_nil, h1.1, mul_one, add_zero]
        exact h2.symm
    | var w => exact aenforceEqual_sat _ _ _

theorem enforceEqual_shape (a b : FpVar F) (cs : CS F) :
    (a.enforceEqual b cs).shape = a.shape.enforceEqual b.shape cs.shape := by
  cases a <;> cases b <;> rfl

theorem enforceEqual_length {a : FpVar F} (ha : a.isVar = true) (b : FpVar F) (cs : CS F) :
    (a.enforceEqual b cs).constraints.length = cs.constraints.length + 1 := by
  cases a with
  | constant c => cases ha
  | var v => cases b <;> simp [FpVar.enforceEqual, AllocatedFp.enforceEqual, enforce]

/-- All of a constraint system but the constraints. -/
def CS.vars (cs : CS F) : Bool × Nat × Nat × List F × List F :=
  (cs.setup, cs.numInstance, cs.numWitness, cs.instanceAssignment, cs.witnessAssignment)

theorem enforceEqual_vars (a b : FpVar F) (cs : CS F) : (a.enforceEqual b cs).vars = cs.vars := by
  cases a <;> cases b <;> rfl

theorem enforceEqual_prefix (a b : FpVar F) (cs : CS F) : cs.constraints <+: (a.enforceEqual b cs).constraints := by
  cases a <;> cases b <;> first | exact List.prefix_rfl | exact List.prefix_append _ _

/-- A hash and the equality of its result with a variable. -/
structure Block where
  i : Fin 7
  inputs : Vector (FpVar Fq) (i.val + 2)
  out : FpVar Fq

def Block.run (b : Block) (cs : CS Fq) : R (CS Fq) := do
  let (o, cs) ← nTo1FixedHash (shippedParams b.i) b.inputs cs
  return b.out.enforceEqual o cs

def runBlocks : List Block → CS Fq → R (CS Fq)
  | [], cs => .ok cs
  | b :: l, cs => do
    let cs ← b.run cs
    runBlocks l cs

def Block.shape (b : Block) : Block := ⟨b.i, b.inputs.map FpVar.shape, b.out.shape⟩

/-- The native hash of `x` with the parameters of the block is `y`. -/
def Block.Hashes (i : Fin 7) (x : Vector Fq (i.val + 2)) (y : Fq) : Prop :=
  ∃ inst', (Instance.new (shippedParams i)).nTo1FixedHash x = .ok (y, inst')

/-- `b` is about variables of `cs` and has something to constrain. -/
structure Block.Ok (b : Block) (cs : CS Fq) : Prop where
  known : ∀ j : Fin (b.i.val + 2), b.inputs[j].Known cs
  outKnown : b.out.Known cs
  outVar : b.out.isVar = true
  var : ∃ j : Fin (b.i.val + 2), b.inputs[j].isVar = true

theorem FpVar.Known.of_le {cs cs' : CS F} (h1 : cs.numInstance ≤ cs'.numInstance) (h2 : cs.numWitness ≤ cs'.numWitness)
    {x : FpVar F} (h : x.Known cs) : x.Known cs' := by
  cases x with
  | constant c => trivial
  | var v =>
    intro y hy
    have := h y hy
    revert this
    cases y.2 with
    | one => exact fun _ => trivial
    | input i => exact fun h => lt_of_lt_of_le h h1
    | witness i => exact fun h => lt_of_lt_of_le h h2

theorem Block.Ok.of_le {b : Block} {cs cs' : CS Fq} (h1 : cs.numInstance ≤ cs'.numInstance)
    (h2 : cs.numWitness ≤ cs'.numWitness) (h : b.Ok cs) : b.Ok cs' :=
  ⟨fun j => (h.known j).of_le h1 h2, h.outKnown.of_le h1 h2, h.outVar, h.var⟩

theorem Satisfies.of_prefix {cs cs' : CS F} (h : cs.constraints <+: cs'.constraints) {σ : Variable → F}
    (hσ : Satisfies σ cs') : Satisfies σ cs := ⟨hσ.1, fun con hc => hσ.2 con (h.subset hc)⟩

/-- Number of constraints of the hash of a block. -/
def Block.size (b : Block) : Nat := 5 * (b.inputs.toList.countP FpVar.isVar + 7 * (b.i.val + 2) + 31)

/-- What a block does, whatever the mode. -/
structure Block.Did (b : Block) (cs cs' : CS Fq) : Prop where
  pre : cs.constraints <+: cs'.constraints
  length : cs'.constraints.length = cs.constraints.length + b.size + 1
  numInstance : cs'.numInstance = cs.numInstance
  numWitness : cs'.numWitness = cs.numWitness + b.size
  instanceAssignment : cs'.instanceAssignment = cs.instanceAssignment
  setup : cs'.setup = cs.setup
  wa : cs.witnessAssignment <+: cs'.witnessAssignment
  sound : ∀ σ, Satisfies σ cs' → Block.Hashes b.i (b.inputs.map (FpVar.eval σ)) (b.out.eval σ)
  unique : ∀ σ τ, Satisfies σ cs' → Satisfies τ cs' → AgreeOn cs σ τ → AgreeOn cs' σ τ

theorem Block.run_did {b : Block} {cs cs' : CS Fq} (hb : b.Ok cs) (h : b.run cs = .ok cs') : b.Did cs cs' := by
  unfold Block.run at h
  cases h1 : nTo1FixedHash (shippedParams b.i) b.inputs cs with
  | error e => rw [h1] at h; cases h
  | ok r =>
    obtain ⟨o, cs1⟩ := r
    rw [h1, ok_bind] at h
    have h : b.out.enforceEqual o cs1 = cs' := Except.ok.inj h
    obtain ⟨hg, -⟩ := nTo1FixedHash_grows _ _ _ hb.known _ h1
    obtain ⟨s1, s2, -⟩ := C12_shipped _ _ _ _ _ h1
    have hv := enforceEqual_vars b.out o cs1
    rw [h] at hv
    have hv1 : cs'.setup = cs1.setup := congrArg (fun x => x.1) hv
    have hv2 : cs'.numInstance = cs1.numInstance := congrArg (fun x => x.2.1) hv
    have hv3 : cs'.numWitness = cs1.numWitness := congrArg (fun x => x.2.2.1) hv
    have hv4 : cs'.instanceAssignment = cs1.instanceAssignment := congrArg (fun x => x.2.2.2.1) hv
    have hv5 : cs'.witnessAssignment = cs1.witnessAssignment := congrArg (fun x => x.2.2.2.2) hv
    refine ⟨?_, ?_, hv2.trans hg.numInstance, ?_, hv4.trans hg.instanceAssignment, hv1.trans hg.setup, ?_, ?_, ?_⟩
    · rw [← h]; exact hg.constraints.trans (enforceEqual_prefix _ _ _)
    · rw [← h, enforceEqual_length hb.outVar, s1]; rfl
    · rw [hv3, s2]; rfl
    · rw [hv5]; exact hg.witnessAssignment
    · intro σ hσ
      rw [← h, enforceEqual_sat hb.outVar] at hσ
      obtain ⟨inst', h2⟩ := C13_circuit_native _ _ _ _ _ h1 σ hσ.1
      exact ⟨inst', by rw [h2, hσ.2]⟩
    · intro σ τ hσ hτ hag
      rw [← h, enforceEqual_sat hb.outVar] at hσ hτ
      have := hg.unique hσ.1 hτ.1 hag
      intro v hv
      refine this v ?_
      cases v with
      | one => trivial
      | input i => exact lt_of_lt_of_eq hv hv2
      | witness i => exact lt_of_lt_of_eq hv hv3

theorem Block.run_shape {b : Block} {cs cs' : CS Fq} (h : b.run cs = .ok cs') : b.shape.run cs.shape = .ok cs'.shape := by
  unfold Block.run at h ⊢
  cases h1 : nTo1FixedHash (shippedParams b.i) b.inputs cs with
  | error e => rw [h1] at h; cases h
  | ok r =>
    obtain ⟨o, cs1⟩ := r
    rw [h1, ok_bind] at h
    have h : b.out.enforceEqual o cs1 = cs' := Except.ok.inj h
    have h2 := C11_setup_same _ _ _ _ _ h1
    have h3 : nTo1FixedHash (shippedParams b.shape.i) b.shape.inputs cs.shape = .ok (o.shape, cs1.shape) := h2
    rw [h3, ok_bind, ← h, enforceEqual_shape]
    rfl

theorem Block.run_setup {b : Block} {cs : CS Fq} (hb : b.Ok cs) (hs : cs.setup = true) : ∃ cs', b.run cs = .ok cs' := by
  obtain ⟨o, cs1, h1⟩ := C11_shipped_setup b.i b.inputs cs hs hb.var
  exact ⟨b.out.enforceEqual o cs1, by unfold Block.run; rw [h1]; rfl⟩

/-- The honest prover's run of a block. -/
theorem Block.run_prove {b : Block} {cs : CS Fq} (hb : b.Ok cs) (hp : Proving cs) (x : Vector Fq (b.i.val + 2)) (y : Fq)
    (hx : ∀ j : Fin (b.i.val + 2), Carries cs b.inputs[j] x[j]) (hy : Carries cs b.out y) :
    ∃ cs', b.run cs = .ok cs' ∧ Proving cs' ∧ ∀ σ, Stored cs' σ → Stored cs σ ∧
      (Satisfies σ cs' ↔ Satisfies σ cs ∧ Block.Hashes b.i x y) := by
  obtain ⟨o, cs1, d, inst', h1, h2, h3, h4, h5⟩ := C10_shipped b.i b.inputs x cs hp hb.var hx
  have hv := enforceEqual_vars b.out o cs1
  have hv1 : (b.out.enforceEqual o cs1).setup = cs1.setup := congrArg (fun x => x.1) hv
  have hv3 : (b.out.enforceEqual o cs1).numWitness = cs1.numWitness := congrArg (fun x => x.2.2.1) hv
  have hv4 : (b.out.enforceEqual o cs1).instanceAssignment = cs1.instanceAssignment := congrArg (fun x => x.2.2.2.1) hv
  have hv5 : (b.out.enforceEqual o cs1).witnessAssignment = cs1.witnessAssignment := congrArg (fun x => x.2.2.2.2) hv
  refine ⟨b.out.enforceEqual o cs1, by unfold Block.run; rw [h1]; rfl, ⟨hv1.trans h3.1, by rw [hv5, hv3]; exact h3.2⟩, ?_⟩
  intro σ hσ
  have hσ1 : Stored cs1 σ := ⟨hσ.1, by rw [← hv4]; exact hσ.2.1, by rw [← hv5]; exact hσ.2.2⟩
  obtain ⟨h6, h7⟩ := h5 σ hσ1
  refine ⟨h6, ?_⟩
  rw [enforceEqual_sat hb.outVar, hy.eval h6, h4.eval hσ1]
  have hhash : y = d ↔ Block.Hashes b.i x y := by
    constructor
    · rintro rfl; exact ⟨inst', h2⟩
    · rintro ⟨inst'', h8⟩
      rw [h2] at h8
      exact (congrArg Prod.fst (Except.ok.inj h8)).symm
  rw [hhash]
  obtain ⟨hg, -⟩ := nTo1FixedHash_grows _ _ _ hb.known _ h1
  exact ⟨fun h => ⟨h.1.of_prefix hg.constraints, h.2⟩, fun h => ⟨h7 h.1, h.2⟩⟩

/-- What a list of blocks does. -/
structure Did (l : List Block) (cs cs' : CS Fq) : Prop where
  pre : cs.constraints <+: cs'.constraints
  length : cs'.constraints.length = cs.constraints.length + (l.map fun b => b.size + 1).sum
  numInstance : cs'.numInstance = cs.numInstance
  numWitness : cs'.numWitness = cs.numWitness + (l.map Block.size).sum
  instanceAssignment : cs'.instanceAssignment = cs.instanceAssignment
  setup : cs'.setup = cs.setup
  wa : cs.witnessAssignment <+: cs'.witnessAssignment
  sound : ∀ σ, Satisfies σ cs' → ∀ b ∈ l, Block.Hashes b.i (b.inputs.map (FpVar.eval σ)) (b.out.eval σ)
  unique : ∀ σ τ, Satisfies σ cs' → Satisfies τ cs' → AgreeOn cs σ τ → AgreeOn cs' σ τ

theorem run_did {l : List Block} : ∀ {cs cs' : CS Fq}, (∀ b ∈ l, b.Ok cs) → runBlocks l cs = .ok cs' → Did l cs cs' := by
  induction l with
  | nil =>
    intro cs cs' _ h
    have h : cs = cs' := Except.ok.inj h
    subst h
    exact ⟨List.prefix_rfl, by simp, rfl, by simp, rfl, rfl, List.prefix_rfl, fun _ _ _ hb => absurd hb List.not_mem_nil,
      fun _ _ _ _ h => h⟩
  | cons b l ih =>
    intro cs cs' hb h
    unfold runBlocks at h
    cases h1 : b.run cs with
    | error e => rw [h1] at h; cases h
    | ok cs1 =>
      rw [h1, ok_bind] at h
      have d1 := Block.run_did (hb b List.mem_cons_self) h1
      have d2 := ih (fun c hc => (hb c (List.mem_cons_of_mem _ hc)).of_le d1.numInstance.ge
        (by rw [d1.numWitness]; exact Nat.le_add_right _ _)) h
      refine ⟨d1.pre.trans d2.pre, ?_, d2.numInstance.trans d1.numInstance, ?_, d2.instanceAssignment.trans
        d1.instanceAssignment, d2.setup.trans d1.setup, d1.wa.trans d2.wa, ?_, ?_⟩
      · rw [d2.length, d1.length, List.map_cons, List.sum_cons]; omega
      · rw [d2.numWitness, d1.numWitness, List.map_cons, List.sum_cons]; omega
      · intro σ hσ c hc
        rcases List.mem_cons.1 hc with rfl | hc
        · exact d1.sound σ (hσ.of_prefix d2.pre)
        · exact d2.sound σ hσ c hc
      · intro σ τ hσ hτ hag
        exact d2.unique σ τ hσ hτ (d1.unique σ τ (hσ.of_prefix d2.pre) (hτ.of_prefix d2.pre) hag)

theorem run_shape {l : List Block} : ∀ {cs cs' : CS Fq}, runBlocks l cs = .ok cs' →
    runBlocks (l.map Block.shape) cs.shape = .ok cs'.shape := by
  induction l with
  | nil => intro cs cs' h; have h : cs = cs' := Except.ok.inj h; subst h; rfl
  | cons b l ih =>
    intro cs cs' h
    unfold runBlocks at h
    cases h1 : b.run cs with
    | error e => rw [h1] at h; cases h
    | ok cs1 =>
      rw [h1, ok_bind] at h
      rw [List.map_cons, runBlocks, Block.run_shape h1, ok_bind]
      exact ih h

theorem run_setup {l : List Block} : ∀ {cs : CS Fq}, (∀ b ∈ l, b.Ok cs) → cs.setup = true → ∃ cs', runBlocks l cs = .ok cs' := by
  induction l with
  | nil => exact fun {cs} _ _ => ⟨cs, rfl⟩
  | cons b l ih =>
    intro cs hb hs
    obtain ⟨cs1, h1⟩ := Block.run_setup (hb b List.mem_cons_self) hs
    have d1 := Block.run_did (hb b List.mem_cons_self) h1
    obtain ⟨cs', h2⟩ := ih (fun c hc => (hb c (List.mem_cons_of_mem _ hc)).of_le d1.numInstance.ge
        (by rw [d1.numWitness]; exact Nat.le_add_right _ _)) (d1.setup.trans hs)
    exact ⟨cs', by rw [runBlocks, h1, ok_bind, h2]⟩

theorem Carries.stored {cs cs' : CS F} (h : ∀ σ, Stored cs' σ → Stored cs σ) {x : FpVar F} {a : F} (hx : Carries cs x a) :
    Carries cs' x a := by
  cases x with
  | constant c => exact hx
  | var v => exact ⟨hx.1, fun σ hσ => hx.2 σ (h σ hσ)⟩

/-- The honest prover's run of a list of blocks, the values given by functions. -/
theorem run_prove (vx : (b : Block) → Vector Fq (b.i.val + 2)) (vy : Block → Fq) {l : List Block} :
    ∀ {cs : CS Fq}, (∀ b ∈ l, b.Ok cs) → Proving cs →
    (∀ b ∈ l, ∀ j : Fin (b.i.val + 2), Carries cs b.inputs[j] (vx b)[j]) → (∀ b ∈ l, Carries cs b.out (vy b)) →
    ∃ cs', runBlocks l cs = .ok cs' ∧ Proving cs' ∧ ∀ σ, Stored cs' σ → Stored cs σ ∧
      (Satisfies σ cs' ↔ Satisfies σ cs ∧ ∀ b ∈ l, Block.Hashes b.i (vx b) (vy b)) := by
  induction l with
  | nil => exact fun {cs} _ hp _ _ => ⟨cs, rfl, hp, fun σ hσ => ⟨hσ, by simp⟩⟩
  | cons b l ih =>
    intro cs hb hp hx hy
    obtain ⟨cs1, h1, h2, h3⟩ := Block.run_prove (hb b List.mem_cons_self) hp _ _ (hx b List.mem_cons_self)
      (hy b List.mem_cons_self)
    have d1 := Block.run_did (hb b List.mem_cons_self) h1
    obtain ⟨cs', h4, h5, h6⟩ := ih (fun c hc => (hb c (List.mem_cons_of_mem _ hc)).of_le d1.numInstance.ge
        (by rw [d1.numWitness]; exact Nat.le_add_right _ _)) h2
        (fun c hc j => (hx c (List.mem_cons_of_mem _ hc) j).stored fun σ hσ => (h3 σ hσ).1)
        (fun c hc => (hy c (List.mem_cons_of_mem _ hc)).stored fun σ hσ => (h3 σ hσ).1)
    refine ⟨cs', by rw [runBlocks, h1, ok_bind, h4], h5, fun σ hσ => ?_⟩
    obtain ⟨h7, h8⟩ := h6 σ hσ
    obtain ⟨h9, h10⟩ := h3 σ h7
    refine ⟨h9, ?_⟩
    rw [h8, h10, List.forall_mem_cons, and_assoc]

/-! ### The circuit of the test -/

/-- The blocks of `generateConstraints`. -/
def theBlocks (ds : FpVar Fq) (pv hv : Fin 7 → FpVar Fq) : List Block :=
  [⟨0, #v[ds, pv 0], hv 0⟩,
    ⟨1, #v[ds, pv 0, pv 1], hv 1⟩,
    ⟨2, #v[ds, pv 0, pv 1, pv 2], hv 2⟩,
    ⟨3, #v[ds, pv 0, pv 1, pv 2, pv 3], hv 3⟩,
    ⟨4, #v[ds, pv 0, pv 1, pv 2, pv 3, pv 4], hv 4⟩,
    ⟨5, #v[ds, pv 0, pv 1, pv 2, pv 3, pv 4, pv 5], hv 5⟩,
    ⟨6, #v[ds, pv 0, pv 1, pv 2, pv 3, pv 4, pv 5, pv 6], hv 6⟩]

/-- The variable allocated for preimage `i`. -/
def preVar (setup : Bool) (x : Fin 7 → Fq) (i : Fin 7) : FpVar Fq :=
  .var ⟨if setup then none else some (x i), [(1, .witness i)]⟩

/-- The variable allocated for output `i`. -/
def outVar (setup : Bool) (y : Fin 7 → Fq) (i : Fin 7) : FpVar Fq :=
  .var ⟨if setup then none else some (y i), [(1, .input (1 + i))]⟩

/-- The constraint system after the allocations. -/
def startCS (setup : Bool) (x y : Fin 7 → Fq) : CS Fq :=
  ⟨setup, 8, 7, if setup then [1] else 1 :: List.ofFn y, if setup then [] else List.ofFn x, []⟩

theorem toList7 {α : Type} (v : Vector α 7) : v.toList = [v[0], v[1], v[2], v[3], v[4], v[5], v[6]] := by
  obtain ⟨⟨l⟩, h⟩ := v
  have h : l.length = 7 := h
  match l, h with
  | [a, b, c, d, e, f, g], _ => rfl

theorem allocPreimages_eq (setup : Bool) (v : Vector Fq 7) :
    allocPreimages v.toList (CS.new Fq setup) = .ok (List.ofFn (preVar setup fun i => v[i]),
      ⟨setup, 1, 7, [1], if setup then [] else List.ofFn (fun i : Fin 7 => v[i]), []⟩) := by
  rw [toList7]
  cases setup <;> rfl

theorem allocOutputs_eq (setup : Bool) (v w : Vector Fq 7) :
    allocOutputs w.toList ⟨setup, 1, 7, [1], if setup then [] else List.ofFn (fun i : Fin 7 => v[i]), []⟩ =
      .ok (List.ofFn (outVar setup fun i => w[i]), startCS setup (fun i => v[i]) (fun i => w[i])) := by
  rw [toList7]
  cases setup <;> rfl

theorem runBlocks_0 (ds v0 h : FpVar Fq) (l : List Block) (cs : CS Fq) :
    runBlocks (⟨0, #v[ds, v0], h⟩ :: l) cs = (do
      let r ← hash1 ds v0 cs
      runBlocks l (h.enforceEqual r.1 r.2)) := by
  have e : hash1 ds v0 cs = nTo1FixedHash (shippedParams 0) #v[ds, v0] cs := rfl
  rw [e, runBlocks, Block.run, bind_assoc]
  rfl

theorem runBlocks_1 (ds v0 v1 h : FpVar Fq) (l : List Block) (cs : CS Fq) :
    runBlocks (⟨1, #v[ds, v0, v1], h⟩ :: l) cs = (do
      let r ← hash2 ds (v0, v1) cs
      runBlocks l (h.enforceEqual r.1 r.2)) := by
  have e : hash2 ds (v0, v1) cs = nTo1FixedHash (shippedParams 1) #v[ds, v0, v1] cs := rfl
  rw [e, runBlocks, Block.run, bind_assoc]
  rfl

theorem runBlocks_2 (ds v0 v1 v2 h : FpVar Fq) (l : List Block) (cs : CS Fq) :
    runBlocks (⟨2, #v[ds, v0, v1, v2], h⟩ :: l) cs = (do
      let r ← hash3 ds (v0, v1, v2) cs
      runBlocks l (h.enforceEqual r.1 r.2)) := by
  have e : hash3 ds (v0, v1, v2) cs = nTo1FixedHash (shippedParams 2) #v[ds, v0, v1, v2] cs := rfl
  rw [e, runBlocks, Block.run, bind_assoc]
  rfl

theorem runBlocks_3 (ds v0 v1 v2 v3 h : FpVar Fq) (l : List Block) (cs : CS Fq) :
    runBlocks (⟨3, #v[ds, v0, v1, v2, v3], h⟩ :: l) cs = (do
      let r ← hash4 ds (v0, v1, v2, v3) cs
      runBlocks l (h.enforceEqual r.1 r.2)) := by
  have e : hash4 ds (v0, v1, v2, v3) cs = nTo1FixedHash (shippedParams 3) #v[ds, v0, v1, v2, v3] cs := rfl
  rw [e, runBlocks, Block.run, bind_assoc]
  rfl

theorem runBlocks_4 (ds v0 v1 v2 v3 v4 h : FpVar Fq) (l : List Block) (cs : CS Fq) :
    runBlocks (⟨4, #v[ds, v0, v1, v2, v3, v4], h⟩ :: l) cs = (do
      let r ← hash5 ds (v0, v1, v2, v3, v4) cs
      runBlocks l (h.enforceEqual r.1 r.2)) := by
  have e : hash5 ds (v0, v1, v2, v3, v4) cs = nTo1FixedHash (shippedParams 4) #v[ds, v0, v1, v2, v3, v4] cs := rfl
  rw [e, runBlocks, Block.run, bind_assoc]
  rfl

theorem runBlocks_5 (ds v0 v1 v2 v3 v4 v5 h : FpVar Fq) (l : List Block) (cs : CS Fq) :
    runBlocks (⟨5, #v[ds, v0, v1, v2, v3, v4, v5], h⟩ :: l) cs = (do
      let r ← hash6 ds (v0, v1, v2, v3, v4, v5) cs
      runBlocks l (h.enforceEqual r.1 r.2)) := by
  have e : hash6 ds (v0, v1, v2, v3, v4, v5) cs = nTo1FixedHash (shippedParams 5) #v[ds, v0, v1, v2, v3, v4, v5] cs := rfl
  rw [e, runBlocks, Block.run, bind_assoc]
  rfl

theorem runBlocks_6 (ds v0 v1 v2 v3 v4 v5 v6 h : FpVar Fq) (l : List Block) (cs : CS Fq) :
    runBlocks (⟨6, #v[ds, v0, v1, v2, v3, v4, v5, v6], h⟩ :: l) cs = (do
      let r ← hash7 ds (v0, v1, v2, v3, v4, v5, v6) cs
      runBlocks l (h.enforceEqual r.1 r.2)) := by
  have e : hash7 ds (v0, v1, v2, v3, v4, v5, v6) cs = nTo1FixedHash (shippedParams 6) #v[ds, v0, v1, v2, v3, v4, v5, v6] cs := rfl
  rw [e, runBlocks, Block.run, bind_assoc]
  rfl

theorem runBlocks_nil (cs : CS Fq) : runBlocks [] cs = .ok cs := rfl

theorem generateConstraints_eq (c : PreimageCircuit) (setup : Bool) :
    generateConstraints c (CS.new Fq setup) =
      runBlocks (theBlocks (.constant testDomainSep) (preVar setup fun i => c.preimages[i])
        (outVar setup fun i => c.hashOutputs[i])) (startCS setup (fun i => c.preimages[i]) (fun i => c.hashOutputs[i])) := by
  unfold generateConstraints
  rw [allocPreimages_eq, ok_bind]
  dsimp only
  rw [allocOutputs_eq, ok_bind]
  dsimp only
  generalize preVar setup (fun i => c.preimages[i]) = pv
  generalize outVar setup (fun i => c.hashOutputs[i]) = hv
  generalize startCS setup _ _ = cs
  generalize FpVar.constant testDomainSep = ds
  have hl : ∀ (f : Fin 7 → FpVar Fq) (i : Fin 7), lget (List.ofFn f) i.val = .ok (f i) := by
    intro f i; fin_cases i <;> rfl
  have e0 : ∀ f : Fin 7 → FpVar Fq, lget (List.ofFn f) 0 = .ok (f 0) := fun f => hl f 0
  have e1 : ∀ f : Fin 7 → FpVar Fq, lget (List.ofFn f) 1 = .ok (f 1) := fun f => hl f 1
  have e2 : ∀ f : Fin 7 → FpVar Fq, lget (List.ofFn f) 2 = .ok (f 2) := fun f => hl f 2
  have e3 : ∀ f : Fin 7 → FpVar Fq, lget (List.ofFn f) 3 = .ok (f 3) := fun f => hl f 3
  have e4 : ∀ f : Fin 7 → FpVar Fq, lget (List.ofFn f) 4 = .ok (f 4) := fun f => hl f 4
  have e5 : ∀ f : Fin 7 → FpVar Fq, lget (List.ofFn f) 5 = .ok (f 5) := fun f => hl f 5
  have e6 : ∀ f : Fin 7 → FpVar Fq, lget (List.ofFn f) 6 = .ok (f 6) := fun f => hl f 6
  simp only [e0, e1, e2, e3, e4, e5, e6, ok_bind, theBlocks, runBlocks_0, runBlocks_1, runBlocks_2, runBlocks_3,
    runBlocks_4, runBlocks_5, runBlocks_6, runBlocks_nil]
  rfl

theorem fst_ok {α β : Type} (x : R (α × β)) (y : α) : (∃ b, x = .ok (y, b)) ↔ (x >>= fun r => .ok r.1) = .ok y := by
  cases x with
  | error e => constructor
               · rintro ⟨b, h⟩; cases h
               · intro h; cases h
  | ok r =>
    obtain ⟨a, b⟩ := r
    constructor
    · rintro ⟨b', h⟩; cases h; rfl
    · intro h
      have h : a = y := Except.ok.inj h
      exact ⟨b, by rw [h]⟩

theorem hashes_0 (ds v0 y : Fq) :
    Block.Hashes 0 #v[ds, v0] y ↔ Poseidon.hash1 ds v0 = .ok y := by
  unfold Block.Hashes
  have e : Poseidon.hash1 ds v0 = ((Instance.new (shippedParams 0)).nTo1FixedHash #v[ds, v0] >>=
      fun r => .ok r.1) := rfl
  rw [e]
  exact fst_ok _ _

theorem hashes_1 (ds v0 v1 y : Fq) :
    Block.Hashes 1 #v[ds, v0, v1] y ↔ Poseidon.hash2 ds (v0, v1) = .ok y := by
  unfold Block.Hashes
  have e : Poseidon.hash2 ds (v0, v1) = ((Instance.new (shippedParams 1)).nTo1FixedHash #v[ds, v0, v1] >>=
      fun r => .ok r.1) := rfl
  rw [e]
  exact fst_ok _ _

theorem hashes_2 (ds v0 v1 v2 y : Fq) :
    Block.Hashes 2 #v[ds, v0, v1, v2] y ↔ Poseidon.hash3 ds (v0, v1, v2) = .ok y := by
  unfold Block.Hashes
  have e : Poseidon.hash3 ds (v0, v1, v2) = ((Instance.new (shippedParams 2)).nTo1FixedHash #v[ds, v0, v1, v2] >>=
      fun r => .ok r.1) := rfl
  rw [e]
  exact fst_ok _ _

theorem hashes_3 (ds v0 v1 v2 v3 y : Fq) :
    Block.Hashes 3 #v[ds, v0, v1, v2, v3] y ↔ Poseidon.hash4 ds (v0, v1, v2, v3) = .ok y := by
  unfold Block.Hashes
  have e : Poseidon.hash4 ds (v0, v1, v2, v3) = ((Instance.new (shippedParams 3)).nTo1FixedHash #v[ds, v0, v1, v2, v3] >>=
      fun r => .ok r.1) := rfl
  rw [e]
  exact fst_ok _ _

theorem hashes_4 (ds v0 v1 v2 v3 v4 y : Fq) :
    Block.Hashes 4 #v[ds, v0, v1, v2, v3, v4] y ↔ Poseidon.hash5 ds (v0, v1, v2, v3, v4) = .ok y := by
  unfold Block.Hashes
  have e : Poseidon.hash5 ds (v0, v1, v2, v3, v4) = ((Instance.new (shippedParams 4)).nTo1FixedHash #v[ds, v0, v1, v2, v3, v4] >>=
      fun r => .ok r.1) := rfl
  rw [e]
  exact fst_ok _ _

theorem hashes_5 (ds v0 v1 v2 v3 v4 v5 y : Fq) :
    Block.Hashes 5 #v[ds, v0, v1, v2, v3, v4, v5] y ↔ Poseidon.hash6 ds (v0, v1, v2, v3, v4, v5) = .ok y := by
  unfold Block.Hashes
  have e : Poseidon.hash6 ds (v0, v1, v2, v3, v4, v5) = ((Instance.new (shippedParams 5)).nTo1FixedHash #v[ds, v0, v1, v2, v3, v4, v5] >>=
      fun r => .ok r.1) := rfl
  rw [e]
  exact fst_ok _ _

theorem hashes_6 (ds v0 v1 v2 v3 v4 v5 v6 y : Fq) :
    Block.Hashes 6 #v[ds, v0, v1, v2, v3, v4, v5, v6] y ↔ Poseidon.hash7 ds (v0, v1, v2, v3, v4, v5, v6) = .ok y := by
  unfold Block.Hashes
  have e : Poseidon.hash7 ds (v0, v1, v2, v3, v4, v5, v6) = ((Instance.new (shippedParams 6)).nTo1FixedHash #v[ds, v0, v1, v2, v3, v4, v5, v6] >>=
      fun r => .ok r.1) := rfl
  rw [e]
  exact fst_ok _ _


theorem preVar_eval (setup : Bool) (x : Fin 7 → Fq) (i : Fin 7) (σ : Variable → Fq) :
    (preVar setup x i).eval σ = σ (.witness i) := by
  simp [preVar, FpVar.eval, LC.eval]

theorem outVar_eval (setup : Bool) (y : Fin 7 → Fq) (i : Fin 7) (σ : Variable → Fq) :
    (outVar setup y i).eval σ = σ (.input (1 + i)) := by
  simp [outVar, FpVar.eval, LC.eval]

theorem preVar_known (setup : Bool) (x y : Fin 7 → Fq) (i : Fin 7) : (preVar setup x i).Known (startCS setup x y) := by
  intro z hz
  rw [List.mem_singleton.1 hz]
  exact i.isLt

theorem outVar_known (setup : Bool) (x y : Fin 7 → Fq) (i : Fin 7) : (outVar setup y i).Known (startCS setup x y) := by
  intro z hz
  rw [List.mem_singleton.1 hz]
  show 1 + i.val < 8
  omega

theorem theBlocks_ok (setup : Bool) (x y : Fin 7 → Fq) :
    ∀ b ∈ theBlocks (.constant testDomainSep) (preVar setup x) (outVar setup y), b.Ok (startCS setup x y) := by
  have hds : (FpVar.constant testDomainSep).Known (startCS setup x y) := trivial
  have hp := preVar_known setup x y
  have ho := outVar_known setup x y
  unfold theBlocks
  simp only [List.forall_mem_cons, List.not_mem_nil, false_imp_iff, implies_true, and_true]
  refine ⟨?_, ?_, ?_, ?_, ?_, ?_, ?_⟩ <;> refine ⟨?_, ho _, rfl, ⟨1, rfl⟩⟩ <;> intro j <;> fin_cases j <;>
    first | exact hds | exact hp _

theorem preVar_carries (x y : Fin 7 → Fq) (i : Fin 7) : Carries (startCS false x y) (preVar false x i) (x i) := by
  refine ⟨rfl, fun σ hσ => ?_⟩
  rw [LC.eval_single, one_mul]
  apply hσ.2.2
  show (List.ofFn x)[i.val]? = some (x i)
  fin_cases i <;> rfl

theorem outVar_carries (x y : Fin 7 → Fq) (i : Fin 7) : Carries (startCS false x y) (outVar false y i) (y i) := by
  refine ⟨rfl, fun σ hσ => ?_⟩
  rw [LC.eval_single, one_mul]
  apply hσ.2.1
  show (1 :: List.ofFn y)[1 + i.val]? = some (y i)
  rw [Nat.add_comm, List.getElem?_cons_succ]
  fin_cases i <;> rfl

/-- The relation of the blocks, in terms of the native hashes. -/
theorem theBlocks_hashes (ds : Fq) (setup : Bool) (x y : Fin 7 → Fq) (σ : Variable → Fq) :
    (∀ b ∈ theBlocks (.constant ds) (preVar setup x) (outVar setup y),
      Block.Hashes b.i (b.inputs.map (FpVar.eval σ)) (b.out.eval σ)) ↔
    Poseidon.hash1 ds (σ (.witness 0)) = .ok (σ (.input 1)) ∧
    Poseidon.hash2 ds ((σ (.witness 0)), (σ (.witness 1))) = .ok (σ (.input 2)) ∧
    Poseidon.hash3 ds ((σ (.witness 0)), (σ (.witness 1)), (σ (.witness 2))) = .ok (σ (.input 3)) ∧
    Poseidon.hash4 ds ((σ (.witness 0)), (σ (.witness 1)), (σ (.witness 2)), (σ (.witness 3))) = .ok (σ (.input 4)) ∧
    Poseidon.hash5 ds ((σ (.witness 0)), (σ (.witness 1)), (σ (.witness 2)), (σ (.witness 3)), (σ (.witness 4))) = .ok (σ (.input 5)) ∧
    Poseidon.hash6 ds ((σ (.witness 0)), (σ (.witness 1)), (σ (.witness 2)), (σ (.witness 3)), (σ (.witness 4)), (σ (.witness 5))) = .ok (σ (.input 6)) ∧
    Poseidon.hash7 ds ((σ (.witness 0)), (σ (.witness 1)), (σ (.witness 2)), (σ (.witness 3)), (σ (.witness 4)), (σ (.witness 5)), (σ (.witness 6))) = .ok (σ (.input 7)) := by
  unfold theBlocks
  simp only [List.forall_mem_cons, List.not_mem_nil, false_imp_iff, implies_true, and_true, outVar_eval]
  simp only [← hashes_0, ← hashes_1, ← hashes_2, ← hashes_3, ← hashes_4, ← hashes_5, ← hashes_6]
  have hmap : ∀ {n : Nat} (v : Vector (FpVar Fq) n) (w : Vector Fq n), v.toList.map (FpVar.eval σ) = w.toList →
      v.map (FpVar.eval σ) = w := by
    intro n v w h
    apply Vector.toList_inj.1
    rw [Vector.toList_map, h]
  have hp := fun i => preVar_eval setup x i σ
  have hds : (FpVar.constant ds).eval σ = ds := rfl
  have m0 : Vector.map (FpVar.eval σ) #v[(FpVar.constant ds), preVar setup x 0] = #v[ds, σ (.witness 0)] :=
    hmap _ _ (by
      show [((FpVar.constant ds)).eval σ, (preVar setup x 0).eval σ] = [ds, σ (.witness 0)]
      simp only [hp, hds]; rfl)
  have m1 : Vector.map (FpVar.eval σ) #v[(FpVar.constant ds), preVar setup x 0, preVar setup x 1] = #v[ds, σ (.witness 0), σ (.witness 1)] :=
    hmap _ _ (by
      show [((FpVar.constant ds)).eval σ, (preVar setup x 0).eval σ, (preVar setup x 1).eval σ] = [ds, σ (.witness 0), σ (.witness 1)]
      simp only [hp, hds]; rfl)
  have m2 : Vector.map (FpVar.eval σ) #v[(FpVar.constant ds), preVar setup x 0, preVar setup x 1, preVar setup x 2] = #v[ds, σ (.witness 0), σ (.witness 1), σ (.witness 2)] :=
    hmap _ _ (by
      show [((FpVar.constant ds)).eval σ, (preVar setup x 0).eval σ, (preVar setup x 1).eval σ, (preVar setup x 2).eval σ] = [ds, σ (.witness 0), σ (.witness 1), σ (.witness 2)]
      simp only [hp, hds]; rfl)
  have m3 : Vector.map (FpVar.eval σ) #v[(FpVar.constant ds), preVar setup x 0, preVar setup x 1, preVar setup x 2, preVar setup x 3] = #v[ds, σ (.witness 0), σ (.witness 1), σ (.witness 2), σ (.witness 3)] :=
    hmap _ _ (by
      show [((FpVar.constant ds)).eval σ, (preVar setup x 0).eval σ, (preVar setup x 1).eval σ, (preVar setup x 2).eval σ, (preVar setup x 3).eval σ] = [ds, σ (.witness 0), σ (.witness 1), σ (.witness 2), σ (.witness 3)]
      simp only [hp, hds]; rfl)
  have m4 : Vector.map (FpVar.eval σ) #v[(FpVar.constant ds), preVar setup x 0, preVar setup x 1, preVar setup x 2, preVar setup x 3, preVar setup x 4] = #v[ds, σ (.witness 0), σ (.witness 1), σ (.witness 2), σ (.witness 3), σ (.witness 4)] :=
    hmap _ _ (by
      show [((FpVar.constant ds)).eval σ, (preVar setup x 0).eval σ, (preVar setup x 1).eval σ, (preVar setup x 2).eval σ, (preVar setup x 3).eval σ, (preVar setup x 4).eval σ] = [ds, σ (.witness 0), σ (.witness 1), σ (.witness 2), σ (.witness 3), σ (.witness 4)]
      simp only [hp, hds]; rfl)
  have m5 : Vector.map (FpVar.eval σ) #v[(FpVar.constant ds), preVar setup x 0, preVar setup x 1, preVar setup x 2, preVar setup x 3, preVar setup x 4, preVar setup x 5] = #v[ds, σ (.witness 0), σ (.witness 1), σ (.witness 2), σ (.witness 3), σ (.witness 4), σ (.witness 5)] :=
    hmap _ _ (by
      show [((FpVar.constant ds)).eval σ, (preVar setup x 0).eval σ, (preVar setup x 1).eval σ, (preVar setup x 2).eval σ, (preVar setup x 3).eval σ, (preVar setup x 4).eval σ, (preVar setup x 5).eval σ] = [ds, σ (.witness 0), σ (.witness 1), σ (.witness 2), σ (.witness 3), σ (.witness 4), σ (.witness 5)]
      simp only [hp, hds]; rfl)
  have m6 : Vector.map (FpVar.eval σ) #v[(FpVar.constant ds), preVar setup x 0, preVar setup x 1, preVar setup x 2, preVar setup x 3, preVar setup x 4, preVar setup x 5, preVar setup x 6] = #v[ds, σ (.witness 0), σ (.witness 1), σ (.witness 2), σ (.witness 3), σ (.witness 4), σ (.witness 5), σ (.witness 6)] :=
    hmap _ _ (by
      show [((FpVar.constant ds)).eval σ, (preVar setup x 0).eval σ, (preVar setup x 1).eval σ, (preVar setup x 2).eval σ, (preVar setup x 3).eval σ, (preVar setup x 4).eval σ, (preVar setup x 5).eval σ, (preVar setup x 6).eval σ] = [ds, σ (.witness 0), σ (.witness 1), σ (.witness 2), σ (.witness 3), σ (.witness 4), σ (.witness 5), σ (.witness 6)]
      simp only [hp, hds]; rfl)
  rw [m0, m1, m2, m3, m4, m5, m6]
  rfl

end Poseidon.R1cs
