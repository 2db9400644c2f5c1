import Verif.Proofs.Preimage
import Verif.Props.CircuitWitness

/-!
# Property C62: the preimage circuit of the test-suite

`poseidon-tests/tests/poseidon377_r1cs.rs` uses all seven circuit hashes in one constraint system; the repository ships a
Groth16 key pair for it.  What a proof for that key is about is the satisfiability of this constraint system.
-/

namespace Poseidon

open R1cs

/-- What the public inputs `y` claim about the preimages `x`, in terms of the native API
(poseidon-tests/tests/poseidon377_r1cs.rs:44-56, 189-195). -/
def PreimageRelation (x y : Vector Fq 7) : Prop :=
  Poseidon.hash1 R1cs.testDomainSep x[0] = .ok y[0] ∧
  Poseidon.hash2 R1cs.testDomainSep (x[0], x[1]) = .ok y[1] ∧
  Poseidon.hash3 R1cs.testDomainSep (x[0], x[1], x[2]) = .ok y[2] ∧
  Poseidon.hash4 R1cs.testDomainSep (x[0], x[1], x[2], x[3]) = .ok y[3] ∧
  Poseidon.hash5 R1cs.testDomainSep (x[0], x[1], x[2], x[3], x[4]) = .ok y[4] ∧
  Poseidon.hash6 R1cs.testDomainSep (x[0], x[1], x[2], x[3], x[4], x[5]) = .ok y[5] ∧
  Poseidon.hash7 R1cs.testDomainSep (x[0], x[1], x[2], x[3], x[4], x[5], x[6]) = .ok y[6]

/-- The first seven witnesses. -/
def firstWitnesses (σ : R1cs.Variable → Fq) : Vector Fq 7 := Vector.ofFn fun i => σ (.witness i)

/-- The seven public inputs (variable 0 is the constant). -/
def publicInputs (σ : R1cs.Variable → Fq) : Vector Fq 7 := Vector.ofFn fun i => σ (.input (i + 1))

theorem relation_eval (σ : R1cs.Variable → Fq) :
    PreimageRelation (firstWitnesses σ) (publicInputs σ) ↔
    Poseidon.hash1 testDomainSep (σ (.witness 0)) = .ok (σ (.input 1)) ∧
    Poseidon.hash2 testDomainSep ((σ (.witness 0)), (σ (.witness 1))) = .ok (σ (.input 2)) ∧
    Poseidon.hash3 testDomainSep ((σ (.witness 0)), (σ (.witness 1)), (σ (.witness 2))) = .ok (σ (.input 3)) ∧
    Poseidon.hash4 testDomainSep ((σ (.witness 0)), (σ (.witness 1)), (σ (.witness 2)), (σ (.witness 3))) = .ok (σ (.input 4)) ∧
    Poseidon.hash5 testDomainSep ((σ (.witness 0)), (σ (.witness 1)), (σ (.witness 2)), (σ (.witness 3)), (σ (.witness 4))) = .ok (σ (.input 5)) ∧
    Poseidon.hash6 testDomainSep ((σ (.witness 0)), (σ (.witness 1)), (σ (.witness 2)), (σ (.witness 3)), (σ (.witness 4)), (σ (.witness 5))) = .ok (σ (.input 6)) ∧
    Poseidon.hash7 testDomainSep ((σ (.witness 0)), (σ (.witness 1)), (σ (.witness 2)), (σ (.witness 3)), (σ (.witness 4)), (σ (.witness 5)), (σ (.witness 6))) = .ok (σ (.input 7)) := by
  unfold PreimageRelation firstWitnesses publicInputs
  simp only [Vector.getElem_ofFn]

/-- **C62, soundness.** Whoever satisfies the constraints, in whatever way, knows preimages of the public inputs. -/
theorem C62_sound (c : PreimageCircuit) (setup : Bool) (cs : CS Fq)
    (h : generateConstraints c (CS.new Fq setup) = .ok cs) (σ : R1cs.Variable → Fq) (hσ : Satisfies σ cs) :
    PreimageRelation (firstWitnesses σ) (publicInputs σ) := by
  rw [generateConstraints_eq] at h
  have hd := run_did (theBlocks_ok _ _ _) h
  rw [relation_eval]
  exact (theBlocks_hashes _ _ _ _ σ).1 (hd.sound σ hσ)

/-- **C62, completeness.** Synthesis in proving mode always succeeds; the public inputs are the claimed outputs, the first
witnesses the preimages, and what it stores satisfies the constraints exactly when the outputs are the native hashes. -/
theorem C62_complete (c : PreimageCircuit) :
    ∃ cs, generateConstraints c (CS.new Fq false) = .ok cs ∧ cs.instanceAssignment = 1 :: c.hashOutputs.toList ∧
      c.preimages.toList <+: cs.witnessAssignment ∧ cs.witnessAssignment.length = cs.numWitness ∧
      ∀ σ, Stored cs σ → (Satisfies σ cs ↔ PreimageRelation c.preimages c.hashOutputs) := by
  let σ₀ : R1cs.Variable → Fq := fun v => match v with
    | .one => 1
    | .input i => (1 :: c.hashOutputs.toList).getD i 0
    | .witness i => c.preimages.toList.getD i 0
  have hx0 : ∀ i : Fin 7, σ₀ (.witness i) = c.preimages[i] := by
    intro i
    show c.preimages.toList.getD i 0 = _
    rw [toList7]
    fin_cases i <;> rfl
  have hy0 : ∀ i : Fin 7, σ₀ (.input (1 + i)) = c.hashOutputs[i] := by
    intro i
    show (1 :: c.hashOutputs.toList).getD (1 + i) 0 = _
    rw [toList7]
    fin_cases i <;> rfl
  have hp : Proving (startCS false (fun i => c.preimages[i]) fun i => c.hashOutputs[i]) := by
    refine ⟨rfl, ?_⟩
    show (List.ofFn _).length = 7
    simp
  have hcp : ∀ i : Fin 7, Carries (startCS false (fun i => c.preimages[i]) fun i => c.hashOutputs[i])
      (preVar false (fun i => c.preimages[i]) i) (FpVar.eval σ₀ (preVar false (fun i => c.preimages[i]) i)) := by
    intro i
    rw [preVar_eval, hx0]
    exact preVar_carries _ _ i
  have hco : ∀ i : Fin 7, Carries (startCS false (fun i => c.preimages[i]) fun i => c.hashOutputs[i])
      (outVar false (fun i => c.hashOutputs[i]) i) (FpVar.eval σ₀ (outVar false (fun i => c.hashOutputs[i]) i)) := by
    intro i
    rw [outVar_eval, hy0]
    exact outVar_carries _ _ i
  have hcd : Carries (startCS false (fun i => c.preimages[i]) fun i => c.hashOutputs[i])
      (FpVar.constant testDomainSep) (FpVar.eval σ₀ (FpVar.constant testDomainSep)) := rfl
  obtain ⟨cs, h1, h2, h3⟩ := run_prove (fun b => b.inputs.map (FpVar.eval σ₀)) (fun b => b.out.eval σ₀)
    (theBlocks_ok false (fun i => c.preimages[i]) fun i => c.hashOutputs[i]) hp
    (by
      intro b hb j
      rw [Fin.getElem_fin, Fin.getElem_fin, Vector.getElem_map]
      revert j
      revert b
      unfold theBlocks
      simp only [List.forall_mem_cons, List.not_mem_nil, false_imp_iff, implies_true, and_true]
      refine ⟨?_, ?_, ?_, ?_, ?_, ?_, ?_⟩ <;> intro j <;> fin_cases j <;> first | exact hcd | exact hcp _)
    (by
      unfold theBlocks
      simp only [List.forall_mem_cons, List.not_mem_nil, false_imp_iff, implies_true, and_true]
      exact ⟨hco _, hco _, hco _, hco _, hco _, hco _, hco _⟩)
  have hd := run_did (theBlocks_ok _ _ _) h1
  have hrel : PreimageRelation c.preimages c.hashOutputs ↔ PreimageRelation (firstWitnesses σ₀) (publicInputs σ₀) := by
    have e1 : firstWitnesses σ₀ = c.preimages := by
      apply Vector.ext
      intro i hi
      simp only [firstWitnesses, Vector.getElem_ofFn]
      exact hx0 ⟨i, hi⟩
    have e2 : publicInputs σ₀ = c.hashOutputs := by
      apply Vector.ext
      intro i hi
      simp only [publicInputs, Vector.getElem_ofFn, Nat.add_comm i 1]
      exact hy0 ⟨i, hi⟩
    rw [e1, e2]
  refine ⟨cs, (generateConstraints_eq c false).trans h1, ?_, ?_, h2.2, fun σ hσ => ?_⟩
  · rw [hd.instanceAssignment, toList7]
    rfl
  · have := hd.wa
    rw [toList7]
    exact this
  · obtain ⟨-, h4⟩ := h3 σ hσ
    rw [h4, hrel, relation_eval, theBlocks_hashes]
    refine ⟨fun h => h.2, fun h => ⟨⟨hσ.1, fun con hc => ?_⟩, h⟩⟩
    exact absurd hc List.not_mem_nil

/-- **C62, setup.** Key generation never fails, whatever the placeholder values. -/
theorem C62_setup (c : PreimageCircuit) : ∃ cs, generateConstraints c (CS.new Fq true) = .ok cs := by
  obtain ⟨cs, h⟩ := run_setup (theBlocks_ok true (fun i => c.preimages[i]) fun i => c.hashOutputs[i]) rfl
  exact ⟨cs, (generateConstraints_eq c true).trans h⟩

/-- **C62, one circuit.** The constraint system does not depend on the values or the mode: the proof is about the system the
key was made for. -/
theorem C62_same (c d : PreimageCircuit) (s s' : Bool) (cs cs' : CS Fq)
    (h : generateConstraints c (CS.new Fq s) = .ok cs) (h' : generateConstraints d (CS.new Fq s') = .ok cs') :
    cs.constraints = cs'.constraints ∧ cs.numInstance = cs'.numInstance ∧ cs.numWitness = cs'.numWitness := by
  rw [generateConstraints_eq] at h h'
  have e := run_shape h
  have e' := run_shape h'
  have k : ∀ (s : Bool) (x y : Fin 7 → Fq),
      (theBlocks (.constant testDomainSep) (preVar s x) (outVar s y)).map Block.shape =
        theBlocks (.constant testDomainSep) (preVar true fun _ => 0) (outVar true fun _ => 0) := by
    intro s x y
    have hm : ∀ {n : Nat} (v w : Vector (FpVar Fq) n), v.toList.map FpVar.shape = w.toList → v.map FpVar.shape = w := by
      intro n v w h
      apply Vector.toList_inj.1
      rw [Vector.toList_map, h]
    have ho : ∀ i, (outVar s y i).shape = outVar true (fun _ => 0) i := fun _ => rfl
    have m0 : Vector.map FpVar.shape #v[(FpVar.constant testDomainSep), preVar s x 0] =
        #v[(FpVar.constant testDomainSep), preVar true (fun _ => 0) 0] := hm _ _ rfl
    have m1 : Vector.map FpVar.shape #v[(FpVar.constant testDomainSep), preVar s x 0, preVar s x 1] =
        #v[(FpVar.constant testDomainSep), preVar true (fun _ => 0) 0, preVar true (fun _ => 0) 1] := hm _ _ rfl
    have m2 : Vector.map FpVar.shape #v[(FpVar.constant testDomainSep), preVar s x 0, preVar s x 1, preVar s x 2] =
        #v[(FpVar.constant testDomainSep), preVar true (fun _ => 0) 0, preVar true (fun _ => 0) 1, preVar true (fun _ => 0) 2] := hm _ _ rfl
    have m3 : Vector.map FpVar.shape #v[(FpVar.constant testDomainSep), preVar s x 0, preVar s x 1, preVar s x 2, preVar s x 3] =
        #v[(FpVar.constant testDomainSep), preVar true (fun _ => 0) 0, preVar true (fun _ => 0) 1, preVar true (fun _ => 0) 2, preVar true (fun _ => 0) 3] := hm _ _ rfl
    have m4 : Vector.map FpVar.shape #v[(FpVar.constant testDomainSep), preVar s x 0, preVar s x 1, preVar s x 2, preVar s x 3, preVar s x 4] =
        #v[(FpVar.constant testDomainSep), preVar true (fun _ => 0) 0, preVar true (fun _ => 0) 1, preVar true (fun _ => 0) 2, preVar true (fun _ => 0) 3, preVar true (fun _ => 0) 4] := hm _ _ rfl
    have m5 : Vector.map FpVar.shape #v[(FpVar.constant testDomainSep), preVar s x 0, preVar s x 1, preVar s x 2, preVar s x 3, preVar s x 4, preVar s x 5] =
        #v[(FpVar.constant testDomainSep), preVar true (fun _ => 0) 0, preVar true (fun _ => 0) 1, preVar true (fun _ => 0) 2, preVar true (fun _ => 0) 3, preVar true (fun _ => 0) 4, preVar true (fun _ => 0) 5] := hm _ _ rfl
    have m6 : Vector.map FpVar.shape #v[(FpVar.constant testDomainSep), preVar s x 0, preVar s x 1, preVar s x 2, preVar s x 3, preVar s x 4, preVar s x 5, preVar s x 6] =
        #v[(FpVar.constant testDomainSep), preVar true (fun _ => 0) 0, preVar true (fun _ => 0) 1, preVar true (fun _ => 0) 2, preVar true (fun _ => 0) 3, preVar true (fun _ => 0) 4, preVar true (fun _ => 0) 5, preVar true (fun _ => 0) 6] := hm _ _ rfl
    unfold theBlocks
    simp only [List.map_cons, List.map_nil, Block.shape, ho]
    rw [m0, m1, m2, m3, m4, m5, m6]
  rw [k] at e e'
  have k2 : ∀ (s : Bool) (x y : Fin 7 → Fq), (startCS s x y).shape = ⟨true, 8, 7, [], [], []⟩ := fun _ _ _ => rfl
  rw [k2] at e e'
  rw [e] at e'
  have : cs.shape = cs'.shape := Except.ok.inj e'
  have k3 : cs.shape.constraints = cs'.shape.constraints := by rw [this]
  have k4 : cs.shape.numInstance = cs'.shape.numInstance := by rw [this]
  have k5 : cs.shape.numWitness = cs'.shape.numWitness := by rw [this]
  exact ⟨k3, k4, k5⟩

/-- **C62, size.** The numbers of the shipped proving key (2457 entries for private, 8 for public variables). -/
theorem C62_size (c : PreimageCircuit) (s : Bool) (cs : CS Fq) (h : generateConstraints c (CS.new Fq s) = .ok cs) :
    cs.constraints.length = 2457 ∧ cs.numWitness = 2457 ∧ cs.numInstance = 8 := by
  rw [generateConstraints_eq] at h
  have hd := run_did (theBlocks_ok _ _ _) h
  refine ⟨hd.length.trans ?_, hd.numWitness.trans ?_, hd.numInstance⟩ <;>
    simp [startCS, theBlocks, Block.size, preVar, FpVar.isVar, List.countP_cons]

/-- **C62, no free witness.** Assignments that satisfy the constraints with the same preimages and public inputs are equal on
all variables of the circuit. -/
theorem C62_unique (c : PreimageCircuit) (s : Bool) (cs : CS Fq) (h : generateConstraints c (CS.new Fq s) = .ok cs)
    (σ τ : R1cs.Variable → Fq) (hσ : Satisfies σ cs) (hτ : Satisfies τ cs) (h0 : σ (.input 0) = τ (.input 0))
    (hx : firstWitnesses σ = firstWitnesses τ) :
    ∀ v : R1cs.Variable, v.Known cs → σ v = τ v := by
  have r1 := C62_sound c s cs h σ hσ
  have r2 := C62_sound c s cs h τ hτ
  rw [← hx] at r2
  have hy : publicInputs σ = publicInputs τ := by
    have key : ∀ (x y z : Vector Fq 7), PreimageRelation x y → PreimageRelation x z → y = z := by
      rintro x y z ⟨a0, a1, a2, a3, a4, a5, a6⟩ ⟨b0, b1, b2, b3, b4, b5, b6⟩
      apply Vector.toList_inj.1
      rw [toList7, toList7, Except.ok.inj (a0.symm.trans b0), Except.ok.inj (a1.symm.trans b1),
        Except.ok.inj (a2.symm.trans b2), Except.ok.inj (a3.symm.trans b3), Except.ok.inj (a4.symm.trans b4),
        Except.ok.inj (a5.symm.trans b5), Except.ok.inj (a6.symm.trans b6)]
    exact key _ _ _ r1 r2
  rw [generateConstraints_eq] at h
  have hd := run_did (theBlocks_ok _ _ _) h
  refine hd.unique σ τ hσ hτ ?_
  intro v hv
  cases v with
  | one => rw [hσ.1, hτ.1]
  | input i =>
    have hi : i < 8 := hv
    match i, hi with
    | 0, _ => exact h0
    | j + 1, hj =>
      have := congrArg (fun w : Vector Fq 7 => w[j]'(by omega)) hy
      simpa only [publicInputs, Vector.getElem_ofFn] using this
  | witness i =>
    have hi : i < 7 := hv
    have := congrArg (fun w : Vector Fq 7 => w[i]) hx
    simpa only [firstWitnesses, Vector.getElem_ofFn] using this

/-- The stored assignment exists. -/
theorem exists_stored (cs : CS Fq) : ∃ σ, Stored cs σ :=
  ⟨fun v => match v with
    | .one => 1
    | .input i => cs.instanceAssignment.getD i 0
    | .witness i => cs.witnessAssignment.getD i 0,
    rfl, fun i x h => by simp [List.getD, h], fun i x h => by simp [List.getD, h]⟩

/-- **C62.** The language of the circuit: public inputs `y` can be completed to a satisfying assignment exactly when they are
the hashes of some preimages. -/
theorem C62_language (c : PreimageCircuit) (s : Bool) (cs : CS Fq) (h : generateConstraints c (CS.new Fq s) = .ok cs)
    (y : Vector Fq 7) :
    (∃ σ, Satisfies σ cs ∧ publicInputs σ = y) ↔ ∃ x, PreimageRelation x y := by
  constructor
  · rintro ⟨σ, hσ, rfl⟩
    exact ⟨_, C62_sound c s cs h σ hσ⟩
  · rintro ⟨x, hx⟩
    obtain ⟨cs', h1, h2, -, -, h3⟩ := C62_complete ⟨x, y⟩
    obtain ⟨σ, hσ⟩ := exists_stored cs'
    have hsat := (h3 σ hσ).2 hx
    have hc := (C62_same c ⟨x, y⟩ s false cs cs' h h1).1
    refine ⟨σ, ⟨hsat.1, by rw [hc]; exact hsat.2⟩, ?_⟩
    apply Vector.ext
    intro i hi
    simp only [publicInputs, Vector.getElem_ofFn]
    apply hσ.2.1
    rw [h2, List.getElem?_cons_succ]
    show y.toList[i]? = _
    simp [hi]

/-- The hypotheses are met: the placeholder circuit of the key generation (`[Fq::from(2); 7]`). -/
example : ∃ cs, generateConstraints ⟨Vector.replicate 7 2, Vector.replicate 7 2⟩ (CS.new Fq true) = .ok cs := C62_setup _

/-- The relation is met: every choice of preimages has (exactly one, by C62_unique) tuple of outputs. -/
example (x : Vector Fq 7) : ∃ y, PreimageRelation x y := by
  obtain ⟨y0, -, h0⟩ := C02_hash_1 testDomainSep x[0]
  obtain ⟨y1, -, h1⟩ := C02_hash_2 testDomainSep (x[0], x[1])
  obtain ⟨y2, -, h2⟩ := C02_hash_3 testDomainSep (x[0], x[1], x[2])
  obtain ⟨y3, -, h3⟩ := C02_hash_4 testDomainSep (x[0], x[1], x[2], x[3])
  obtain ⟨y4, -, h4⟩ := C02_hash_5 testDomainSep (x[0], x[1], x[2], x[3], x[4])
  obtain ⟨y5, -, h5⟩ := C02_hash_6 testDomainSep (x[0], x[1], x[2], x[3], x[4], x[5])
  obtain ⟨y6, -, h6⟩ := C02_hash_7 testDomainSep (x[0], x[1], x[2], x[3], x[4], x[5], x[6])
  exact ⟨#v[y0 1, y1 1, y2 1, y3 1, y4 1, y5 1, y6 1], h0, h1, h2, h3, h4, h5, h6⟩

end Poseidon
