import Verif.Proofs.SymbolicPreimage
import Verif.Props.Preimage

/-!
# Property C85: the circuit down to the matrices

`Model/R1cs.lean` treats a circuit variable as a linear combination of allocated variables.  In `ark-relations` every sum and
every multiple is a *symbolic* combination with a number of its own, which may mention other symbolic combinations;
`finalize` inlines them, `to_matrices` writes down the three matrices of the proof system.  The statements below are about
that representation (`Model/Symbolic.lean`), and about the matrices at its end.
-/

namespace Poseidon

open Poseidon.Sym

variable {F : Type} [Field F] [DecidableEq F]
variable {t tm1 nmds nhat rows cols nround npart : Nat}

/-- **C85, matrices.** Of every system that the API can have built, `finalize` and `to_matrices` produce the matrices; they have
one row per constraint, with increasing columns, no zeros, and no column beyond the allocated variables; and an assignment of
the columns satisfies them exactly when each constraint holds between the values of its three symbolic combinations. -/
theorem C85_matrices (cs : Sym.CS F) (hs : cs.Sound) :
    ∃ M, cs.toMatrices = .ok M ∧
      (M.a.length = cs.constraints.length ∧ M.b.length = cs.constraints.length ∧ M.c.length = cs.constraints.length) ∧
      (∀ row, row ∈ M.a ∨ row ∈ M.b ∨ row ∈ M.c → CleanRow (cs.numInstance + cs.numWitness) row) ∧
      ∀ z, M.Satisfied z ↔ ∀ k ∈ cs.constraints,
        (Var.lc k.1).evalWith (ofColumns cs.numInstance z) (evalAll (ofColumns cs.numInstance z) cs.lcMap) *
          (Var.lc k.2.1).evalWith (ofColumns cs.numInstance z) (evalAll (ofColumns cs.numInstance z) cs.lcMap) =
        (Var.lc k.2.2).evalWith (ofColumns cs.numInstance z) (evalAll (ofColumns cs.numInstance z) cs.lcMap) := by
  obtain ⟨M, h, ha, hb, hc⟩ := toMatrices_spec hs
  have hl : cs.lower.constraints.length = cs.constraints.length := by simp [CS.lower]
  refine ⟨M, h, ⟨?_, ?_, ?_⟩, ?_, fun z => ?_⟩
  · rw [← ha.length_eq, List.length_map, hl]
  · rw [← hb.length_eq, List.length_map, hl]
  · rw [← hc.length_eq, List.length_map, hl]
  · rintro row (hr | hr | hr)
    · exact forall₂_clean ha row hr
    · exact forall₂_clean hb row hr
    · exact forall₂_clean hc row hr
  · rw [satisfied_iff ha hb hc]
    simp only [CS.lower, List.forall_mem_map, Var.low, Sym.lowWith_eval, evalAll_eq]

/-- The matrices and the inlined system. -/
theorem matrices_satisfies {cs : Sym.CS F} (hs : cs.Sound) {M : Matrices F} (hM : cs.toMatrices = .ok M) {z : Nat → F} (h1 : z 0 = 1) :
    M.Satisfied z ↔ R1cs.Satisfies (ofColumns cs.numInstance z) cs.lower := by
  obtain ⟨M', h, ha, hb, hc⟩ := toMatrices_spec hs
  rw [hM] at h
  cases h
  rw [satisfied_iff ha hb hc]
  exact ⟨fun h => ⟨h1, h⟩, fun h => h.2⟩

/-- Systems with the same constraints have the same matrices. -/
theorem matrices_same {cs cs' : Sym.CS F} (hs : cs.Sound) (hs' : cs'.Sound) (hc : cs.lower.constraints = cs'.lower.constraints)
    (hi : cs.numInstance = cs'.numInstance) (hw : cs.numWitness = cs'.numWitness) : cs.toMatrices = cs'.toMatrices := by
  obtain ⟨⟨a, b, c⟩, h, h1, h2, h3⟩ := toMatrices_spec hs
  obtain ⟨⟨a', b', c'⟩, h', h1', h2', h3'⟩ := toMatrices_spec hs'
  rw [h, h']
  rw [← hc, ← hi, ← hw] at h1' h2' h3'
  dsimp only at h1 h2 h3 h1' h2' h3'
  rw [rows_unique h1 h1', rows_unique h2 h2', rows_unique h3 h3']

/-- **C85, two descriptions of one circuit.** Run on symbolic combinations, the hash does exactly what `Model/R1cs.lean` says:
same panics; same variables, values and constraints once the combinations are inlined. -/
theorem C85_refines (p : Params F t tm1 nmds nhat rows cols nround npart) (inputs : Vector (FpVar F) t) (cs : Sym.CS F)
    (hs : cs.Sound) (hk : ∀ x ∈ inputs.toList, x.Known cs) :
    (∀ out cs', Sym.nTo1FixedHash p inputs cs = .ok (out, cs') → cs'.Sound ∧ out.Known cs') ∧
      R1cs.nTo1FixedHash p (inputs.map (FpVar.low cs)) cs.lower =
        (Sym.nTo1FixedHash p inputs cs).map fun r => (r.1.low r.2, r.2.lower) := by
  have h := hash_low p hs hk
  cases h1 : Sym.nTo1FixedHash p inputs cs with
  | error e =>
    rw [h1] at h
    cases h2 : R1cs.nTo1FixedHash p (inputs.map (FpVar.low cs)) cs.lower with
    | error e' =>
      rw [h2] at h
      have h : e = e' := h
      rw [h]
      refine ⟨fun _ _ h => ?_, rfl⟩
      cases h
    | ok r => rw [h2] at h; exact h.elim
  | ok r =>
    rw [h1] at h
    cases h2 : R1cs.nTo1FixedHash p (inputs.map (FpVar.low cs)) cs.lower with
    | error e' => rw [h2] at h; exact h.elim
    | ok r' =>
      rw [h2] at h
      obtain ⟨-, h3, h4, rfl⟩ := h
      refine ⟨fun _ _ h => ?_, rfl⟩
      cases h
      exact ⟨h3, h4⟩

theorem run_low {p : Params F t tm1 nmds nhat rows cols nround npart} {inputs : Vector (FpVar F) t} {cs cs' : Sym.CS F}
    {out : FpVar F} (hs : cs.Sound) (hk : ∀ x ∈ inputs.toList, x.Known cs)
    (h : Sym.nTo1FixedHash p inputs cs = .ok (out, cs')) :
    Sym.Ext cs cs' ∧ cs'.Sound ∧ out.Known cs' ∧
      R1cs.nTo1FixedHash p (inputs.map (FpVar.low cs)) cs.lower = .ok (out.low cs', cs'.lower) := by
  have hb := hash_low p hs hk
  rw [h] at hb
  cases h2 : R1cs.nTo1FixedHash p (inputs.map (FpVar.low cs)) cs.lower with
  | error e' => rw [h2] at hb; exact hb.elim
  | ok r' =>
    rw [h2] at hb
    obtain ⟨h3, h4, h5, rfl⟩ := hb
    exact ⟨h3, h4, h5, rfl⟩

theorem inputs_eval {inputs : Vector (FpVar F) t} {cs cs' : Sym.CS F} (hE : Sym.Ext cs cs') (hk : ∀ x ∈ inputs.toList, x.Known cs)
    (σ : R1cs.Variable → F) :
    (inputs.map (FpVar.low cs)).map (R1cs.FpVar.eval σ) = inputs.map fun x => x.eval σ cs' := by
  apply Vector.toList_inj.1
  rw [Vector.toList_map, Vector.toList_map, Vector.toList_map, ← hE.lows hk, List.map_map]
  exact List.map_congr_left fun x _ => eval_low σ cs' x

/-- **C85, soundness.** Whatever assignment of the columns satisfies the matrices, the value of the circuit's output is the
native hash of the values of its inputs. -/
theorem C85_sound (p : Params F t tm1 nmds nhat rows cols nround npart) {e : Nat}
    (ha : p.alpha = .exponent e) (he : e < 2 ^ 32) (ht : 1 < t) (hm : nmds = t * t)
    (inputs : Vector (FpVar F) t) (cs cs' : Sym.CS F) (out : FpVar F) (hs : cs.Sound) (hk : ∀ x ∈ inputs.toList, x.Known cs)
    (h : Sym.nTo1FixedHash p inputs cs = .ok (out, cs')) :
    ∃ M, cs'.toMatrices = .ok M ∧ ∀ z, z 0 = 1 → M.Satisfied z →
      ∃ inst', (Instance.new p).unoptimizedNTo1FixedHash (inputs.map fun x => x.eval (ofColumns cs'.numInstance z) cs') =
        .ok (out.eval (ofColumns cs'.numInstance z) cs', inst') := by
  obtain ⟨hE, hs', -, hr⟩ := run_low hs hk h
  obtain ⟨M, hM, -⟩ := toMatrices_spec hs'
  refine ⟨M, hM, fun z h1 hz => ?_⟩
  obtain ⟨inst', h2⟩ := C09_soundness p ha he ht hm _ _ _ _ hr _ ((matrices_satisfies hs' hM h1).1 hz)
  rw [inputs_eval hE hk, eval_low] at h2
  exact ⟨inst', h2⟩

/-- **C85, soundness for the shipped rates**, against the optimized native hash. -/
theorem C85_sound_shipped (i : Fin 7) (inputs : Vector (FpVar Fq) (i.val + 2)) (cs cs' : Sym.CS Fq) (out : FpVar Fq)
    (hs : cs.Sound) (hk : ∀ x ∈ inputs.toList, x.Known cs)
    (h : Sym.nTo1FixedHash (shippedParams i) inputs cs = .ok (out, cs')) :
    ∃ M, cs'.toMatrices = .ok M ∧ ∀ z, z 0 = 1 → M.Satisfied z →
      ∃ inst', (Instance.new (shippedParams i)).nTo1FixedHash (inputs.map fun x => x.eval (ofColumns cs'.numInstance z) cs') =
        .ok (out.eval (ofColumns cs'.numInstance z) cs', inst') := by
  obtain ⟨hE, hs', -, hr⟩ := run_low hs hk h
  obtain ⟨M, hM, -⟩ := toMatrices_spec hs'
  refine ⟨M, hM, fun z h1 hz => ?_⟩
  obtain ⟨inst', h2⟩ := C13_circuit_native i _ _ _ _ hr _ ((matrices_satisfies hs' hM h1).1 hz)
  rw [inputs_eval hE hk, eval_low] at h2
  exact ⟨inst', h2⟩

/-- **C85, completeness.** A prover whose inputs carry values gets an output that carries the native hash of those values, and an
assignment that satisfies the matrices (if what was there before did). -/
theorem C85_complete (p : Params F t tm1 nmds nhat rows cols nround npart) {e : Nat}
    (ha : p.alpha = .exponent e) (he : e < 2 ^ 32) (h0 : 0 < e) (ht : 1 < t) (hm : nmds = t * t)
    (inputs : Vector (FpVar F) t) (x : Vector F t) (cs : Sym.CS F) (hs : cs.Sound) (hp : cs.Proving)
    (hk : ∀ x ∈ inputs.toList, x.Known cs) (hvar : ∃ i : Fin t, inputs[i].isVar = true)
    (hx : ∀ i : Fin t, inputs[i].Carries cs x[i])
    (d : F) (inst') (hd : (Instance.new p).unoptimizedNTo1FixedHash x = .ok (d, inst')) :
    ∃ out cs' M M', Sym.nTo1FixedHash p inputs cs = .ok (out, cs') ∧ cs'.Sound ∧ cs'.Proving ∧ out.Known cs' ∧
      out.Carries cs' d ∧ cs.toMatrices = .ok M ∧ cs'.toMatrices = .ok M' ∧
      (M.Satisfied cs.columns → M'.Satisfied cs'.columns) := by
  have hki : ∀ i : Fin t, inputs[i].Known cs := fun i => hk _ (by
    rw [Vector.mem_toList_iff]
    exact Vector.getElem_mem i.isLt)
  obtain ⟨out, cs1, h1, h2, h3, h4⟩ := C10_completeness p ha he h0 ht hm (inputs.map (FpVar.low cs)) x cs.lower
    ⟨hp.setup, hp.witnesses⟩
    (by
      obtain ⟨i, hi⟩ := hvar
      refine ⟨i, ?_⟩
      rw [Fin.getElem_fin, Vector.getElem_map]
      rw [Fin.getElem_fin] at hi
      cases h : inputs[i.val] with
      | constant c => rw [h] at hi; cases hi
      | var v => rfl)
    (by
      intro i
      have := (carries_low hs hp (hki i) x[i]).2 (hx i)
      rw [Fin.getElem_fin, Vector.getElem_map]
      exact this) d inst' hd
  have hr := (C85_refines p inputs cs hs hk).2
  rw [h1] at hr
  cases h5 : Sym.nTo1FixedHash p inputs cs with
  | error e => rw [h5] at hr; cases hr
  | ok r =>
    obtain ⟨o, cs'⟩ := r
    rw [h5] at hr
    have hr := Except.ok.inj hr
    dsimp only at hr
    obtain ⟨rfl, rfl⟩ := Prod.mk.inj hr
    obtain ⟨hE, hs', hko, -⟩ := run_low hs hk h5
    obtain ⟨-, -, g3, g4, -, -, -⟩ := C60_appends p _ _ _ _ (fun i => by
      rw [Fin.getElem_fin, Vector.getElem_map]
      exact low_known hs (hki i)) h1
    have g3 : cs'.instanceAssignment = cs.instanceAssignment := g3
    have g4 : cs'.numInstance = cs.numInstance := g4
    have hp' : cs'.Proving := ⟨h2.1, by rw [g3, g4, hp.instances], h2.2, by rw [g3, hp.one]⟩
    obtain ⟨M, hM, ma, mb, mc⟩ := toMatrices_spec hs
    obtain ⟨M', hM', -⟩ := toMatrices_spec hs'
    refine ⟨o, cs', M, M', rfl, hs', hp', hko, (carries_low hs' hp' hko d).1 h3, hM, hM', fun hsat => ?_⟩
    obtain ⟨k1, k2⟩ := h4 _ (columns_stored hp')
    rw [matrices_satisfies hs' hM' (columns_stored hp').1]
    apply k2
    have k3 := (matrices_satisfies hs hM (columns_stored hp).1).1 hsat
    refine ⟨k1.1, fun con hcon => ?_⟩
    obtain ⟨w1, w2, w3⟩ := lower_wellFormed hs con hcon
    have hag := stored_agree hp k1 (columns_stored hp)
    rw [known_congr w1 hag, known_congr w2 hag, known_congr w3 hag]
    exact k3.2 con hcon

/-- **C85, completeness for the shipped rates.** -/
theorem C85_complete_shipped (i : Fin 7) (inputs : Vector (FpVar Fq) (i.val + 2)) (x : Vector Fq (i.val + 2)) (cs : Sym.CS Fq)
    (hs : cs.Sound) (hp : cs.Proving) (hk : ∀ x ∈ inputs.toList, x.Known cs)
    (hvar : ∃ j : Fin (i.val + 2), inputs[j].isVar = true) (hx : ∀ j : Fin (i.val + 2), inputs[j].Carries cs x[j]) :
    ∃ out cs' d inst' M M', Sym.nTo1FixedHash (shippedParams i) inputs cs = .ok (out, cs') ∧
      (Instance.new (shippedParams i)).nTo1FixedHash x = .ok (d, inst') ∧ cs'.Sound ∧ cs'.Proving ∧ out.Known cs' ∧
      out.Carries cs' d ∧ cs.toMatrices = .ok M ∧ cs'.toMatrices = .ok M' ∧
      (M.Satisfied cs.columns → M'.Satisfied cs'.columns) := by
  obtain ⟨out, cs', M, M', h⟩ := C85_complete (shippedParams i) (shipped_alpha i) (by norm_num) (by norm_num) (by omega) rfl
    inputs x cs hs hp hk hvar hx _ _ (native_word i x)
  have hn := nTo1_perm377 i (Vector.replicate _ 0) (fun j => x[j])
  have hv : Vector.ofFn (fun j : Fin (i.val + 2) => x[j]) = x := by ext; simp
  rw [hv] at hn
  exact ⟨out, cs', _, _, M, M', h.1, hn, h.2⟩

/-- **C85, no free column.** Assignments of the columns that satisfy the matrices and agree on the columns that were there before
the hash agree on all columns. -/
theorem C85_unique (p : Params F t tm1 nmds nhat rows cols nround npart) (inputs : Vector (FpVar F) t) (cs cs' : Sym.CS F)
    (out : FpVar F) (hs : cs.Sound) (hk : ∀ x ∈ inputs.toList, x.Known cs)
    (h : Sym.nTo1FixedHash p inputs cs = .ok (out, cs')) :
    cs'.numInstance = cs.numInstance ∧ cs.numWitness ≤ cs'.numWitness ∧
    ∃ M, cs'.toMatrices = .ok M ∧ ∀ z z', z 0 = 1 → M.Satisfied z → M.Satisfied z' →
      (∀ j, j < cs.numInstance + cs.numWitness → z j = z' j) → ∀ j, j < cs'.numInstance + cs'.numWitness → z j = z' j := by
  obtain ⟨hE, hs', -, hr⟩ := run_low hs hk h
  have hin : ∀ i : Fin t, (inputs.map (FpVar.low cs))[i].Known cs.lower := fun i => by
    rw [Fin.getElem_fin, Vector.getElem_map]
    exact low_known hs (hk _ (by
      rw [Vector.mem_toList_iff]
      exact Vector.getElem_mem i.isLt))
  obtain ⟨-, -, -, g4, -, -, -⟩ := C60_appends p _ _ _ _ hin hr
  have g4 : cs'.numInstance = cs.numInstance := g4
  obtain ⟨M, hM, -⟩ := toMatrices_spec hs'
  refine ⟨g4, hE.nw, M, hM, fun z z' h1 hz hz' hag => ?_⟩
  have h1' : z' 0 = 1 := by rw [← hag 0 (by have := hs.instances; omega), h1]
  have key := C61_no_free_witness p _ _ _ _ hin hr _ _ ((matrices_satisfies hs' hM h1).1 hz)
    ((matrices_satisfies hs' hM h1').1 hz') (by
      intro v hv
      cases v with
      | one => show z 0 = z' 0; rw [h1, h1']
      | input i => exact hag i (by have hv : i < cs.numInstance := hv; omega)
      | witness i =>
        show z (cs'.numInstance + i) = z' (cs'.numInstance + i)
        rw [g4]
        exact hag _ (by have hv : i < cs.numWitness := hv; omega))
  intro j hj
  by_cases hi : j < cs'.numInstance
  · exact key (.input j) hi
  · have := key (.witness (j - cs'.numInstance)) (by show _ < cs'.numWitness; omega)
    have e : cs'.numInstance + (j - cs'.numInstance) = j := by omega
    have this : z (cs'.numInstance + (j - cs'.numInstance)) = z' (cs'.numInstance + (j - cs'.numInstance)) := this
    rwa [e] at this

/-! ### The preimage circuit of the test-suite: what its key pair is made from -/

omit [DecidableEq F] in
theorem new_sound (s : Bool) : (CS.new F s).Sound :=
  ⟨Nat.one_pos, fun i l h => by simp [CS.new] at h, fun i ⟨k, hk, _⟩ => by simp [CS.new] at hk⟩

theorem preimage_low {c : R1cs.PreimageCircuit} {s : Bool} {cs : Sym.CS Fq} (h : Sym.generateConstraints c (CS.new Fq s) = .ok cs) :
    cs.Sound ∧ R1cs.generateConstraints c (R1cs.CS.new Fq s) = .ok cs.lower := by
  have hb := generateConstraints_low c (new_sound (F := Fq) s)
  rw [h] at hb
  have e : (CS.new Fq s).lower = R1cs.CS.new Fq s := rfl
  rw [e] at hb
  cases h2 : R1cs.generateConstraints c (R1cs.CS.new Fq s) with
  | error e' => rw [h2] at hb; exact hb.elim
  | ok r' =>
    rw [h2] at hb
    obtain ⟨h3, rfl⟩ := hb
    exact ⟨h3, rfl⟩

theorem preimage_run {c : R1cs.PreimageCircuit} {s : Bool} {d : R1cs.CS Fq} (h : R1cs.generateConstraints c (R1cs.CS.new Fq s) = .ok d) :
    ∃ cs, Sym.generateConstraints c (CS.new Fq s) = .ok cs ∧ cs.Sound ∧ cs.lower = d := by
  have hb := generateConstraints_low c (new_sound (F := Fq) s)
  have e : (CS.new Fq s).lower = R1cs.CS.new Fq s := rfl
  rw [e, h] at hb
  cases h2 : Sym.generateConstraints c (CS.new Fq s) with
  | error e' => rw [h2] at hb; exact hb.elim
  | ok cs =>
    rw [h2] at hb
    exact ⟨cs, rfl, hb.1, hb.2.symm⟩

/-- **C85, key generation and proving end in matrices**: 2457 rows; 8 public and 2457 private columns. -/
theorem C85_preimage_matrices (c : R1cs.PreimageCircuit) (s : Bool) :
    ∃ cs M, Sym.generateConstraints c (CS.new Fq s) = .ok cs ∧ cs.toMatrices = .ok M ∧
      M.a.length = 2457 ∧ M.b.length = 2457 ∧ M.c.length = 2457 ∧ cs.numInstance = 8 ∧ cs.numWitness = 2457 := by
  have h : ∃ d, R1cs.generateConstraints c (R1cs.CS.new Fq s) = .ok d := by
    cases s with
    | true => exact C62_setup c
    | false => obtain ⟨d, h, -⟩ := C62_complete c; exact ⟨d, h⟩
  obtain ⟨d, h⟩ := h
  obtain ⟨h1, h2, h3⟩ := C62_size c s d h
  obtain ⟨cs, hr, hs, rfl⟩ := preimage_run h
  obtain ⟨M, hM, ⟨l1, l2, l3⟩, -⟩ := C85_matrices cs hs
  have hl : cs.constraints.length = 2457 := by rw [← h1]; simp [CS.lower]
  exact ⟨cs, M, hr, hM, l1.trans hl, l2.trans hl, l3.trans hl, h3, h2⟩

/-- **C85, one key.** The matrices do not depend on the values or the mode: the prover's are those the key was made from. -/
theorem C85_preimage_same (c d : R1cs.PreimageCircuit) (s s' : Bool) (cs cs' : Sym.CS Fq)
    (h : Sym.generateConstraints c (CS.new Fq s) = .ok cs) (h' : Sym.generateConstraints d (CS.new Fq s') = .ok cs') :
    cs.toMatrices = cs'.toMatrices := by
  obtain ⟨hs, hl⟩ := preimage_low h
  obtain ⟨hs', hl'⟩ := preimage_low h'
  obtain ⟨h1, h2, h3⟩ := C62_same c d s s' _ _ hl hl'
  exact matrices_same hs hs' h1 h2 h3

/-- **C85, the prover.** The prover's columns are the constant, the claimed hashes, then the preimages (and the rest); they
satisfy the matrices exactly when the claim is true. -/
theorem C85_preimage_prover (c : R1cs.PreimageCircuit) :
    ∃ cs M, Sym.generateConstraints c (CS.new Fq false) = .ok cs ∧ cs.toMatrices = .ok M ∧ cs.columns 0 = 1 ∧
      (∀ i : Fin 7, cs.columns (i + 1) = c.hashOutputs[i]) ∧ (∀ i : Fin 7, cs.columns (8 + i) = c.preimages[i]) ∧
      (M.Satisfied cs.columns ↔ PreimageRelation c.preimages c.hashOutputs) := by
  obtain ⟨d, h1, h2, h3, h4, h5⟩ := C62_complete c
  obtain ⟨-, -, n3⟩ := C62_size _ _ _ h1
  obtain ⟨cs, hr, hs, rfl⟩ := preimage_run h1
  have h2 : cs.instanceAssignment = 1 :: c.hashOutputs.toList := h2
  have h3 : c.preimages.toList <+: cs.witnessAssignment := h3
  have n3 : cs.numInstance = 8 := n3
  obtain ⟨M, hM, -⟩ := toMatrices_spec hs
  have hst : R1cs.Stored cs.lower (ofColumns cs.numInstance cs.columns) :=
    columns_stored' (by rw [h2, n3]; simp) (by rw [h2]; rfl)
  refine ⟨cs, M, hr, hM, hst.1, fun i => ?_, fun i => ?_, ?_⟩
  · refine hst.2.1 (i + 1) _ ?_
    show cs.instanceAssignment[i.val + 1]? = _
    rw [h2, List.getElem?_cons_succ]
    simp
  · obtain ⟨t, ht⟩ := h3
    have := hst.2.2 i c.preimages[i] (by
      show cs.witnessAssignment[i.val]? = _
      rw [← ht, List.getElem?_append_left (by simp)]
      simp)
    rw [n3] at this
    exact this
  · rw [matrices_satisfies hs hM hst.1]
    exact h5 _ hst

/-- **C85, what a proof for the key is about.** Public inputs `y` can be completed to a satisfying assignment of the columns
exactly when they are the hashes of some preimages. -/
theorem C85_preimage_language (c : R1cs.PreimageCircuit) (s : Bool) (cs : Sym.CS Fq) (M : Matrices Fq)
    (h : Sym.generateConstraints c (CS.new Fq s) = .ok cs) (hM : cs.toMatrices = .ok M) (y : Vector Fq 7) :
    (∃ z, z 0 = 1 ∧ (∀ i : Fin 7, z (i + 1) = y[i]) ∧ M.Satisfied z) ↔ ∃ x, PreimageRelation x y := by
  constructor
  · rintro ⟨z, h1, h2, h3⟩
    obtain ⟨hs, hl⟩ := preimage_low h
    have e : publicInputs (ofColumns cs.numInstance z) = y := by
      apply Vector.ext
      intro i hi
      simp only [publicInputs, Vector.getElem_ofFn]
      exact h2 ⟨i, hi⟩
    exact ⟨_, e ▸ C62_sound c s _ hl _ ((matrices_satisfies hs hM h1).1 h3)⟩
  · rintro ⟨x, hx⟩
    obtain ⟨cs', M', h1, h2, h3, h4, -, h5⟩ := C85_preimage_prover ⟨x, y⟩
    have := C85_preimage_same c ⟨x, y⟩ s false cs cs' h h1
    rw [hM, h2] at this
    cases this
    exact ⟨_, h3, h4, h5.2 hx⟩

/-- **C85, extraction.** The preimages are the first seven private columns of any satisfying assignment. -/
theorem C85_preimage_extract (c : R1cs.PreimageCircuit) (s : Bool) (cs : Sym.CS Fq) (M : Matrices Fq)
    (h : Sym.generateConstraints c (CS.new Fq s) = .ok cs) (hM : cs.toMatrices = .ok M) (z : Nat → Fq) (h1 : z 0 = 1)
    (hz : M.Satisfied z) :
    PreimageRelation (Vector.ofFn fun i : Fin 7 => z (8 + i)) (Vector.ofFn fun i : Fin 7 => z (i + 1)) := by
  obtain ⟨hs, hl⟩ := preimage_low h
  obtain ⟨-, -, hi⟩ := C62_size c s _ hl
  have hi : cs.numInstance = 8 := hi
  have := C62_sound c s _ hl _ ((matrices_satisfies hs hM h1).1 hz)
  rw [hi] at this
  exact this

/-! ### The hypotheses are met -/

/-- A fresh system is one that the API can have built, and a prover's is a prover's. -/
example : (CS.new Fq true).Sound ∧ (CS.new Fq false).Sound ∧ (CS.new Fq false).Proving :=
  ⟨new_sound _, new_sound _, rfl, rfl, rfl, rfl⟩

/-- `hash_1` of an allocated witness with a constant domain separator: the hypotheses of `C85_complete_shipped`, hence those of
`C85_sound_shipped` and `C85_unique`, are met, with matrices of the empty system that every assignment satisfies. -/
example : ∃ (cs : Sym.CS Fq) (v : AllocatedFp Fq), newWitness (some 5) (CS.new Fq false) = .ok (v, cs) ∧ cs.Sound ∧ cs.Proving ∧
    (∀ x ∈ (#v[FpVar.constant 3, .var v] : Vector (FpVar Fq) 2).toList, x.Known cs) ∧
    (∃ j : Fin 2, (#v[FpVar.constant 3, .var v] : Vector (FpVar Fq) 2)[j].isVar = true) ∧
    (∀ j : Fin 2, (#v[FpVar.constant 3, .var v] : Vector (FpVar Fq) 2)[j].Carries cs (#v[3, 5] : Vector Fq 2)[j]) ∧
    cs.toMatrices = .ok ⟨[], [], []⟩ := by
  refine ⟨⟨false, 1, 1, [1], [5], [], []⟩, ⟨some 5, .witness 0⟩, rfl, ⟨Nat.one_pos, fun i l h => by simp at h,
    fun i ⟨k, hk, _⟩ => by simp at hk⟩, ⟨rfl, rfl, rfl, rfl⟩, ?_, ⟨1, rfl⟩, ?_, rfl⟩
  · intro x hx
    have hx : x ∈ [FpVar.constant 3, FpVar.var ⟨some 5, .witness 0⟩] := hx
    rcases List.mem_cons.1 hx with rfl | hx
    · trivial
    · rw [List.mem_singleton.1 hx]
      exact Nat.one_pos
  · intro j
    fin_cases j
    · rfl
    · exact ⟨rfl, rfl⟩

/-- A system with a constraint on symbolic combinations: `(w₀ + 2) * (w₀ + 2) = w₁`, where `w₀ + 2` is a combination with a
number of its own, used twice.  Its matrices say just that. -/
example : ∃ M, (CS.toMatrices ⟨true, 1, 2, [], [], [[(1, .witness 0), (2, .one)], [(1, .lc 0)], [(1, .lc 0)], [(1, .witness 1)]],
    [(1, 2, 3)]⟩ : R (Matrices Fq)) = .ok M ∧ ∀ z, z 0 = 1 → (M.Satisfied z ↔ (z 1 + 2) * (z 1 + 2) = z 2) := by
  obtain ⟨M, h, -, -, h2⟩ := C85_matrices (F := Fq) ⟨true, 1, 2, [], [],
    [[(1, .witness 0), (2, .one)], [(1, .lc 0)], [(1, .lc 0)], [(1, .witness 1)]], [(1, 2, 3)]⟩ (by
      have hc : ∀ (cs : Sym.CS Fq), cs.constraints = [(1, 2, 3)] → ∀ i, cs.IsConstraint i ↔ i = 1 ∨ i = 2 ∨ i = 3 := by
        intro cs h i
        simp [CS.IsConstraint, h]
      refine ⟨Nat.one_pos, fun i l h => ?_, fun i hi => ?_⟩
      · match i, h with
        | 0, h => cases h; simp [Var.Known]
        | 1, h => cases h; simp [Var.Known, hc]
        | 2, h => cases h; simp [Var.Known, hc]
        | 3, h => cases h; simp [Var.Known]
        | n + 4, h => simp at h
      · rw [hc _ rfl] at hi
        show i < 4
        omega)
  refine ⟨M, h, fun z h1 => ?_⟩
  rw [h2]
  simp [Var.evalWith, evalAll, ofColumns, h1]

end Poseidon
