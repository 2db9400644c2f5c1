import Verif.Model.UserProof
import Verif.Props.UserCircuit
import Verif.Props.Symbolic
import Verif.Proofs.Groth16Preimage

/-! # Keys and proofs for circuits that use the circuit hashes -/

set_option linter.unusedSectionVars false

namespace Poseidon

open R1cs (UserCircuit)

/-! ### Programs that differ in their values only -/

namespace R1cs.UserCircuit

theorem noConstantHash_blank {n : Nat} (c : UserCircuit n) : ∀ k, c.blank.NoConstantHash k ↔ c.NoConstantHash k := by
  induction c with
  | done => exact fun _ => Iff.rfl
  | constant x next ih => exact fun _ => ih _
  | witness x next ih => exact fun _ => ih _
  | input x next ih => exact fun _ => ih _
  | hash i words next ih => exact fun _ => and_congr_right fun _ => ih _
  | arith op a b next ih => exact fun _ => ih _
  | equal a b next ih => exact fun _ => ih _

theorem noConstantEqual_blank {n : Nat} (c : UserCircuit n) : ∀ k, c.blank.NoConstantEqual k ↔ c.NoConstantEqual k := by
  induction c with
  | done => exact fun _ => Iff.rfl
  | constant x next ih => exact fun _ => ih _
  | witness x next ih => exact fun _ => ih _
  | input x next ih => exact fun _ => ih _
  | hash i words next ih => exact fun _ => ih _
  | arith op a b next ih => exact fun _ => ih _
  | equal a b next ih => exact fun _ => and_congr_right fun _ => ih _

theorem accepts_blank {n : Nat} (c : UserCircuit n) : ∀ r w y, c.blank.Accepts r w y ↔ c.Accepts r w y := by
  induction c with
  | done => exact fun _ _ _ => Iff.rfl
  | constant x next ih => exact fun _ _ _ => ih _ _ _
  | witness x next ih => exact fun _ _ _ => exists_congr fun _ => exists_congr fun _ => and_congr_right fun _ => ih _ _ _
  | input x next ih => exact fun _ _ _ => exists_congr fun _ => exists_congr fun _ => and_congr_right fun _ => ih _ _ _
  | hash i words next ih => exact fun _ _ _ => exists_congr fun _ => and_congr_right fun _ => ih _ _ _
  | arith op a b next ih => exact fun _ _ _ => ih _ _ _
  | equal a b next ih => exact fun _ _ _ => and_congr_right fun _ => ih _ _ _

theorem privateAt_blank {n : Nat} (c : UserCircuit n) : ∀ k s, c.blank.privateAt k s = c.privateAt k s := by
  induction c with
  | done => exact fun _ _ => rfl
  | constant x next ih => exact fun _ _ => ih _ _
  | witness x next ih => exact fun _ s => congrArg (s :: ·) (ih _ _)
  | input x next ih => exact fun _ _ => ih _ _
  | hash i words next ih => exact fun _ _ => ih _ _
  | arith op a b next ih => exact fun _ _ => ih _ _
  | equal a b next ih => exact fun _ _ => ih _ _

theorem publics_blank {n : Nat} (c : UserCircuit n) : c.blank.publicValues.length = c.publicValues.length := by
  induction c with
  | done => rfl
  | constant x next ih => exact ih
  | witness x next ih => exact ih
  | input x next ih => exact congrArg (· + 1) ih
  | hash i words next ih => exact ih
  | arith op a b next ih => exact ih
  | equal a b next ih => exact ih

theorem witnesses_blank {n : Nat} (c : UserCircuit n) : ∀ k, c.blank.witnesses k = c.witnesses k := by
  induction c with
  | done => exact fun _ => rfl
  | constant x next ih => exact fun _ => ih _
  | witness x next ih => exact fun _ => congrArg (1 + ·) (ih _)
  | input x next ih => exact fun _ => ih _
  | hash i words next ih => exact fun _ => congrArg (_ + ·) (ih _)
  | arith op a b next ih => exact fun _ => congrArg (_ + ·) (ih _)
  | equal a b next ih => exact fun _ => ih _

theorem constraints_blank {n : Nat} (c : UserCircuit n) : ∀ k, c.blank.constraints k = c.constraints k := by
  induction c with
  | done => exact fun _ => rfl
  | constant x next ih => exact fun _ => ih _
  | witness x next ih => exact fun _ => ih _
  | input x next ih => exact fun _ => ih _
  | hash i words next ih => exact fun _ => congrArg (_ + ·) (ih _)
  | arith op a b next ih => exact fun _ => congrArg (_ + ·) (ih _)
  | equal a b next ih => exact fun _ => congrArg (_ + ·) (ih _)

/-- The private values are witnesses that exist. -/
theorem privateAt_lt {n : Nat} (c : UserCircuit n) : ∀ k s, ∀ j ∈ c.privateAt k s, j < s + c.witnesses k := by
  induction c with
  | done => exact fun _ _ _ h => absurd h List.not_mem_nil
  | constant x next ih => exact fun _ _ => ih _ _
  | witness x next ih =>
    intro k s j hj
    rw [witnesses]
    rcases List.mem_cons.1 hj with rfl | hj
    · omega
    · have := ih _ _ j hj; omega
  | input x next ih => exact fun _ _ => ih _ _
  | hash i words next ih =>
    intro k s j hj
    have := ih _ _ j hj
    rw [witnesses]
    omega
  | arith op a b next ih =>
    intro k s j hj
    have := ih _ _ j hj
    rw [witnesses]
    omega
  | equal a b next ih => exact fun _ _ => ih _ _

/-- A native run that accepts has as many values as the program. -/
theorem accepts_length {n : Nat} (c : UserCircuit n) : ∀ r w y, c.Accepts r w y → y.length = c.publicValues.length := by
  induction c with
  | done => rintro r w y ⟨-, rfl⟩; rfl
  | constant x next ih => exact fun _ _ _ h => ih _ _ _ h
  | witness x next ih => rintro r w y ⟨x, w', -, h⟩; exact ih _ _ _ h
  | input x next ih => rintro r w y ⟨x, y', rfl, h⟩; exact congrArg (· + 1) (ih _ _ _ h)
  | hash i words next ih => rintro r w y ⟨d, -, h⟩; exact ih _ _ _ h
  | arith op a b next ih => exact fun _ _ _ h => ih _ _ _ h
  | equal a b next ih => rintro r w y ⟨-, h⟩; exact ih _ _ _ h

end R1cs.UserCircuit

/-! ### Symbolic combinations -/

namespace Sym

theorem callHash_eq (i : Fin 7) (w : Vector (FpVar Fq) (i.val + 2)) (cs : CS Fq) :
    callHash i w cs = nTo1FixedHash (shippedParams i) w cs := by
  match i, w with
  | 0, w => exact congrArg (fun v => nTo1FixedHash rate1Params v cs) (R1cs.vec2 w)
  | 1, w => exact congrArg (fun v => nTo1FixedHash rate2Params v cs) (R1cs.vec3 w)
  | 2, w => exact congrArg (fun v => nTo1FixedHash rate3Params v cs) (R1cs.vec4 w)
  | 3, w => exact congrArg (fun v => nTo1FixedHash rate4Params v cs) (R1cs.vec5 w)
  | 4, w => exact congrArg (fun v => nTo1FixedHash rate5Params v cs) (R1cs.vec6 w)
  | 5, w => exact congrArg (fun v => nTo1FixedHash rate6Params v cs) (R1cs.vec7 w)
  | 6, w => exact congrArg (fun v => nTo1FixedHash rate7Params v cs) (R1cs.vec8 w)

theorem synthesize_low {n : Nat} (c : UserCircuit n) : ∀ (vars : Vector (FpVar Fq) n) (cs : CS Fq), cs.Sound →
    (∀ v ∈ vars, v.Known cs) →
    Both (fun cs' d => cs'.Sound ∧ d = cs'.lower) (c.synthesize vars cs) (c.generate (vars.map (FpVar.low cs)) cs.lower) := by
  have push : ∀ {n : Nat} {vars : Vector (FpVar Fq) n} {cs cs' : CS Fq} {x : FpVar Fq}, Ext cs cs' → (∀ v ∈ vars, v.Known cs) →
      x.Known cs' → (∀ v ∈ vars.push x, v.Known cs') ∧
        (vars.map (FpVar.low cs)).push (x.low cs') = (vars.push x).map (FpVar.low cs') := by
    intro n vars cs cs' x hE hk hx
    constructor
    · intro v hv
      rcases Vector.mem_push.1 hv with hv | rfl
      · exact hE.known (hk v hv)
      · exact hx
    · rw [Vector.map_push]
      congr 1
      exact Vector.map_congr_left fun v hv => (hE.low (hk v hv)).symm
  induction c with
  | done => exact fun _ cs hs _ => ⟨hs, rfl⟩
  | constant x next ih =>
    intro vars cs hs hk
    obtain ⟨p1, p2⟩ := push (x := .constant x) (Ext.refl cs) hk trivial
    have := ih _ cs hs p1
    rw [← p2] at this
    exact this
  | witness x next ih =>
    intro vars cs hs hk
    rw [UserCircuit.synthesize, UserCircuit.generate]
    refine Both.bind (newWitness_low _ hs) ?_
    rintro ⟨v, cs2⟩ _ ⟨hE2, hs2, hv, rfl⟩
    obtain ⟨p1, p2⟩ := push (x := .var v) hE2 hk hv
    have := ih _ cs2 hs2 p1
    rw [← p2] at this
    exact this
  | input x next ih =>
    intro vars cs hs hk
    rw [UserCircuit.synthesize, UserCircuit.generate]
    refine Both.bind (newInput_low _ hs) ?_
    rintro ⟨v, cs2⟩ _ ⟨hE2, hs2, hv, rfl⟩
    obtain ⟨p1, p2⟩ := push (x := .var v) hE2 hk hv
    have := ih _ cs2 hs2 p1
    rw [← p2] at this
    exact this
  | hash i words next ih =>
    intro vars cs hs hk
    rw [UserCircuit.synthesize, UserCircuit.generate, callHash_eq, R1cs.callHash_eq]
    have e : (words.map fun k => (vars.map (FpVar.low cs))[k]) = (words.map fun k => vars[k]).map (FpVar.low cs) := by
      rw [Vector.map_map]
      apply Vector.map_congr_left
      intro k _
      simp
    rw [e]
    refine Both.bind (hash_low _ hs fun x hx => ?_) ?_
    · rw [Vector.mem_toList_iff] at hx
      obtain ⟨k, -, rfl⟩ := Vector.mem_map.1 hx
      exact hk _ (Vector.getElem_mem _)
    rintro ⟨v, cs2⟩ _ ⟨hE2, hs2, hv, rfl⟩
    obtain ⟨p1, p2⟩ := push (x := v) hE2 hk hv
    have := ih _ cs2 hs2 p1
    rw [← p2] at this
    exact this
  | arith op a b next ih =>
    intro vars cs hs hk
    have ea : ∀ j : Fin _, (vars.map (FpVar.low cs))[j] = vars[j].low cs := fun j => by simp
    rw [UserCircuit.synthesize, UserCircuit.generate, ea, ea]
    refine Both.bind (arith_low op hs (hk _ (Vector.getElem_mem _)) (hk _ (Vector.getElem_mem _))) ?_
    rintro ⟨v, cs2⟩ _ ⟨hE2, hs2, hv, rfl⟩
    obtain ⟨p1, p2⟩ := push (x := v) hE2 hk hv
    have := ih _ cs2 hs2 p1
    rw [← p2] at this
    exact this
  | equal a b next ih =>
    intro vars cs hs hk
    rw [UserCircuit.synthesize, UserCircuit.generate]
    obtain ⟨h1, h2, h3⟩ := enforceEqual_low (a := vars[a]) (b := vars[b]) hs (hk _ (Vector.getElem_mem _)) (hk _ (Vector.getElem_mem _))
    have ea : ∀ j : Fin _, (vars.map (FpVar.low cs))[j] = vars[j].low cs := fun j => by simp
    rw [ea, ea, ← h3]
    have := ih vars _ h2 fun v hv => h1.known (hk v hv)
    have e : vars.map (FpVar.low (vars[a].enforceEqual vars[b] cs)) = vars.map (FpVar.low cs) :=
      Vector.map_congr_left fun v hv => h1.low (hk v hv)
    rw [e] at this
    exact this

theorem user_both (c : UserCircuit 0) (s : Bool) : Both (fun cs' d => cs'.Sound ∧ d = cs'.lower)
    (c.synthesize #v[] (CS.new Fq s)) (c.generate #v[] (R1cs.CS.new Fq s)) := by
  have := synthesize_low c #v[] (CS.new Fq s) (new_sound s) fun v hv => absurd hv (by simp)
  rw [map_nil] at this
  exact this

theorem user_low {c : UserCircuit 0} {s : Bool} {cs : CS Fq} (h : c.synthesize #v[] (CS.new Fq s) = .ok cs) :
    cs.Sound ∧ c.generate #v[] (R1cs.CS.new Fq s) = .ok cs.lower := by
  have hb := user_both c s
  rw [h] at hb
  cases h2 : c.generate #v[] (R1cs.CS.new Fq s) with
  | error e' => rw [h2] at hb; exact hb.elim
  | ok r' =>
    rw [h2] at hb
    obtain ⟨h3, rfl⟩ := hb
    exact ⟨h3, rfl⟩

theorem user_run {c : UserCircuit 0} {s : Bool} {d : R1cs.CS Fq} (h : c.generate #v[] (R1cs.CS.new Fq s) = .ok d) :
    ∃ cs, c.synthesize #v[] (CS.new Fq s) = .ok cs ∧ cs.Sound ∧ cs.lower = d := by
  have hb := user_both c s
  rw [h] at hb
  cases h2 : c.synthesize #v[] (CS.new Fq s) with
  | error e' => rw [h2] at hb; exact hb.elim
  | ok cs =>
    rw [h2] at hb
    exact ⟨cs, rfl, hb.1, hb.2.symm⟩

end Sym

namespace Groth16

open Poseidon.Sym (Matrices dot ofColumns)

/-- The matrices for a program and those that differ from it in their values only. -/
structure UserMatrices (c : UserCircuit 0) (M : Matrices Fq) : Prop where
  ra : RowsIn (1 + c.publicValues.length + c.witnesses #v[]) M.a
  rb : RowsIn (1 + c.publicValues.length + c.witnesses #v[]) M.b
  rc : RowsIn (1 + c.publicValues.length + c.witnesses #v[]) M.c
  la : M.a.length = c.constraints #v[]
  lb : M.b.length = c.constraints #v[]
  lc : M.c.length = c.constraints #v[]
  runs : ∀ (c' : UserCircuit 0) (s : Bool), c'.blank = c.blank → ∃ cs, c'.synthesize #v[] (Sym.CS.new Fq s) = .ok cs ∧ cs.Sound ∧
    cs.toMatrices = .ok M ∧ cs.numInstance = 1 + c.publicValues.length ∧ cs.numWitness = c.witnesses #v[]
  /-- What an assignment that satisfies them contains. -/
  extract : c.NoConstantEqual #v[] → ∀ z : Nat → Fq, z 0 = 1 → M.Satisfied z →
    c.Accepts #v[] ((c.privateAt #v[] 0).map fun j => z (1 + c.publicValues.length + j))
      ((List.range c.publicValues.length).map fun j => z (1 + j))

theorem user_matrices (c : UserCircuit 0) (hn : c.NoConstantHash #v[]) : ∃ M, UserMatrices c M := by
  obtain ⟨d, hd⟩ := (C95_runs c true).2 hn
  obtain ⟨cs, h1, hs, rfl⟩ := Sym.user_run hd
  obtain ⟨n1, n2, n3⟩ := C95_size c true _ hd
  have n2 : cs.numWitness = c.witnesses #v[] := n2
  have n3 : cs.numInstance = 1 + c.publicValues.length := n3
  obtain ⟨M, hM, ⟨l1, l2, l3⟩, hr, -⟩ := C85_matrices cs hs
  have hl : cs.constraints.length = c.constraints #v[] := by rw [← n1]; simp [Sym.CS.lower]
  rw [n2, n3] at hr
  refine ⟨M, fun row h => fun x hx => ((hr row (.inl h)).2 x hx).2, fun row h => fun x hx => ((hr row (.inr (.inl h))).2 x hx).2,
    fun row h => fun x hx => ((hr row (.inr (.inr h))).2 x hx).2, l1.trans hl, l2.trans hl, l3.trans hl, ?_, ?_⟩
  · intro c' s hb
    obtain ⟨d', hd'⟩ := (C95_runs c' s).2 (by rw [← UserCircuit.noConstantHash_blank, hb, UserCircuit.noConstantHash_blank]; exact hn)
    obtain ⟨cs', h1', hs', rfl⟩ := Sym.user_run hd'
    obtain ⟨e1, e2, e3⟩ := C95_same c' c hb s true _ _ hd' hd
    exact ⟨cs', h1', hs', (matrices_same hs' hs e1 e2 e3).trans hM, e2.trans n3, e3.trans n2⟩
  · intro hne z h0 hz
    have := (C95_language c true _ hd hne _ _).1 ⟨_, (matrices_satisfies hs hM h0).1 hz, rfl, rfl⟩
    rw [n3] at this
    exact this

/-- Large enough. -/
theorem UserMatrices.shape {c : UserCircuit 0} {M : Matrices Fq} (h : UserMatrices c M) {d : Domain Fq}
    (hd : c.constraints #v[] + 1 + c.publicValues.length ≤ d.size) : Shape d M (1 + c.publicValues.length) (c.witnesses #v[]) :=
  ⟨h.ra, h.rb, h.rc, by rw [h.la, h.lb], by rw [h.la, h.lc], by rw [h.la]; omega, by omega⟩

section
variable {G1 G2 GT : Type} [AddCommGroup G1] [Module Fq G1] [AddCommGroup G2] [Module Fq G2] [AddCommGroup GT] [Module Fq GT]

theorem setupUser_eq {c : UserCircuit 0} {M : Matrices Fq} (h : UserMatrices c M) {d : Domain Fq} (hd : d.Good)
    (hs : c.constraints #v[] + 1 + c.publicValues.length ≤ d.size) (g1 : G1) (g2 : G2) {w : Secrets Fq} (hw : w.Usable)
    {c₀ : UserCircuit 0} (hb : c₀.blank = c.blank) :
    setupUser d g1 g2 w c₀ = .ok (theKey d g1 g2 w M (1 + c.publicValues.length) (c.witnesses #v[])) := by
  obtain ⟨cs, h1, -, k1, k2, k3⟩ := h.runs c₀ true hb
  unfold setupUser
  rw [h1, ok_bind, k1, ok_bind, k2, k3]
  exact generate_eq hd (h.shape hs) g1 g2 hw

/-- The prover's assignment. -/
theorem user_prover {c : UserCircuit 0} {M : Matrices Fq} (h : UserMatrices c M) (hne : c.NoConstantEqual #v[]) :
    ∃ cs, c.synthesize #v[] (Sym.CS.new Fq false) = .ok cs ∧ cs.instanceAssignment = 1 :: c.publicValues ∧
      cs.witnessAssignment.length = c.witnesses #v[] ∧ cs.toMatrices = .ok M ∧ cs.numInstance = 1 + c.publicValues.length ∧
      ((c.privateAt #v[] 0).map fun j => cs.witnessAssignment.getD j 0) = c.privateValues ∧
      (M.Satisfied (fun j => (1 :: c.publicValues ++ cs.witnessAssignment).getD j 0) ↔
        c.Accepts #v[] c.privateValues c.publicValues) := by
  obtain ⟨cs, h1, hs, k1, k2, k3⟩ := h.runs c false rfl
  obtain ⟨-, hl⟩ := Sym.user_low h1
  obtain ⟨p1, p2, p3⟩ := C95_prover c _ hl
  have p1 : cs.instanceAssignment = 1 :: c.publicValues := p1
  have p2 : cs.witnessAssignment.length = cs.numWitness := p2
  have hst : R1cs.Stored cs.lower (ofColumns cs.numInstance cs.columns) :=
    Sym.columns_stored' (by rw [p1, k2, List.length_cons]; omega) (by rw [p1]; rfl)
  refine ⟨cs, h1, p1, by rw [p2, k3], k1, k2, ?_, ?_⟩
  · rw [← (p3 _ hst).1]
    refine List.map_congr_left fun j _ => ?_
    show _ = (cs.instanceAssignment ++ cs.witnessAssignment).getD (cs.numInstance + j) 0
    have : cs.instanceAssignment.length = cs.numInstance := by rw [p1, k2, List.length_cons]; omega
    rw [List.getD_append_right _ _ _ _ (by omega), this, Nat.add_sub_cancel_left]
  rw [← (p3 _ hst).2.2 hne, ← matrices_satisfies hs k1 hst.1, ← p1]
  rfl

/-- A run of the prover, on the matrices. -/
theorem proveUser_unfold {c : UserCircuit 0} {M : Matrices Fq} (hI : UserMatrices c M) (hne : c.NoConstantEqual #v[]) :
    ∃ aux : List Fq, aux.length = c.witnesses #v[] ∧ ((c.privateAt #v[] 0).map fun j => aux.getD j 0) = c.privateValues ∧
      (M.Satisfied (fun j => (1 :: c.publicValues ++ aux).getD j 0) ↔ c.Accepts #v[] c.privateValues c.publicValues) ∧
      ∀ (debug : Bool) (d : Domain Fq) (g : Fq) (pk : ProvingKey G1 G2) (r s : Fq),
        (debug = true → ¬ c.Accepts #v[] c.privateValues c.publicValues → proveUser debug d g pk r s c = .error .assertFailed) ∧
        ((debug = true → c.Accepts #v[] c.privateValues c.publicValues) → proveUser debug d g pk r s c = (do
          let h ← witnessMap d g M (1 + c.publicValues.length) (1 :: c.publicValues ++ aux)
          createProof pk r s h c.publicValues aux)) := by
  obtain ⟨cs, h1, h2, h3, k1, k2, h0, h4⟩ := user_prover hI hne
  obtain ⟨b, b1, b2⟩ := isSatisfied_eq (hI.shape (d := ⟨c.constraints #v[] + 1 + c.publicValues.length, 1, 1⟩) le_rfl)
    (z := 1 :: c.publicValues ++ cs.witnessAssignment) (by simp [h3]; omega)
  refine ⟨cs.witnessAssignment, h3, h0, h4, fun debug d g pk r s => ?_⟩
  have hp : proveUser debug d g pk r s c = (do
      if debug && !b then .error .assertFailed
      let h ← witnessMap d g M (1 + c.publicValues.length) (1 :: c.publicValues ++ cs.witnessAssignment)
      createProof pk r s h c.publicValues cs.witnessAssignment) := by
    unfold proveUser
    rw [h1, ok_bind, k1, ok_bind, h2]
    dsimp only
    rw [b1, ok_bind, k2]
    rfl
  rw [hp]
  constructor
  · intro hdb hn
    have : b = false := by
      cases b with
      | false => rfl
      | true => exact absurd (h4.1 (b2.1 rfl)) hn
    rw [hdb, this]
    rfl
  · intro hdb
    have : (debug && !b) = false := by
      cases debug with
      | false => rfl
      | true => rw [b2.2 (h4.2 (hdb rfl))]; rfl
    rw [this]
    rfl

/-- A run of the prover: its verdict in debug mode, and otherwise a proof that is judged by a polynomial. -/
theorem proveUser_run [DecidableEq GT] (e : G1 →ₗ[Fq] G2 →ₗ[Fq] GT) {g1 : G1} {g2 : G2} (he : e g1 g2 ≠ 0) {c : UserCircuit 0}
    {M : Matrices Fq} (hI : UserMatrices c M) (hne : c.NoConstantEqual #v[]) {d : Domain Fq} (hd : d.Good)
    (hs : c.constraints #v[] + 1 + c.publicValues.length ≤ d.size) {g : Fq} (hg : d.Coset g) :
    ∃ z : List Fq, (M.Satisfied (fun j => z.getD j 0) ↔ c.Accepts #v[] c.privateValues c.publicValues) ∧
      (∀ j, j < 1 + c.publicValues.length → z.getD j 0 = (1 :: c.publicValues).getD j 0) ∧
      ∀ (debug : Bool) (pk : ProvingKey G1 G2) (r s : Fq),
        (debug = true → ¬ c.Accepts #v[] c.privateValues c.publicValues → proveUser debug d g pk r s c = .error .assertFailed) ∧
        ((debug = true → c.Accepts #v[] c.privateValues c.publicValues) → ∀ w : Secrets Fq, w.Usable →
          pk = theKey d g1 g2 w M (1 + c.publicValues.length) (c.witnesses #v[]) →
          ∃ p, proveUser debug d g pk r s c = .ok p ∧ ∀ y : List Fq, y.length = c.publicValues.length → verify e pk.vk y p =
            .ok (decide ((rowsLeft d g M (1 + c.publicValues.length) z).eval w.tau +
              (publicLeft d M (1 + c.publicValues.length) w.alpha w.beta z (1 :: y)).eval w.tau = 0))) := by
  obtain ⟨aux, h3, -, h4, h5⟩ := proveUser_unfold (G1 := G1) (G2 := G2) hI hne
  refine ⟨1 :: c.publicValues ++ aux, h4, fun j hj => ?_, fun debug pk r s => ?_⟩
  · exact List.getD_append _ _ _ _ (by simp; omega)
  obtain ⟨h6, h7⟩ := h5 debug d g pk r s
  refine ⟨h6, fun hdb w hw hpk => ?_⟩
  subst hpk
  obtain ⟨h, q1, p, q2, q3⟩ := prove_verify e he hd hg (hI.shape hs) hw r s (x := c.publicValues) (y := aux) (by omega) h3
  refine ⟨p, ?_, fun y hy => q3 _ (by omega)⟩
  rw [h7 hdb, q1, ok_bind, q2]

end

end Groth16

end Poseidon
