import Verif.Proofs.Preimage
import Verif.Proofs.Arith

/-! # Circuits that use the circuit hashes -/

set_option linter.unusedSectionVars false

namespace Poseidon.R1cs

section
variable {F : Type} [Field F] [DecidableEq F]
variable {t tm1 nmds nhat rows cols nround npart : Nat}

theorem all_isVar_of_numVar {s : List (FpVar F)} (h : numVar s = s.length) : ∀ x ∈ s, x.isVar = true := by
  unfold numVar at h
  exact List.countP_eq_length.1 h

/-- Whatever the inputs, the returned variable is not a constant (given one pair of full rounds). -/
theorem nTo1FixedHash_isVar (p : Params F t tm1 nmds nhat rows cols nround npart) {e : Nat}
    (ha : p.alpha = .exponent e) (he : e < 2 ^ 64) (h0 : e ≠ 0) (ht : 0 < t) (hm : nmds = t * t)
    {n : Nat} (hn : p.rounds.full / 2 = n + 1) (inputs : Vector (FpVar F) t) (cs : CS F) :
    Ens (fun r => r.1.isVar = true) (nTo1FixedHash p inputs cs) := by
  have loop : ∀ (full : Bool) (m : Nat) (a : List (FpVar F) × Nat × CS F), a.1.length = t →
      Ens (fun r => r.1.length = t ∧ (0 < m → numVar r.1 = t)) (forRange 0 m a fun _ st => round p full st) := by
    intro full m a hl
    refine Ens.forRange (Inv := fun k (r : List (FpVar F) × Nat × CS F) => r.1.length = t ∧ (0 < k → numVar r.1 = t))
      (Nat.zero_le _) ⟨hl, fun h => absurd h (lt_irrefl _)⟩ ?_
    rintro k r _ _ ⟨h1, -⟩
    refine (round_count p ha he h0 ht hm full r h1).mono ?_
    rintro r' ⟨h4, h5, -⟩
    exact ⟨h4, fun _ => h5⟩
  unfold nTo1FixedHash
  refine Ens.bind (Q := fun r => ∀ x ∈ r.1, x.isVar = true) ?_ ?_
  · unfold permute
    simp only
    rw [hn]
    refine Ens.bind (loop true _ _ (by simp)) ?_
    rintro r ⟨h1, -⟩
    refine Ens.bind (loop false _ r h1) ?_
    rintro r' ⟨h4, -⟩
    refine Ens.bind (loop true _ r' h4) ?_
    rintro r'' ⟨h7, h8⟩
    refine Ens.ok (all_isVar_of_numVar ?_)
    rw [h8 (Nat.succ_pos _)]
    exact h7.symm
  · rintro ⟨s, cs'⟩ h
    refine Ens.bind (Q := fun x => x.isVar = true) ?_ fun x hx => Ens.ok hx
    intro x hx
    unfold lget at hx
    cases h1 : s[1]? with
    | none => rw [h1] at hx; cases hx
    | some y =>
      rw [h1] at hx
      cases hx
      exact h _ (List.mem_of_getElem? h1)

theorem FpVar.eval_agree {cs : CS F} {σ τ : Variable → F} (h : AgreeOn cs σ τ) {x : FpVar F} (hx : x.Known cs) :
    x.eval σ = x.eval τ := by
  cases x with
  | constant c => rfl
  | var v => exact LC.eval_agree h hx

/-! ### Allocations -/

theorem newWitness_eq (x : F) (cs : CS F) : newWitness (some x) cs =
    .ok (⟨if cs.setup then none else some x, [(1, .witness cs.numWitness)]⟩, { cs with
      numWitness := cs.numWitness + 1
      witnessAssignment := if cs.setup then cs.witnessAssignment else cs.witnessAssignment ++ [x] }) := by
  unfold newWitness
  cases h : cs.setup <;> simp

theorem newInput_eq (x : F) (cs : CS F) : newInput (some x) cs =
    .ok (⟨if cs.setup then none else some x, [(1, .input cs.numInstance)]⟩, { cs with
      numInstance := cs.numInstance + 1
      instanceAssignment := if cs.setup then cs.instanceAssignment else cs.instanceAssignment ++ [x] }) := by
  unfold newInput
  cases h : cs.setup <;> simp

theorem Variable.Known.of_le {cs cs' : CS F} (h1 : cs.numInstance ≤ cs'.numInstance) (h2 : cs.numWitness ≤ cs'.numWitness)
    {v : Variable} (h : v.Known cs) : v.Known cs' := by
  cases v with
  | one => trivial
  | input i => exact lt_of_lt_of_le h h1
  | witness i => exact lt_of_lt_of_le h h2

theorem WellFormed.of_le {cs cs' : CS F} (h1 : cs.numInstance ≤ cs'.numInstance) (h2 : cs.numWitness ≤ cs'.numWitness)
    (hc : cs'.constraints = cs.constraints) (h : WellFormed cs) : WellFormed cs' := by
  intro con hcon
  rw [hc] at hcon
  obtain ⟨a, b, c⟩ := h con hcon
  exact ⟨fun x hx => (a x hx).of_le h1 h2, fun x hx => (b x hx).of_le h1 h2, fun x hx => (c x hx).of_le h1 h2⟩

theorem enforceEqual_wellFormed {a b : FpVar F} {cs : CS F} (ha : a.Known cs) (hb : b.Known cs) (h : WellFormed cs) :
    WellFormed (a.enforceEqual b cs) := by
  have key : ∀ (u v : AllocatedFp F), LC.Known cs u.lc → LC.Known cs v.lc → WellFormed (u.enforceEqual v cs) := by
    intro u v hu hv con hcon
    rw [AllocatedFp.enforceEqual, enforce, List.mem_append, List.mem_singleton] at hcon
    rcases hcon with hcon | rfl
    · exact h con hcon
    · refine ⟨fun x hx => ?_, fun x hx => ?_, fun x hx => absurd hx List.not_mem_nil⟩
      · rcases List.mem_append.1 hx with hx | hx
        · exact hu x hx
        · obtain ⟨z, hz, rfl⟩ := List.mem_map.1 hx
          exact hv z hz
      · rw [List.mem_singleton.1 hx]; trivial
  have kc : ∀ c : F, LC.Known cs [(c, Variable.one)] := by
    intro c x hx
    rw [List.mem_singleton.1 hx]; trivial
  cases a with
  | constant c =>
    cases b with
    | constant d => exact h
    | var w => exact key _ _ (kc c) hb
  | var v =>
    cases b with
    | constant d => exact key _ _ (kc d) ha
    | var w => exact key _ _ ha hb

/-- An equality that is not between constants is enforced. -/
theorem enforceEqual_sat' {σ : Variable → F} {a b : FpVar F} (h : a.isVar = true ∨ b.isVar = true) (cs : CS F) :
    Satisfies σ (a.enforceEqual b cs) ↔ Satisfies σ cs ∧ a.eval σ = b.eval σ := by
  cases a with
  | var v => exact enforceEqual_sat rfl b cs
  | constant c =>
    cases b with
    | constant d => rcases h with h | h <;> cases h
    | var w =>
      have h1 := enforceEqual_sat (σ := σ) (a := .var w) rfl (.constant c) cs
      exact h1.trans (and_congr_right fun _ => eq_comm)

theorem enforceEqual_sat_of_eq {σ : Variable → F} {a b : FpVar F} {cs : CS F} (hs : Satisfies σ cs)
    (h : a.eval σ = b.eval σ) : Satisfies σ (a.enforceEqual b cs) := by
  by_cases hv : a.isVar = true ∨ b.isVar = true
  · exact (enforceEqual_sat' hv cs).2 ⟨hs, h⟩
  · cases a with
    | var v => exact absurd (Or.inl rfl) hv
    | constant c =>
      cases b with
      | var v => exact absurd (Or.inr rfl) hv
      | constant d => exact hs

theorem enforceEqual_count (a b : FpVar F) (cs : CS F) :
    (a.enforceEqual b cs).constraints.length = cs.constraints.length + if a.isVar || b.isVar then 1 else 0 := by
  cases a <;> cases b <;> simp [FpVar.enforceEqual, AllocatedFp.enforceEqual, enforce, FpVar.isVar]

end

/-! ### The seven hashes -/

theorem vec2 {α : Type} (w : Vector α 2) : #v[w[0], w[1]] = w := by
  ext j hj; match j, hj with | 0, _ => rfl | 1, _ => rfl
theorem vec3 {α : Type} (w : Vector α 3) : #v[w[0], w[1], w[2]] = w := by
  ext j hj; match j, hj with | 0, _ => rfl | 1, _ => rfl | 2, _ => rfl
theorem vec4 {α : Type} (w : Vector α 4) : #v[w[0], w[1], w[2], w[3]] = w := by
  ext j hj; match j, hj with | 0, _ => rfl | 1, _ => rfl | 2, _ => rfl | 3, _ => rfl
theorem vec5 {α : Type} (w : Vector α 5) : #v[w[0], w[1], w[2], w[3], w[4]] = w := by
  ext j hj; match j, hj with | 0, _ => rfl | 1, _ => rfl | 2, _ => rfl | 3, _ => rfl | 4, _ => rfl
theorem vec6 {α : Type} (w : Vector α 6) : #v[w[0], w[1], w[2], w[3], w[4], w[5]] = w := by
  ext j hj; match j, hj with | 0, _ => rfl | 1, _ => rfl | 2, _ => rfl | 3, _ => rfl | 4, _ => rfl | 5, _ => rfl
theorem vec7 {α : Type} (w : Vector α 7) : #v[w[0], w[1], w[2], w[3], w[4], w[5], w[6]] = w := by
  ext j hj
  match j, hj with | 0, _ => rfl | 1, _ => rfl | 2, _ => rfl | 3, _ => rfl | 4, _ => rfl | 5, _ => rfl | 6, _ => rfl
theorem vec8 {α : Type} (w : Vector α 8) : #v[w[0], w[1], w[2], w[3], w[4], w[5], w[6], w[7]] = w := by
  ext j hj
  match j, hj with
  | 0, _ => rfl | 1, _ => rfl | 2, _ => rfl | 3, _ => rfl | 4, _ => rfl | 5, _ => rfl | 6, _ => rfl | 7, _ => rfl

theorem callHash_eq (i : Fin 7) (w : Vector (FpVar Fq) (i.val + 2)) (cs : CS Fq) :
    callHash i w cs = nTo1FixedHash (shippedParams i) w cs := by
  match i, w with
  | 0, w => exact congrArg (fun v => nTo1FixedHash rate1Params v cs) (vec2 w)
  | 1, w => exact congrArg (fun v => nTo1FixedHash rate2Params v cs) (vec3 w)
  | 2, w => exact congrArg (fun v => nTo1FixedHash rate3Params v cs) (vec4 w)
  | 3, w => exact congrArg (fun v => nTo1FixedHash rate4Params v cs) (vec5 w)
  | 4, w => exact congrArg (fun v => nTo1FixedHash rate5Params v cs) (vec6 w)
  | 5, w => exact congrArg (fun v => nTo1FixedHash rate6Params v cs) (vec7 w)
  | 6, w => exact congrArg (fun v => nTo1FixedHash rate7Params v cs) (vec8 w)

/-- The digest alone. -/
def digest (i : Fin 7) (w : Vector Fq (i.val + 2)) : R Fq := do
  let (d, _) ← (Instance.new (shippedParams i)).nTo1FixedHash w
  return d

theorem nativeHash_eq (i : Fin 7) (w : Vector Fq (i.val + 2)) : nativeHash i w = digest i w := by
  match i, w with
  | 0, w => exact congrArg (digest 0) (vec2 w)
  | 1, w => exact congrArg (digest 1) (vec3 w)
  | 2, w => exact congrArg (digest 2) (vec4 w)
  | 3, w => exact congrArg (digest 3) (vec5 w)
  | 4, w => exact congrArg (digest 4) (vec6 w)
  | 5, w => exact congrArg (digest 5) (vec7 w)
  | 6, w => exact congrArg (digest 6) (vec8 w)

theorem nativeHash_iff (i : Fin 7) (w : Vector Fq (i.val + 2)) (d : Fq) : nativeHash i w = .ok d ↔ Block.Hashes i w d := by
  rw [nativeHash_eq, digest, Block.Hashes]
  cases h : (Instance.new (shippedParams i)).nTo1FixedHash w with
  | error e =>
    constructor
    · intro h; cases h
    · rintro ⟨_, h⟩; cases h
  | ok r =>
    obtain ⟨x, inst⟩ := r
    constructor
    · intro h; cases h; exact ⟨_, rfl⟩
    · rintro ⟨_, h⟩; cases h; rfl

theorem callHash_isVar {i : Fin 7} {w : Vector (FpVar Fq) (i.val + 2)} {cs cs' : CS Fq} {d : FpVar Fq}
    (h : callHash i w cs = .ok (d, cs')) : d.isVar = true := by
  rw [callHash_eq] at h
  exact nTo1FixedHash_isVar (n := 3) _ (shipped_alpha i) (by norm_num) (by norm_num) (by omega) rfl
    (by simp [RoundNumbers.full, shipped_rounds]) w cs _ h

theorem callHash_sound {i : Fin 7} {w : Vector (FpVar Fq) (i.val + 2)} {cs cs' : CS Fq} {d : FpVar Fq}
    (h : callHash i w cs = .ok (d, cs')) {σ : Variable → Fq} (hσ : Satisfies σ cs') :
    nativeHash i (w.map (FpVar.eval σ)) = .ok (d.eval σ) := by
  rw [callHash_eq] at h
  exact (nativeHash_iff _ _ _).2 (C13_circuit_native i w cs cs' d h σ hσ)

/-! ### Induction over the circuit -/

theorem words_map {α β : Type} {n m : Nat} (words : Vector (Fin n) m) (vars : Vector α n) (f : α → β) :
    (words.map fun k => vars[k]).map f = words.map fun k => (vars.map f)[k] := by
  ext j hj
  simp

theorem words_count {α : Type} {n m : Nat} (words : Vector (Fin n) m) (vars : Vector α n) (f : α → Bool) :
    (words.map fun k => vars[k]).toList.countP f = words.toList.countP fun k => (vars.map f)[k] := by
  rw [Vector.toList_map, List.countP_map]
  congr 1
  funext k
  simp

namespace UserCircuit

theorem publicsOf_succ (σ : Variable → Fq) (s l : Nat) :
    publicsOf σ s (l + 1) = σ (.input s) :: publicsOf σ (s + 1) l := by
  unfold publicsOf
  rw [List.range_succ_eq_map, List.map_cons, List.map_map]
  congr 1
  apply List.map_congr_left
  intro j _
  show σ (.input (s + (j + 1))) = _
  rw [show s + (j + 1) = s + 1 + j by omega]

theorem publicsOf_zero (σ : Variable → Fq) (s : Nat) : publicsOf σ s 0 = [] := rfl

/-- What the synthesis of a circuit does, whatever the mode. -/
structure Link {n : Nat} (c : UserCircuit n) (vars : Vector (FpVar Fq) n) (cs cs' : CS Fq) : Prop where
  pre : cs.constraints <+: cs'.constraints
  wellFormed : WellFormed cs'
  setup : cs'.setup = cs.setup
  numInstance : cs'.numInstance = cs.numInstance + c.publicValues.length
  numWitness : cs'.numWitness = cs.numWitness + c.witnesses (vars.map FpVar.isVar)
  length : cs'.constraints.length = cs.constraints.length + c.constraints (vars.map FpVar.isVar)
  sound : ∀ σ, Satisfies σ cs' → c.NoConstantEqual (vars.map FpVar.isVar) →
    c.Accepts (vars.map (FpVar.eval σ)) ((c.privateAt (vars.map FpVar.isVar) cs.numWitness).map fun j => σ (.witness j))
      (publicsOf σ cs.numInstance c.publicValues.length)
  exist : ∀ σ w y, Satisfies σ cs → c.Accepts (vars.map (FpVar.eval σ)) w y → ∃ τ, Satisfies τ cs' ∧ AgreeOn cs σ τ ∧
    ((c.privateAt (vars.map FpVar.isVar) cs.numWitness).map fun j => τ (.witness j)) = w ∧
    publicsOf τ cs.numInstance c.publicValues.length = y
  unique : ∀ σ τ, Satisfies σ cs' → Satisfies τ cs' → AgreeOn cs σ τ →
    ((c.privateAt (vars.map FpVar.isVar) cs.numWitness).map fun j => σ (.witness j)) =
      ((c.privateAt (vars.map FpVar.isVar) cs.numWitness).map fun j => τ (.witness j)) →
    publicsOf σ cs.numInstance c.publicValues.length = publicsOf τ cs.numInstance c.publicValues.length → AgreeOn cs' σ τ

theorem known_push {n : Nat} {vars : Vector (FpVar Fq) n} {cs cs1 : CS Fq} {x : FpVar Fq}
    (h1 : cs.numInstance ≤ cs1.numInstance) (h2 : cs.numWitness ≤ cs1.numWitness)
    (hk : ∀ v ∈ vars, v.Known cs) (hx : x.Known cs1) : ∀ v ∈ vars.push x, v.Known cs1 := by
  intro v hv
  rcases Vector.mem_push.1 hv with hv | rfl
  · exact (hk v hv).of_le h1 h2
  · exact hx

theorem eval_vars {n : Nat} {vars : Vector (FpVar Fq) n} {cs : CS Fq} {σ τ : Variable → Fq} (hk : ∀ v ∈ vars, v.Known cs)
    (h : AgreeOn cs σ τ) : vars.map (FpVar.eval σ) = vars.map (FpVar.eval τ) := by
  apply Vector.map_congr_left
  intro v hv
  exact FpVar.eval_agree h (hk v hv)

theorem AgreeOn.of_le {cs cs' : CS Fq} (h1 : cs.numInstance ≤ cs'.numInstance) (h2 : cs.numWitness ≤ cs'.numWitness)
    {σ τ : Variable → Fq} (h : AgreeOn cs' σ τ) : AgreeOn cs σ τ := fun v hv => h v (hv.of_le h1 h2)

theorem AgreeOn.trans' {cs : CS Fq} {σ τ υ : Variable → Fq} (h : AgreeOn cs σ τ) (h' : AgreeOn cs τ υ) : AgreeOn cs σ υ :=
  fun v hv => (h v hv).trans (h' v hv)

theorem link {n : Nat} (c : UserCircuit n) : ∀ (vars : Vector (FpVar Fq) n) (cs cs' : CS Fq), (∀ v ∈ vars, v.Known cs) →
    WellFormed cs → c.generate vars cs = .ok cs' → c.Link vars cs cs' := by
  induction c with
  | done =>
    intro vars cs cs' hk hw h
    cases h
    exact ⟨List.prefix_rfl, hw, rfl, rfl, rfl, rfl, fun _ _ _ => ⟨rfl, rfl⟩,
      fun σ w y hσ ha => ⟨σ, hσ, fun _ _ => rfl, ha.1.symm, ha.2.symm⟩, fun _ _ _ _ h _ _ => h⟩
  | constant x next ih =>
    intro vars cs cs' hk hw h
    have l := ih (vars.push (.constant x)) cs cs' (known_push le_rfl le_rfl hk trivial) hw h
    have e : ∀ {β : Type} (f : FpVar Fq → β), (vars.push (.constant x)).map f = (vars.map f).push (f (.constant x)) :=
      fun f => Vector.map_push
    obtain ⟨h1, h2, h3, h4, h5, h6, h7, h8, h9⟩ := l
    simp only [e] at h5 h6 h7 h8 h9
    exact ⟨h1, h2, h3, h4, h5, h6, h7, h8, h9⟩
  | witness x next ih =>
    intro vars cs cs' hk hw h
    rw [generate, newWitness_eq, ok_bind] at h
    dsimp only at h
    generalize hv : (FpVar.var ⟨if cs.setup = true then none else some x, [(1, Variable.witness cs.numWitness)]⟩ : FpVar Fq) = v at h
    generalize hc1 : ({ cs with
      numWitness := cs.numWitness + 1
      witnessAssignment := if cs.setup then cs.witnessAssignment else cs.witnessAssignment ++ [x] } : CS Fq) = cs1 at h
    have n1 : cs1.numInstance = cs.numInstance := by rw [← hc1]
    have n2 : cs1.numWitness = cs.numWitness + 1 := by rw [← hc1]
    have n3 : cs1.constraints = cs.constraints := by rw [← hc1]
    have n4 : cs1.setup = cs.setup := by rw [← hc1]
    have hve : ∀ σ : Variable → Fq, v.eval σ = σ (.witness cs.numWitness) := by
      intro σ; rw [← hv, FpVar.eval, LC.eval_single, one_mul]
    have hvi : v.isVar = true := by rw [← hv]; rfl
    have hvk : v.Known cs1 := by
      rw [← hv]
      intro z hz
      rw [List.mem_singleton.1 hz]
      show cs.numWitness < cs1.numWitness
      omega
    obtain ⟨h1, h2, h3, h4, h5, h6, h7, h8, h9⟩ := ih (vars.push v) cs1 cs' (known_push (by omega) (by omega) hk hvk)
      (hw.of_le (by omega) (by omega) n3) h
    simp only [Vector.map_push, hvi, n1, n2, hve] at h4 h5 h6 h7 h8 h9
    rw [n3] at h1 h6
    refine ⟨h1, h2, h3.trans n4, h4, ?_, h6, ?_, ?_, ?_⟩
    · rw [h5, witnesses]; omega
    · intro σ hσ hn
      exact ⟨_, _, rfl, h7 σ hσ hn⟩
    · rintro σ _ y hσ ⟨a, w, rfl, ha⟩
      let σ1 : Variable → Fq := Function.update σ (.witness cs.numWitness) a
      have hag : AgreeOn cs σ σ1 := by
        intro u hu
        have : u ≠ .witness cs.numWitness := by rintro rfl; exact Nat.lt_irrefl _ hu
        simp only [σ1, Function.update_of_ne this]
      have hs1 : σ1 (.witness cs.numWitness) = a := Function.update_self ..
      obtain ⟨τ, t1, t2, t3, t4⟩ := h8 σ1 w y
        (by have := Satisfies.agree hw hag hσ; exact ⟨this.1, by rw [n3]; exact this.2⟩)
        (by rw [hs1, ← eval_vars hk hag]; exact ha)
      refine ⟨τ, t1, AgreeOn.trans' hag (AgreeOn.of_le (by omega) (by omega) t2), ?_, t4⟩
      rw [privateAt, List.map_cons, t3, ← t2 (.witness cs.numWitness) (show _ < cs1.numWitness by omega), hs1]
    · intro σ τ hσ hτ hag hp hq
      rw [privateAt, List.map_cons, List.map_cons, List.cons.injEq] at hp
      refine h9 σ τ hσ hτ ?_ hp.2 hq
      intro u hu
      cases u with
      | one => exact hag _ trivial
      | input j => exact hag (.input j) (show j < cs.numInstance from lt_of_lt_of_eq hu n1)
      | witness j =>
        have hj : j < cs.numWitness + 1 := lt_of_lt_of_eq hu n2
        rcases Nat.lt_succ_iff_lt_or_eq.1 hj with h' | rfl
        · exact hag (.witness j) h'
        · exact hp.1
  | input x next ih =>
    intro vars cs cs' hk hw h
    rw [generate, newInput_eq, ok_bind] at h
    dsimp only at h
    generalize hv : (FpVar.var ⟨if cs.setup = true then none else some x, [(1, Variable.input cs.numInstance)]⟩ : FpVar Fq) = v at h
    generalize hc1 : ({ cs with
      numInstance := cs.numInstance + 1
      instanceAssignment := if cs.setup then cs.instanceAssignment else cs.instanceAssignment ++ [x] } : CS Fq) = cs1 at h
    have n1 : cs1.numInstance = cs.numInstance + 1 := by rw [← hc1]
    have n2 : cs1.numWitness = cs.numWitness := by rw [← hc1]
    have n3 : cs1.constraints = cs.constraints := by rw [← hc1]
    have n4 : cs1.setup = cs.setup := by rw [← hc1]
    have hve : ∀ σ : Variable → Fq, v.eval σ = σ (.input cs.numInstance) := by
      intro σ; rw [← hv, FpVar.eval, LC.eval_single, one_mul]
    have hvi : v.isVar = true := by rw [← hv]; rfl
    have hvk : v.Known cs1 := by
      rw [← hv]
      intro z hz
      rw [List.mem_singleton.1 hz]
      show cs.numInstance < cs1.numInstance
      omega
    obtain ⟨h1, h2, h3, h4, h5, h6, h7, h8, h9⟩ := ih (vars.push v) cs1 cs' (known_push (by omega) (by omega) hk hvk)
      (hw.of_le (by omega) (by omega) n3) h
    simp only [Vector.map_push, hvi, n1, n2, hve] at h4 h5 h6 h7 h8 h9
    rw [n3] at h1 h6
    refine ⟨h1, h2, h3.trans n4, ?_, h5, h6, ?_, ?_, ?_⟩
    · rw [h4, publicValues, List.length_cons]; omega
    · intro σ hσ hn
      rw [publicValues, List.length_cons, publicsOf_succ]
      exact ⟨_, _, rfl, h7 σ hσ hn⟩
    · rintro σ w _ hσ ⟨a, y, rfl, ha⟩
      let σ1 : Variable → Fq := Function.update σ (.input cs.numInstance) a
      have hag : AgreeOn cs σ σ1 := by
        intro u hu
        have : u ≠ .input cs.numInstance := by rintro rfl; exact Nat.lt_irrefl _ hu
        simp only [σ1, Function.update_of_ne this]
      have hs1 : σ1 (.input cs.numInstance) = a := Function.update_self ..
      obtain ⟨τ, t1, t2, t3, t4⟩ := h8 σ1 w y
        (by have := Satisfies.agree hw hag hσ; exact ⟨this.1, by rw [n3]; exact this.2⟩)
        (by rw [hs1, ← eval_vars hk hag]; exact ha)
      refine ⟨τ, t1, AgreeOn.trans' hag (AgreeOn.of_le (by omega) (by omega) t2), t3, ?_⟩
      rw [publicValues, List.length_cons, publicsOf_succ, t4,
        ← t2 (.input cs.numInstance) (show _ < cs1.numInstance by omega), hs1]
    · intro σ τ hσ hτ hag hp hq
      rw [publicValues, List.length_cons, publicsOf_succ, publicsOf_succ, List.cons.injEq] at hq
      refine h9 σ τ hσ hτ ?_ hp hq.2
      intro u hu
      cases u with
      | one => exact hag _ trivial
      | witness j => exact hag (.witness j) (show j < cs.numWitness from lt_of_lt_of_eq hu n2)
      | input j =>
        have hj : j < cs.numInstance + 1 := lt_of_lt_of_eq hu n1
        rcases Nat.lt_succ_iff_lt_or_eq.1 hj with h' | rfl
        · exact hag (.input j) h'
        · exact hq.1
  | hash i words next ih =>
    intro vars cs cs' hk hw h
    rw [generate] at h
    cases hh : callHash i (words.map fun k => vars[k]) cs with
    | error e => rw [hh] at h; cases h
    | ok r =>
      obtain ⟨d, cs1⟩ := r
      rw [hh, ok_bind] at h
      dsimp only at h
      have hd := callHash_isVar hh
      have hsnd : ∀ σ : Variable → Fq, Satisfies σ cs1 →
          nativeHash i (words.map fun k => (vars.map (FpVar.eval σ))[k]) = .ok (d.eval σ) := by
        intro σ hσ
        rw [← words_map]
        exact callHash_sound hh hσ
      have hh' := hh
      rw [callHash_eq] at hh'
      obtain ⟨hg, hdk⟩ := nTo1FixedHash_grows _ _ _ (fun j => by
        rw [Fin.getElem_fin, Vector.getElem_map]
        exact hk _ (Vector.getElem_mem _)) _ hh'
      obtain ⟨s1, s2, s3⟩ := C12_shipped _ _ _ _ _ hh'
      rw [words_count] at s1 s2
      have hcost : 5 * (words.toList.countP (fun k => (vars.map FpVar.isVar)[k]) + 7 * (i.val + 2) + 31) =
        hashCost i words (vars.map FpVar.isVar) := rfl
      rw [hcost] at s1 s2
      obtain ⟨h1, h2, h3, h4, h5, h6, h7, h8, h9⟩ := ih (vars.push d) cs1 cs'
        (known_push hg.numInstance.ge hg.numWitness hk hdk) (hg.wellFormed hw) h
      simp only [Vector.map_push, hd] at h4 h5 h6 h7 h8 h9
      rw [s3] at h4 h7 h8 h9
      rw [s2] at h5 h7 h8 h9
      refine ⟨hg.constraints.trans h1, h2, h3.trans hg.setup, h4, ?_, ?_, ?_, ?_, ?_⟩
      · rw [h5, witnesses]; omega
      · rw [h6, s1, constraints]; omega
      · intro σ hσ hn
        exact ⟨d.eval σ, hsnd σ (hσ.of_prefix h1), h7 σ hσ hn⟩
      · rintro σ w y hσ ⟨a, ha1, ha2⟩
        obtain ⟨σ1, g1, g2⟩ := hg.extend hw hσ
        have hag : AgreeOn cs σ σ1 := fun u hu => (g2 u (Or.inl hu)).symm
        have hda := hsnd σ1 g1
        rw [← eval_vars hk hag, ha1] at hda
        have hda : a = d.eval σ1 := Except.ok.inj hda
        obtain ⟨τ, t1, t2, t3, t4⟩ := h8 σ1 w y g1 (by rw [← hda, ← eval_vars hk hag]; exact ha2)
        exact ⟨τ, t1, AgreeOn.trans' hag (AgreeOn.of_le hg.numInstance.ge hg.numWitness t2), t3, t4⟩
      · intro σ τ hσ hτ hag hp hq
        exact h9 σ τ hσ hτ (hg.unique (hσ.of_prefix h1) (hτ.of_prefix h1) hag) hp hq
  | arith op a b next ih =>
    intro vars cs cs' hk hw h
    rw [generate] at h
    cases hh : op.run vars[a] vars[b] cs with
    | error e => rw [hh] at h; cases h
    | ok r =>
      obtain ⟨d, cs1⟩ := r
      rw [hh, ok_bind] at h
      dsimp only at h
      have ea : ∀ {β : Type} (f : FpVar Fq → β) (j : Fin _), (vars.map f)[j] = f vars[j] := fun f j => by simp
      have hd : d.isVar = ((vars.map FpVar.isVar)[a] || (vars.map FpVar.isVar)[b]) := by
        rw [ea, ea]; exact arith_isVar hh
      have hsnd : ∀ σ : Variable → Fq, Satisfies σ cs1 →
          d.eval σ = op.native (vars.map (FpVar.eval σ))[a] (vars.map (FpVar.eval σ))[b] := by
        intro σ hσ
        rw [ea, ea]
        exact arith_sound hh hσ
      obtain ⟨hg, hdk⟩ := arith_grows (hk _ (Vector.getElem_mem _)) (hk _ (Vector.getElem_mem _)) hh
      have hcnt := arith_count hh
      rw [← ea FpVar.isVar, ← ea FpVar.isVar] at hcnt
      obtain ⟨s1, s2, s3⟩ := hcnt
      obtain ⟨h1, h2, h3, h4, h5, h6, h7, h8, h9⟩ := ih (vars.push d) cs1 cs'
        (known_push hg.numInstance.ge hg.numWitness hk hdk) (hg.wellFormed hw) h
      rw [Vector.map_push, hd] at h5 h6
      simp only [Vector.map_push, hd] at h7 h8 h9
      rw [s3] at h4 h7 h8 h9
      rw [s2] at h5 h7 h8 h9
      refine ⟨hg.constraints.trans h1, h2, h3.trans hg.setup, h4, ?_, ?_, ?_, ?_, ?_⟩
      · rw [h5, witnesses]; omega
      · rw [h6, s1, constraints]; omega
      · intro σ hσ hn
        have := h7 σ hσ hn
        rw [hsnd σ (hσ.of_prefix h1)] at this
        exact this
      · intro σ w y hσ ha
        obtain ⟨σ1, g1, g2⟩ := hg.extend hw hσ
        have hag : AgreeOn cs σ σ1 := fun u hu => (g2 u (Or.inl hu)).symm
        obtain ⟨τ, t1, t2, t3, t4⟩ := h8 σ1 w y g1 (by rw [hsnd σ1 g1, ← eval_vars hk hag]; exact ha)
        exact ⟨τ, t1, AgreeOn.trans' hag (AgreeOn.of_le hg.numInstance.ge hg.numWitness t2), t3, t4⟩
      · intro σ τ hσ hτ hag hp hq
        exact h9 σ τ hσ hτ (hg.unique (hσ.of_prefix h1) (hτ.of_prefix h1) hag) hp hq
  | equal a b next ih =>
    intro vars cs cs' hk hw h
    rw [generate] at h
    have hv := enforceEqual_vars vars[a] vars[b] cs
    have n4 : (vars[a].enforceEqual vars[b] cs).setup = cs.setup := congrArg (fun x => x.1) hv
    have n1 : (vars[a].enforceEqual vars[b] cs).numInstance = cs.numInstance := congrArg (fun x => x.2.1) hv
    have n2 : (vars[a].enforceEqual vars[b] cs).numWitness = cs.numWitness := congrArg (fun x => x.2.2.1) hv
    have n3 := enforceEqual_prefix vars[a] vars[b] cs
    have n5 := enforceEqual_count vars[a] vars[b] cs
    have ka : vars[a].Known cs := hk _ (Vector.getElem_mem _)
    have kb : vars[b].Known cs := hk _ (Vector.getElem_mem _)
    have ea : ∀ {β : Type} (f : FpVar Fq → β) (j : Fin _), (vars.map f)[j] = f vars[j] := fun f j => by simp
    obtain ⟨h1, h2, h3, h4, h5, h6, h7, h8, h9⟩ := ih vars _ cs'
      (fun v hv => (hk v hv).of_le n1.ge n2.ge) (enforceEqual_wellFormed ka kb hw) h
    rw [n1] at h4 h7 h8 h9
    rw [n2] at h5 h7 h8 h9
    refine ⟨n3.trans h1, h2, h3.trans n4, h4, h5, ?_, ?_, ?_, ?_⟩
    · rw [h6, n5, constraints, ea, ea]; omega
    · rintro σ hσ ⟨hn1, hn2⟩
      rw [ea, ea] at hn1
      refine ⟨?_, h7 σ hσ hn2⟩
      rw [ea, ea]
      exact ((enforceEqual_sat' hn1 cs).1 (hσ.of_prefix h1)).2
    · rintro σ w y hσ ⟨ha1, ha2⟩
      rw [ea, ea] at ha1
      obtain ⟨τ, t1, t2, t3, t4⟩ := h8 σ w y (enforceEqual_sat_of_eq hσ ha1) ha2
      exact ⟨τ, t1, AgreeOn.of_le n1.ge n2.ge t2, t3, t4⟩
    · intro σ τ hσ hτ hag hp hq
      exact h9 σ τ hσ hτ (AgreeOn.of_le n1.le n2.le hag) hp hq

/-- Constants only: the hash panics. -/
theorem callHash_constants {i : Fin 7} {w : Vector (FpVar Fq) (i.val + 2)} {cs : CS Fq} (h : ∀ x ∈ w, x.isVar = false) :
    ∃ e, callHash i w cs = .error e := by
  have hw : w = (w.map (FpVar.eval fun _ => 0)).map FpVar.constant := by
    rw [Vector.map_map]
    ext j hj
    have := h w[j] (Vector.getElem_mem _)
    rw [Vector.getElem_map, Function.comp]
    cases hx : w[j] with
    | constant c => rfl
    | var v => rw [hx] at this; cases this
  rw [callHash_eq, hw]
  exact C47_shipped i _ cs

theorem some_var {n : Nat} {i : Fin 7} {words : Vector (Fin n) (i.val + 2)} {vars : Vector (FpVar Fq) n}
    (h : ∃ j ∈ words, (vars.map FpVar.isVar)[j] = true) :
    ∃ j : Fin (i.val + 2), (words.map fun k => vars[k])[j].isVar = true := by
  obtain ⟨j, hj, hv⟩ := h
  obtain ⟨m, hm, rfl⟩ := Vector.getElem_of_mem hj
  refine ⟨⟨m, hm⟩, ?_⟩
  simpa using hv

/-- A run that ends does not hash constants only. -/
theorem noConstantHash_of_ok {n : Nat} (c : UserCircuit n) : ∀ (vars : Vector (FpVar Fq) n) (cs cs' : CS Fq),
    c.generate vars cs = .ok cs' → c.NoConstantHash (vars.map FpVar.isVar) := by
  induction c with
  | done => intro _ _ _ _; trivial
  | constant x next ih =>
    intro vars cs cs' h
    have := ih _ _ _ h
    rw [Vector.map_push] at this
    exact this
  | witness x next ih =>
    intro vars cs cs' h
    rw [generate, newWitness_eq, ok_bind] at h
    have := ih _ _ _ h
    rw [Vector.map_push] at this
    exact this
  | input x next ih =>
    intro vars cs cs' h
    rw [generate, newInput_eq, ok_bind] at h
    have := ih _ _ _ h
    rw [Vector.map_push] at this
    exact this
  | hash i words next ih =>
    intro vars cs cs' h
    rw [generate] at h
    cases hh : callHash i (words.map fun k => vars[k]) cs with
    | error e => rw [hh] at h; cases h
    | ok r =>
      obtain ⟨d, cs1⟩ := r
      rw [hh, ok_bind] at h
      have := ih _ _ _ h
      rw [Vector.map_push, callHash_isVar hh] at this
      refine ⟨?_, this⟩
      by_contra hn
      push Not at hn
      obtain ⟨e, he⟩ := callHash_constants (i := i) (w := words.map fun k => vars[k]) (cs := cs) (by
        intro x hx
        obtain ⟨j, hj, rfl⟩ := Vector.mem_map.1 hx
        have := hn j hj
        rw [Fin.getElem_fin, Vector.getElem_map] at this
        exact Bool.not_eq_true _ ▸ this)
      rw [hh] at he
      cases he
  | arith op a b next ih =>
    intro vars cs cs' h
    rw [generate] at h
    cases hh : op.run vars[a] vars[b] cs with
    | error e => rw [hh] at h; cases h
    | ok r =>
      obtain ⟨d, cs1⟩ := r
      rw [hh, ok_bind] at h
      have := ih _ _ _ h
      have ea : ∀ j : Fin _, (vars.map FpVar.isVar)[j] = vars[j].isVar := fun j => by simp
      rw [Vector.map_push, arith_isVar hh, ← ea, ← ea] at this
      exact this
  | equal a b next ih =>
    intro vars cs cs' h
    exact ih _ _ _ h

/-- Synthesis without values succeeds. -/
theorem generate_setup {n : Nat} (c : UserCircuit n) : ∀ (vars : Vector (FpVar Fq) n) (cs : CS Fq), (∀ v ∈ vars, v.Known cs) →
    cs.setup = true → c.NoConstantHash (vars.map FpVar.isVar) → ∃ cs', c.generate vars cs = .ok cs' := by
  induction c with
  | done => intro _ cs _ _ _; exact ⟨cs, rfl⟩
  | constant x next ih =>
    intro vars cs hk hs hn
    exact ih (vars.push (.constant x)) cs (known_push le_rfl le_rfl hk trivial) hs (by rw [Vector.map_push]; exact hn)
  | witness x next ih =>
    intro vars cs hk hs hn
    rw [generate, newWitness_eq, ok_bind]
    refine ih _ _ (known_push (cs := cs) le_rfl (Nat.le_succ _) hk ?_) hs (by rw [Vector.map_push]; exact hn)
    intro z hz
    rw [List.mem_singleton.1 hz]
    exact Nat.lt_succ_self _
  | input x next ih =>
    intro vars cs hk hs hn
    rw [generate, newInput_eq, ok_bind]
    refine ih _ _ (known_push (cs := cs) (Nat.le_succ _) le_rfl hk ?_) hs (by rw [Vector.map_push]; exact hn)
    intro z hz
    rw [List.mem_singleton.1 hz]
    exact Nat.lt_succ_self _
  | hash i words next ih =>
    rintro vars cs hk hs ⟨hn1, hn2⟩
    obtain ⟨d, cs1, hh'⟩ := C11_shipped_setup i (words.map fun k => vars[k]) cs hs (some_var hn1)
    have hh : callHash i (words.map fun k => vars[k]) cs = .ok (d, cs1) := by rw [callHash_eq]; exact hh'
    rw [generate, hh, ok_bind]
    obtain ⟨hg, hdk⟩ := nTo1FixedHash_grows _ _ _ (fun j => by
        rw [Fin.getElem_fin, Vector.getElem_map]
        exact hk _ (Vector.getElem_mem _)) _ hh'
    exact ih _ _ (known_push hg.numInstance.ge hg.numWitness hk hdk) (hg.setup.trans hs)
      (by rw [Vector.map_push, callHash_isVar hh]; exact hn2)
  | arith op a b next ih =>
    intro vars cs hk hs hn
    obtain ⟨⟨d, cs1⟩, hh, hset, hd, -⟩ := arith_complete op (cs := cs) (a := vars[a]) (b := vars[b]) (x := 0) (y := 0)
      fun h => by rw [hs] at h; cases h
    rw [generate, hh, ok_bind]
    obtain ⟨hg, hdk⟩ := arith_grows (hk _ (Vector.getElem_mem _)) (hk _ (Vector.getElem_mem _)) hh
    have ea : ∀ j : Fin _, (vars.map FpVar.isVar)[j] = vars[j].isVar := fun j => by simp
    exact ih _ _ (known_push hg.numInstance.ge hg.numWitness hk hdk) (hg.setup.trans hs)
      (by rw [Vector.map_push, arith_isVar hh, ← ea, ← ea]; exact hn)
  | equal a b next ih =>
    intro vars cs hk hs hn
    have hv := enforceEqual_vars vars[a] vars[b] cs
    have n4 : (vars[a].enforceEqual vars[b] cs).setup = cs.setup := congrArg (fun x => x.1) hv
    have n1 : (vars[a].enforceEqual vars[b] cs).numInstance = cs.numInstance := congrArg (fun x => x.2.1) hv
    have n2 : (vars[a].enforceEqual vars[b] cs).numWitness = cs.numWitness := congrArg (fun x => x.2.2.1) hv
    exact ih vars _ (fun v hv => (hk v hv).of_le n1.ge n2.ge) (n4.trans hs) hn

/-- A run with values and the run without values emit the same system. -/
theorem generate_shape {n : Nat} (c : UserCircuit n) : ∀ (vars : Vector (FpVar Fq) n) (cs cs' : CS Fq),
    c.generate vars cs = .ok cs' → c.blank.generate (vars.map FpVar.shape) cs.shape = .ok cs'.shape := by
  induction c with
  | done => intro vars cs cs' h; cases h; rfl
  | constant x next ih =>
    intro vars cs cs' h
    have := ih _ _ _ h
    rw [Vector.map_push] at this
    exact this
  | witness x next ih =>
    intro vars cs cs' h
    rw [generate, newWitness_eq, ok_bind] at h
    have := ih _ _ _ h
    rw [Vector.map_push] at this
    rw [blank, generate, newWitness_eq, ok_bind]
    exact this
  | input x next ih =>
    intro vars cs cs' h
    rw [generate, newInput_eq, ok_bind] at h
    have := ih _ _ _ h
    rw [Vector.map_push] at this
    rw [blank, generate, newInput_eq, ok_bind]
    exact this
  | hash i words next ih =>
    intro vars cs cs' h
    rw [generate] at h
    cases hh : callHash i (words.map fun k => vars[k]) cs with
    | error e => rw [hh] at h; cases h
    | ok r =>
      obtain ⟨d, cs1⟩ := r
      rw [hh, ok_bind] at h
      have := ih _ _ _ h
      rw [Vector.map_push] at this
      rw [callHash_eq] at hh
      have h2 := C11_setup_same _ _ _ _ _ hh
      rw [words_map, ← callHash_eq] at h2
      rw [blank, generate, h2, ok_bind]
      exact this
  | arith op a b next ih =>
    intro vars cs cs' h
    rw [generate] at h
    cases hh : op.run vars[a] vars[b] cs with
    | error e => rw [hh] at h; cases h
    | ok r =>
      obtain ⟨d, cs1⟩ := r
      rw [hh, ok_bind] at h
      have := ih _ _ _ h
      rw [Vector.map_push] at this
      have ea : ∀ j : Fin _, (vars.map FpVar.shape)[j] = vars[j].shape := fun j => by simp
      rw [blank, generate, ea, ea, arith_shape hh, ok_bind]
      exact this
  | equal a b next ih =>
    intro vars cs cs' h
    have := ih _ _ _ h
    rw [enforceEqual_shape] at this
    rw [blank, generate]
    have ea : ∀ j : Fin _, (vars.map FpVar.shape)[j] = vars[j].shape := fun j => by simp
    rw [ea, ea]
    exact this

theorem carries_push {n : Nat} {vars : Vector (FpVar Fq) n} {r : Vector Fq n} {cs : CS Fq} {x : FpVar Fq} {a : Fq}
    (h : ∀ j (h : j < n), Carries cs vars[j] r[j]) (hx : Carries cs x a) :
    ∀ j (h : j < n + 1), Carries cs (vars.push x)[j] (r.push a)[j] := by
  intro j hj
  by_cases hn : j < n
  · rw [Vector.getElem_push_lt hn, Vector.getElem_push_lt hn]; exact h j hn
  · obtain rfl : j = n := by omega
    rw [Vector.getElem_push_eq, Vector.getElem_push_eq]; exact hx

/-- The honest prover's run. -/
theorem generate_prove {n : Nat} (c : UserCircuit n) : ∀ (vars : Vector (FpVar Fq) n) (r : Vector Fq n) (cs : CS Fq),
    Proving cs → cs.instanceAssignment.length = cs.numInstance → (∀ v ∈ vars, v.Known cs) →
    (∀ j (h : j < n), Carries cs vars[j] r[j]) → c.NoConstantHash (vars.map FpVar.isVar) →
    ∃ cs', c.generate vars cs = .ok cs' ∧ Proving cs' ∧
      cs'.instanceAssignment = cs.instanceAssignment ++ c.publicValues ∧
      ∀ σ, Stored cs' σ → Stored cs σ ∧
        ((c.privateAt (vars.map FpVar.isVar) cs.numWitness).map fun j => σ (.witness j)) = c.privateValues ∧
        (c.NoConstantEqual (vars.map FpVar.isVar) →
          (Satisfies σ cs' ↔ Satisfies σ cs ∧ c.Accepts r c.privateValues c.publicValues)) := by
  induction c with
  | done =>
    intro vars r cs hp hl hk hc hn
    exact ⟨cs, rfl, hp, by simp [publicValues], fun σ hσ => ⟨hσ, rfl, fun _ => ⟨fun h => ⟨h, rfl, rfl⟩, fun h => h.1⟩⟩⟩
  | constant x next ih =>
    intro vars r cs hp hl hk hc hn
    obtain ⟨cs', h1, h2, h3, h4⟩ := ih (vars.push (.constant x)) (r.push x) cs hp hl (known_push le_rfl le_rfl hk trivial)
      (carries_push hc rfl) (by rw [Vector.map_push]; exact hn)
    refine ⟨cs', h1, h2, h3, fun σ hσ => ?_⟩
    have := h4 σ hσ
    rw [Vector.map_push] at this
    exact this
  | witness x next ih =>
    intro vars r cs hp hl hk hc hn
    generalize hc1 : ({ cs with
      numWitness := cs.numWitness + 1
      witnessAssignment := cs.witnessAssignment ++ [x] } : CS Fq) = cs1
    have hw : cs1.numWitness = cs.numWitness + 1 := by rw [← hc1]
    have hi : cs1.numInstance = cs.numInstance := by rw [← hc1]
    have hgen : (UserCircuit.witness x next).generate vars cs =
        next.generate (vars.push (.var ⟨some x, [(1, .witness cs.numWitness)]⟩)) cs1 := by
      rw [generate, newWitness_eq, ok_bind, hp.1]
      simp only [Bool.false_eq_true, if_false, ← hc1, hp.1]
    have hst : ∀ σ, Stored cs1 σ → Stored cs σ ∧ σ (.witness cs.numWitness) = x := by
      intro σ hσ
      have e : cs1.witnessAssignment = cs.witnessAssignment ++ [x] := by rw [← hc1]
      have e1 : cs1.instanceAssignment = cs.instanceAssignment := by rw [← hc1]
      refine ⟨⟨hσ.1, by rw [← e1]; exact hσ.2.1, fun j a h => hσ.2.2 j a ?_⟩, hσ.2.2 _ _ ?_⟩
      · rw [e, List.getElem?_append_left (List.getElem?_eq_some_iff.1 h).1]; exact h
      · rw [e, ← hp.2, List.getElem?_concat_length]
    obtain ⟨cs', h1, h2, h3, h4⟩ := ih (vars.push (.var ⟨some x, [(1, .witness cs.numWitness)]⟩)) (r.push x) cs1
      ⟨by rw [← hc1]; exact hp.1, by rw [← hc1]; simp [hp.2]⟩ (by rw [← hc1]; exact hl)
      (known_push hi.ge (by omega) hk fun z hz => by
        rw [List.mem_singleton.1 hz]; exact (show cs.numWitness < cs1.numWitness by omega))
      (carries_push (fun j h => (hc j h).stored fun σ hσ => (hst σ hσ).1)
        ⟨rfl, fun σ hσ => by rw [LC.eval_single, one_mul]; exact (hst σ hσ).2⟩)
      (by rw [Vector.map_push]; exact hn)
    refine ⟨cs', hgen.trans h1, h2, ?_, fun σ hσ => ?_⟩
    · rw [h3, ← hc1]; rfl
    · obtain ⟨k1, k2, k3⟩ := h4 σ hσ
      obtain ⟨k4, k5⟩ := hst σ k1
      rw [Vector.map_push] at k2 k3
      refine ⟨k4, ?_, fun hne => ?_⟩
      · rw [privateAt, List.map_cons, k5, privateValues, ← hw]
        exact congrArg (x :: ·) k2
      · refine (k3 hne).trans ?_
        have hsat : Satisfies σ cs1 ↔ Satisfies σ cs := by rw [← hc1]; exact Iff.rfl
        rw [hsat]
        refine and_congr_right fun _ => ⟨fun h => ⟨x, _, rfl, h⟩, ?_⟩
        rintro ⟨a, w', hw', h⟩
        rw [privateValues, List.cons.injEq] at hw'
        rw [hw'.1, hw'.2]
        exact h
  | input x next ih =>
    intro vars r cs hp hl hk hc hn
    generalize hc1 : ({ cs with
      numInstance := cs.numInstance + 1
      instanceAssignment := cs.instanceAssignment ++ [x] } : CS Fq) = cs1
    have hw : cs1.numWitness = cs.numWitness := by rw [← hc1]
    have hi : cs1.numInstance = cs.numInstance + 1 := by rw [← hc1]
    have e1 : cs1.instanceAssignment = cs.instanceAssignment ++ [x] := by rw [← hc1]
    have hgen : (UserCircuit.input x next).generate vars cs =
        next.generate (vars.push (.var ⟨some x, [(1, .input cs.numInstance)]⟩)) cs1 := by
      rw [generate, newInput_eq, ok_bind, hp.1]
      simp only [Bool.false_eq_true, if_false, ← hc1, hp.1]
    have hst : ∀ σ, Stored cs1 σ → Stored cs σ ∧ σ (.input cs.numInstance) = x := by
      intro σ hσ
      have e : cs1.witnessAssignment = cs.witnessAssignment := by rw [← hc1]
      refine ⟨⟨hσ.1, fun j a h => hσ.2.1 j a ?_, by rw [← e]; exact hσ.2.2⟩, hσ.2.1 _ _ ?_⟩
      · rw [e1, List.getElem?_append_left (List.getElem?_eq_some_iff.1 h).1]; exact h
      · rw [e1, ← hl, List.getElem?_concat_length]
    obtain ⟨cs', h1, h2, h3, h4⟩ := ih (vars.push (.var ⟨some x, [(1, .input cs.numInstance)]⟩)) (r.push x) cs1
      ⟨by rw [← hc1]; exact hp.1, by rw [← hc1]; exact hp.2⟩ (by rw [e1, hi]; simp [hl])
      (known_push (by omega) hw.ge hk fun z hz => by
        rw [List.mem_singleton.1 hz]; exact (show cs.numInstance < cs1.numInstance by omega))
      (carries_push (fun j h => (hc j h).stored fun σ hσ => (hst σ hσ).1)
        ⟨rfl, fun σ hσ => by rw [LC.eval_single, one_mul]; exact (hst σ hσ).2⟩)
      (by rw [Vector.map_push]; exact hn)
    refine ⟨cs', hgen.trans h1, h2, ?_, fun σ hσ => ?_⟩
    · rw [h3, e1, publicValues, List.append_assoc]; rfl
    · obtain ⟨k1, k2, k3⟩ := h4 σ hσ
      obtain ⟨k4, k5⟩ := hst σ k1
      rw [Vector.map_push] at k2 k3
      rw [hw] at k2
      refine ⟨k4, k2, fun hne => ?_⟩
      refine (k3 hne).trans ?_
      have hsat : Satisfies σ cs1 ↔ Satisfies σ cs := by rw [← hc1]; exact Iff.rfl
      rw [hsat]
      refine and_congr_right fun _ => ⟨fun h => ⟨x, _, rfl, h⟩, ?_⟩
      rintro ⟨a, w', hw', h⟩
      rw [publicValues, List.cons.injEq] at hw'
      rw [hw'.1, hw'.2]
      exact h
  | hash i words next ih =>
    rintro vars r cs hp hl hk hc ⟨hn1, hn2⟩
    obtain ⟨d, cs1, x, inst', g1, g2, g3, g4, g5⟩ := C10_shipped i (words.map fun k => vars[k]) (words.map fun k => r[k]) cs hp
      (some_var hn1) (fun j => by
        simp only [Fin.getElem_fin, Vector.getElem_map]
        exact hc _ (words[j.val]).isLt)
    have hh : callHash i (words.map fun k => vars[k]) cs = .ok (d, cs1) := by rw [callHash_eq]; exact g1
    have hx : nativeHash i (words.map fun k => r[k]) = .ok x := (nativeHash_iff _ _ _).2 ⟨_, g2⟩
    obtain ⟨hg, hdk⟩ := nTo1FixedHash_grows _ _ _ (fun j => by
        rw [Fin.getElem_fin, Vector.getElem_map]
        exact hk _ (Vector.getElem_mem _)) _ g1
    obtain ⟨-, s2, -⟩ := C12_shipped _ _ _ _ _ g1
    rw [words_count] at s2
    have hcost : 5 * (words.toList.countP (fun k => (vars.map FpVar.isVar)[k]) + 7 * (i.val + 2) + 31) =
      hashCost i words (vars.map FpVar.isVar) := rfl
    rw [hcost] at s2
    obtain ⟨cs', h1, h2, h3, h4⟩ := ih (vars.push d) (r.push x) cs1 g3
      (by rw [hg.instanceAssignment, hg.numInstance]; exact hl)
      (known_push hg.numInstance.ge hg.numWitness hk hdk)
      (carries_push (fun j h => (hc j h).stored fun σ hσ => (g5 σ hσ).1) g4)
      (by rw [Vector.map_push, callHash_isVar hh]; exact hn2)
    refine ⟨cs', ?_, h2, ?_, fun σ hσ => ?_⟩
    · rw [generate, hh, ok_bind]; exact h1
    · rw [h3, hg.instanceAssignment]; rfl
    · obtain ⟨k1, k2, k3⟩ := h4 σ hσ
      obtain ⟨k4, k5⟩ := g5 σ k1
      rw [Vector.map_push, callHash_isVar hh] at k2 k3
      rw [s2] at k2
      refine ⟨k4, k2, fun hne => ?_⟩
      refine (k3 hne).trans ⟨fun h => ⟨hg.satisfies h.1, x, hx, h.2⟩, ?_⟩
      rintro ⟨h, d', hd', ha⟩
      rw [hx] at hd'
      cases hd'
      exact ⟨k5 h, ha⟩
  | arith op a b next ih =>
    intro vars r cs hp hl hk hc hn
    obtain ⟨⟨d, cs1⟩, hh, hset, hd, g⟩ := arith_complete op (cs := cs) (a := vars[a]) (b := vars[b]) (x := r[a]) (y := r[b])
      fun _ => ⟨hp, hc _ a.isLt, hc _ b.isLt⟩
    obtain ⟨g3, g4⟩ := g hp.1
    obtain ⟨hg, hdk⟩ := arith_grows (hk _ (Vector.getElem_mem _)) (hk _ (Vector.getElem_mem _)) hh
    have ea : ∀ j : Fin _, (vars.map FpVar.isVar)[j] = vars[j].isVar := fun j => by simp
    have hcnt := arith_count hh
    rw [← ea, ← ea] at hcnt
    have s2 := hcnt.2.1
    have hd : d.isVar = ((vars.map FpVar.isVar)[a] || (vars.map FpVar.isVar)[b]) := by
      rw [ea, ea]; exact hd
    obtain ⟨cs', h1, h2, h3, h4⟩ := ih (vars.push d) (r.push (op.native r[a] r[b])) cs1 g3.proving
      (by rw [hg.instanceAssignment, hg.numInstance]; exact hl)
      (known_push hg.numInstance.ge hg.numWitness hk hdk)
      (carries_push (fun j h => (hc j h).stored g3.stored) g4)
      (by rw [Vector.map_push, hd]; exact hn)
    refine ⟨cs', ?_, h2, ?_, fun σ hσ => ?_⟩
    · rw [generate, hh, ok_bind]; exact h1
    · rw [h3, hg.instanceAssignment]; rfl
    · obtain ⟨k1, k2, k3⟩ := h4 σ hσ
      rw [Vector.map_push, hd] at k2 k3
      rw [s2] at k2
      exact ⟨g3.stored σ k1, k2, fun hne => (k3 hne).trans
        ⟨fun h => ⟨hg.satisfies h.1, h.2⟩, fun h => ⟨g3.sat σ k1 h.1, h.2⟩⟩⟩
  | equal a b next ih =>
    intro vars r cs hp hl hk hc hn
    have hv := enforceEqual_vars vars[a] vars[b] cs
    have n4 : (vars[a].enforceEqual vars[b] cs).setup = cs.setup := congrArg (fun x => x.1) hv
    have n1 : (vars[a].enforceEqual vars[b] cs).numInstance = cs.numInstance := congrArg (fun x => x.2.1) hv
    have n2 : (vars[a].enforceEqual vars[b] cs).numWitness = cs.numWitness := congrArg (fun x => x.2.2.1) hv
    have n5 : (vars[a].enforceEqual vars[b] cs).instanceAssignment = cs.instanceAssignment := congrArg (fun x => x.2.2.2.1) hv
    have n6 : (vars[a].enforceEqual vars[b] cs).witnessAssignment = cs.witnessAssignment := congrArg (fun x => x.2.2.2.2) hv
    have hst : ∀ σ, Stored (vars[a].enforceEqual vars[b] cs) σ → Stored cs σ := by
      intro σ hσ
      exact ⟨hσ.1, by rw [← n5]; exact hσ.2.1, by rw [← n6]; exact hσ.2.2⟩
    obtain ⟨cs', h1, h2, h3, h4⟩ := ih vars r (vars[a].enforceEqual vars[b] cs) ⟨n4.trans hp.1, by rw [n6, n2]; exact hp.2⟩
      (by rw [n5, n1]; exact hl) (fun v hv => (hk v hv).of_le n1.ge n2.ge)
      (fun j h => (hc j h).stored hst) hn
    refine ⟨cs', h1, h2, ?_, fun σ hσ => ?_⟩
    · rw [h3, n5]; rfl
    · obtain ⟨k1, k2, k3⟩ := h4 σ hσ
      have k4 := hst σ k1
      rw [n2] at k2
      refine ⟨k4, k2, ?_⟩
      rintro ⟨hne1, hne2⟩
      have ea : ∀ j : Fin _, (vars.map FpVar.isVar)[j] = vars[j].isVar := fun j => by simp
      rw [ea, ea] at hne1
      refine (k3 hne2).trans ?_
      rw [enforceEqual_sat' hne1, Fin.getElem_fin, Fin.getElem_fin, (hc a.val a.isLt).eval k4, (hc b.val b.isLt).eval k4, and_assoc]
      rfl

end UserCircuit

end Poseidon.R1cs
