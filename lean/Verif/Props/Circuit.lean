import Verif.Proofs.R1csShape
import Verif.Proofs.R1csCount
import Verif.Proofs.Hash

/-!
# Properties of the R1CS gadget (C09 - C12, C47), for every parameter set

The parameters of a gadget: S-box exponent `e` (a `u32`), at least two state words, a `t × t` matrix.
`Satisfies`, `Stored`, `Proving`, `Carries`, `shape`, `sboxCost` are in Spec/R1cs.lean.
-/

set_option linter.unusedSectionVars false

namespace Poseidon

open R1cs

variable {F : Type} [Field F] [DecidableEq F]
variable {t tm1 nmds nhat rows cols nround npart : Nat}

theorem u32_lt {e : Nat} (he : e < 2 ^ 32) : e < 2 ^ 64 := lt_trans he (by norm_num)

/-- C09: whatever assignment satisfies the constraints, it gives the returned variable the native
(unoptimized) hash of the values it gives to the inputs. -/
theorem C09_soundness (p : Params F t tm1 nmds nhat rows cols nround npart) {e : Nat}
    (ha : p.alpha = .exponent e) (he : e < 2 ^ 32) (ht : 1 < t) (hm : nmds = t * t)
    (inputs : Vector (FpVar F) t) (cs cs' : CS F) (out : FpVar F)
    (h : R1cs.nTo1FixedHash p inputs cs = .ok (out, cs')) (σ : R1cs.Variable → F) (hσ : Satisfies σ cs') :
    ∃ inst', (Instance.new p).unoptimizedNTo1FixedHash (inputs.map (FpVar.eval σ)) = .ok (out.eval σ, inst') := by
  unfold R1cs.nTo1FixedHash at h
  cases hp : R1cs.permute p inputs.toList cs with
  | error e => rw [hp] at h; cases h
  | ok r =>
    obtain ⟨s, cs1⟩ := r
    obtain ⟨v, hv, hs⟩ := permute_sound σ p ha (u32_lt he) (by omega) hm (v := inputs.map (FpVar.eval σ))
      ⟨by simp, fun _ i h h' => by simp⟩ _ hp
    rw [hp, ok_bind] at h
    dsimp only at h hs
    have h1 : 1 < s.length := by rw [hs.1]; exact ht
    rw [lget_lt _ h1, ok_bind] at h
    cases h
    refine ⟨{ parameters := p, stateWords := v }, ?_⟩
    rw [Instance.unoptimizedNTo1FixedHash, setState_eq, ok_bind]
    dsimp only [Instance.new]
    rw [hv, ok_bind, aget_lt _ ht, ok_bind, hs.2 hσ 1 h1 ht]
    rfl

/-- C09, against the specification: the returned variable is word 1 of the textbook permutation. -/
theorem C09_soundness_textbook (p : Params F t tm1 nmds nhat rows t nround npart) {e : Nat}
    (ha : p.alpha = .exponent e) (he : e < 2 ^ 32) (ht : 1 < t) (hm : nmds = t * t) (hr : nround = rows * t)
    (hrows : p.rounds.rF / 2 + p.rounds.rP + p.rounds.rF / 2 ≤ rows)
    (inputs : Vector (FpVar F) t) (cs cs' : CS F) (out : FpVar F)
    (h : R1cs.nTo1FixedHash p inputs cs = .ok (out, cs')) (σ : R1cs.Variable → F) (hσ : Satisfies σ cs') :
    ∃ y, textbook (.exponent e) (p.mds.toM hm) (p.rounds.rF / 2) p.rounds.rP
        (fun r => p.arc.toM hr ⟨r.val, lt_of_lt_of_le r.isLt hrows⟩) (fun i => inputs[i].eval σ) = some y ∧
      out.eval σ = y ⟨1, ht⟩ := by
  obtain ⟨inst', hi⟩ := C09_soundness p ha he ht hm inputs cs cs' out h σ hσ
  rw [Instance.unoptimizedNTo1FixedHash, setState_eq, ok_bind] at hi
  have hx : inputs.map (FpVar.eval σ) = Vector.ofFn fun i : Fin t => inputs[i].eval σ := by ext i hi; simp
  dsimp only [Instance.new] at hi
  rw [hx, unoptimizedPermute_eq p (by omega) hm hr hrows, ha] at hi
  refine ⟨_, textbook_exponent _ _ _ _ _ _, ?_⟩
  rw [textbook_exponent, reported, ok_bind, aget_lt _ ht, ok_bind] at hi
  have := congrArg Prod.fst (Except.ok.inj hi)
  dsimp only at this
  rw [← this, Vector.getElem_ofFn]

/-- C10: if the inputs carry values and one of them is a variable, synthesis succeeds whenever the native
code does; every witness is assigned, the stored assignment satisfies all new constraints, and the
returned variable carries the native digest. -/
theorem C10_completeness (p : Params F t tm1 nmds nhat rows cols nround npart) {e : Nat}
    (ha : p.alpha = .exponent e) (he : e < 2 ^ 32) (h0 : 0 < e) (ht : 1 < t) (hm : nmds = t * t)
    (inputs : Vector (FpVar F) t) (x : Vector F t) (cs : CS F) (hcs : Proving cs)
    (hvar : ∃ i : Fin t, inputs[i].isVar = true) (hx : ∀ i : Fin t, Carries cs inputs[i] x[i])
    (d : F) (inst') (hd : (Instance.new p).unoptimizedNTo1FixedHash x = .ok (d, inst')) :
    ∃ out cs', R1cs.nTo1FixedHash p inputs cs = .ok (out, cs') ∧ Proving cs' ∧ Carries cs' out d ∧
      ∀ σ, Stored cs' σ → Stored cs σ ∧ (Satisfies σ cs → Satisfies σ cs') := by
  rw [Instance.unoptimizedNTo1FixedHash, setState_eq, ok_bind] at hd
  dsimp only [Instance.new] at hd
  cases hu : unoptimizedPermute p x with
  | error e => rw [hu] at hd; cases hd
  | ok y =>
    rw [hu, ok_bind, aget_lt _ ht, ok_bind] at hd
    cases hd
    obtain ⟨⟨s, cs'⟩, hs, hc⟩ := permute_complete p ha (u32_lt he) (by omega) (by omega) hm (cs0 := cs) (cs := cs)
      (s := inputs.toList) (v := x) ⟨by simp, rfl, by
        obtain ⟨i, hi⟩ := hvar
        exact ⟨i, by simp, by simpa using hi⟩,
        fun _ => ⟨Ext.refl hcs, fun i h h' => by simpa using hx ⟨i, h'⟩⟩⟩ y hu
    dsimp only at hc
    have h1 : 1 < s.length := by rw [hc.len]; exact ht
    have hset : cs'.setup = false := hc.setup.trans hcs.1
    obtain ⟨hext, hcar⟩ := hc.carries hset
    refine ⟨s[1], cs', ?_, hext.proving, hcar 1 h1 ht, fun σ hσ => ⟨hext.stored σ hσ, hext.sat σ hσ⟩⟩
    rw [R1cs.nTo1FixedHash, hs, ok_bind]
    dsimp only
    rw [lget_lt _ h1]
    rfl

/-- C10/C11 in setup mode: synthesis without values also succeeds (given that the native code runs on
these parameters at all). -/
theorem C11_setup_total (p : Params F t tm1 nmds nhat rows cols nround npart) {e : Nat}
    (ha : p.alpha = .exponent e) (he : e < 2 ^ 32) (h0 : 0 < e) (ht : 1 < t) (hm : nmds = t * t)
    (inputs : Vector (FpVar F) t) (cs : CS F) (hcs : cs.setup = true)
    (hvar : ∃ i : Fin t, inputs[i].isVar = true)
    (x : Vector F t) (d : F) (inst') (hd : (Instance.new p).unoptimizedNTo1FixedHash x = .ok (d, inst')) :
    ∃ out cs', R1cs.nTo1FixedHash p inputs cs = .ok (out, cs') := by
  rw [Instance.unoptimizedNTo1FixedHash, setState_eq, ok_bind] at hd
  dsimp only [Instance.new] at hd
  cases hu : unoptimizedPermute p x with
  | error e => rw [hu] at hd; cases hd
  | ok y =>
    obtain ⟨⟨s, cs'⟩, hs, hc⟩ := permute_complete p ha (u32_lt he) (by omega) (by omega) hm (cs0 := cs) (cs := cs)
      (s := inputs.toList) (v := x) ⟨by simp, rfl, by
        obtain ⟨i, hi⟩ := hvar
        exact ⟨i, by simp, by simpa using hi⟩, fun h => by rw [hcs] at h; cases h⟩ y hu
    dsimp only at hc
    have h1 : 1 < s.length := by rw [hc.len]; exact ht
    refine ⟨s[1], cs', ?_⟩
    rw [R1cs.nTo1FixedHash, hs, ok_bind]
    dsimp only
    rw [lget_lt _ h1]
    rfl

/-- C11: a prover's run and the value-less setup run on the same inputs emit the same variables and
constraints (for any parameters at all). -/
theorem C11_setup_same (p : Params F t tm1 nmds nhat rows cols nround npart)
    (inputs : Vector (FpVar F) t) (cs cs' : CS F) (out : FpVar F)
    (h : R1cs.nTo1FixedHash p inputs cs = .ok (out, cs')) :
    R1cs.nTo1FixedHash p (inputs.map FpVar.shape) cs.shape = .ok (out.shape, cs'.shape) := by
  obtain ⟨r', h1, rfl⟩ := nTo1FixedHash_shape p inputs cs _ h
  exact h1

/-- C11: two runs on the same variables with different values emit the same constraints, in the same
order, over the same variables, and return the same variable. -/
theorem C11_shape_independent (p : Params F t tm1 nmds nhat rows cols nround npart)
    (inputs inputs' : Vector (FpVar F) t) (cs cs' cs1 cs1' : CS F) (out out' : FpVar F)
    (hin : inputs.map FpVar.shape = inputs'.map FpVar.shape) (hcs : cs.shape = cs'.shape)
    (h : R1cs.nTo1FixedHash p inputs cs = .ok (out, cs1))
    (h' : R1cs.nTo1FixedHash p inputs' cs' = .ok (out', cs1')) :
    cs1.constraints = cs1'.constraints ∧ cs1.numWitness = cs1'.numWitness ∧
      cs1.numInstance = cs1'.numInstance ∧ out.shape = out'.shape := by
  have e1 := C11_setup_same p inputs cs cs1 out h
  have e2 := C11_setup_same p inputs' cs' cs1' out' h'
  rw [hin, hcs, e2] at e1
  have := Except.ok.inj e1
  have hs : cs1'.shape = cs1.shape := congrArg Prod.snd this
  exact ⟨(congrArg CS.constraints hs).symm, (congrArg CS.numWitness hs).symm, (congrArg CS.numInstance hs).symm,
    (congrArg Prod.fst this).symm⟩

/-- C12: the exact number of constraints and witnesses. The S-boxes of the first round act on the
variable inputs only, all later ones on variables. -/
theorem C12_size (p : Params F t tm1 nmds nhat rows cols nround npart) {e : Nat}
    (ha : p.alpha = .exponent e) (he : e < 2 ^ 32) (h0 : 0 < e) (ht : 1 < t) (hm : nmds = t * t)
    (hf : 2 ≤ p.rounds.rF) (inputs : Vector (FpVar F) t) (cs cs' : CS F) (out : FpVar F)
    (h : R1cs.nTo1FixedHash p inputs cs = .ok (out, cs')) :
    let sboxes := inputs.toList.countP FpVar.isVar + (2 * (p.rounds.rF / 2) - 1) * t + p.rounds.rP
    cs'.constraints.length = cs.constraints.length + sboxCost e * sboxes ∧
      cs'.numWitness = cs.numWitness + sboxCost e * sboxes ∧ cs'.numInstance = cs.numInstance := by
  unfold R1cs.nTo1FixedHash at h
  cases hp : R1cs.permute p inputs.toList cs with
  | error e => rw [hp] at h; cases h
  | ok r =>
    obtain ⟨s, cs1⟩ := r
    obtain ⟨n, hn⟩ : ∃ n, p.rounds.rF / 2 = n + 1 := ⟨p.rounds.rF / 2 - 1, by omega⟩
    have hc := permute_count p ha (u32_lt he) (by omega) (by omega) hm hn inputs.toList (by simp) cs _ hp
    rw [hp, ok_bind] at h
    dsimp only at h hc
    have hcs : cs1 = cs' := by
      cases hl : lget s 1 with
      | error e => rw [hl] at h; cases h
      | ok x => rw [hl] at h; cases h; rfl
    subst hcs
    dsimp only
    rw [hn, show 2 * (n + 1) - 1 = 2 * n + 1 by omega]
    exact hc

/-- C12: an S-box on a variable costs (bit length - 1) + (number of one bits - 1). -/
theorem C12_sbox_cost {e : Nat} (he : e < 2 ^ 32) (h0 : 0 < e) (v : AllocatedFp F) (cs cs' : CS F) (y : FpVar F)
    (h : (FpVar.var v).powByConstant e cs = .ok (y, cs')) :
    cs'.constraints.length = cs.constraints.length + ((Nat.size e - 1) + ((Nat.bits e).count true - 1)) :=
  (pow_count (u32_lt he) (by omega) (FpVar.var v) cs _ h).2.1

/-- The shipped exponent 17 costs 5. -/
theorem sboxCost_17 : sboxCost 17 = 5 := by decide +kernel

/-! ### C47: a gadget on constants only panics -/

theorem mixLayer_const (ht : 0 < t) (hm : nmds = t * t) (m : Mat F t t nmds) (s : List (FpVar F)) (cs : CS F)
    (hs : ∀ b ∈ s.map FpVar.isVar, b = false) : Ens (fun _ => False) (R1cs.mixLayer m s cs) := by
  have hrow : ∀ row cs, Ens (fun _ => False) (R1cs.mixRow row s cs) := by
    intro row cs
    unfold R1cs.mixRow
    refine Ens.bind (Q := fun r => ∀ x ∈ r.1, x.isVar = false) ?_ ?_
    · refine Ens.forList (Inv := fun _ (r : List (FpVar F) × CS F) => ∀ x ∈ r.1, x.isVar = false) _ 0 _
        (by simp) ?_
      rintro j hj ⟨s', cs'⟩ h
      simp only [List.getElem_zip]
      have hj' : j < s.length := by simp at hj; omega
      have hc : s[j].isVar = false := hs _ (List.mem_map.2 ⟨s[j], List.getElem_mem hj', rfl⟩)
      cases hsj : s[j] with
      | constant c =>
        refine Ens.ok fun x hx => ?_
        rcases List.mem_append.1 hx with hx | hx
        · exact h x hx
        · rw [List.mem_singleton.1 hx]; rfl
      | var v => rw [hsj] at hc; cases hc
    · rintro ⟨terms, cs'⟩ h
      have hnil : terms.filterMap FpVar.var? = [] := by
        rw [List.filterMap_eq_nil_iff]
        intro x hx
        have := h x hx
        cases x with
        | constant c => rfl
        | var v => cases this
      dsimp only
      rw [FpVar.sum, hnil]
      exact Ens.error
  unfold R1cs.mixLayer
  rw [iterRows_eq ht hm, ok_bind]
  obtain ⟨n, rfl⟩ : ∃ n, t = n + 1 := ⟨t - 1, by omega⟩
  rw [List.ofFn_succ]
  refine Ens.bind (Q := fun _ => False) ?_ (fun _ h => h.elim)
  exact Ens.bind (hrow _ _) (fun _ h => h.elim)

theorem round_const (p : Params F t tm1 nmds nhat rows cols nround npart) {e : Nat}
    (ha : p.alpha = .exponent e) (he : e < 2 ^ 64) (h0 : e ≠ 0) (ht : 0 < t) (hm : nmds = t * t) (full : Bool)
    (s : List (FpVar F)) (c : Nat) (cs : CS F) (hlen : s.length = t)
    (hs : ∀ x ∈ s, x.isVar = false) : Ens (fun _ => False) (R1cs.round p full (s, c, cs)) := by
  have hs' : ∀ b ∈ s.map FpVar.isVar, b = false := by
    intro b hb
    obtain ⟨x, hx, rfl⟩ := List.mem_map.1 hb
    exact hs x hx
  unfold R1cs.round
  refine Ens.bind (addRoundConstants_count p.arc s c) ?_
  rintro ⟨s', c'⟩ h
  dsimp only at h hlen ⊢
  have hl' : s'.length = t := by
    have := congrArg List.length h
    simp at this; omega
  have tail : ∀ (a : List (FpVar F) × CS F), (a.1.map FpVar.isVar = s'.map FpVar.isVar) →
      Ens (fun _ => False)
        (do let r ← R1cs.mixLayer p.mds a.1 a.2; return (r.1, c', r.2) : R (List (FpVar F) × Nat × CS F)) := by
    rintro ⟨s1, cs1⟩ h1
    refine Ens.bind (mixLayer_const ht hm p.mds s1 cs1 ?_) (fun _ h => h.elim)
    dsimp only at h1
    rw [h1, h]
    exact hs'
  cases full with
  | true =>
    refine Ens.bind (Q := fun r => r.1.map FpVar.isVar = s'.map FpVar.isVar) ?_ tail
    rw [ha]
    exact (fullSubWords_count he h0 s' hl' cs).mono fun r hr => hr.1
  | false =>
    refine Ens.bind (Q := fun r => r.1.map FpVar.isVar = s'.map FpVar.isVar) ?_ tail
    rw [ha]
    exact (subWord_count he h0 s' cs 0).mono fun r hr => hr.1

/-- C47: with constants only and at least one round, the gadget never returns. -/
theorem C47_constants_panic (p : Params F t tm1 nmds nhat rows cols nround npart) {e : Nat}
    (ha : p.alpha = .exponent e) (he : e < 2 ^ 32) (h0 : 0 < e) (ht : 1 < t) (hm : nmds = t * t)
    (hr : 2 ≤ p.rounds.rF ∨ 1 ≤ p.rounds.rP) (x : Vector F t) (cs : CS F) :
    ∃ e, R1cs.nTo1FixedHash p (x.map FpVar.constant) cs = .error e := by
  have key : Ens (fun _ => False) (R1cs.permute p (x.map FpVar.constant).toList cs) := by
    have hc : ∀ full st, st = ((x.map FpVar.constant).toList, 0, cs) → Ens (fun _ => False) (R1cs.round p full st) := by
      rintro full _ rfl
      refine round_const p ha (u32_lt he) (by omega) (by omega) hm full _ 0 cs (by simp) ?_
      intro y hy
      rw [Vector.toList_map, List.mem_map] at hy
      obtain ⟨z, -, rfl⟩ := hy
      rfl
    have hloop : ∀ full n st, 0 < n → st = ((x.map FpVar.constant).toList, 0, cs) →
        Ens (fun _ => False) (forRange 0 n st fun _ st => R1cs.round p full st) := by
      intro full n st hn hst
      obtain ⟨m, rfl⟩ : ∃ m, n = m + 1 := ⟨n - 1, by omega⟩
      exact Ens.bind (hc full st hst) (fun _ h => h.elim)
    unfold R1cs.permute
    simp only [RoundNumbers.full, RoundNumbers.partialRounds]
    by_cases hf : 2 ≤ p.rounds.rF
    · exact Ens.bind (hloop true _ _ (by omega) rfl) (fun _ h => h.elim)
    · have h0 : p.rounds.rF / 2 = 0 := by omega
      rw [h0]
      refine Ens.bind (Q := fun st => st = ((x.map FpVar.constant).toList, 0, cs)) (Ens.ok rfl) ?_
      rintro _ rfl
      exact Ens.bind (hloop false _ _ (by omega) rfl) (fun _ h => h.elim)
  unfold R1cs.nTo1FixedHash
  cases hp : R1cs.permute p (x.map FpVar.constant).toList cs with
  | error e => exact ⟨e, rfl⟩
  | ok r => exact (key r hp).elim

/-! ### The hypotheses are met (those of the shipped parameters in Props/CircuitHash.lean) -/

/-- A parameter set over the field with 7 elements that no table contains: two words, exponent 5, 2 full and 1 partial rounds. -/
def toyParams : Params (ZMod 7) 2 1 4 1 3 2 6 1 where
  security := 0
  alpha := .exponent 5
  rounds := ⟨1, 2⟩
  mds := ⟨#v[1, 2, 3, 4]⟩
  arc := ⟨#v[1, 2, 3, 4, 5, 6]⟩
  optimizedArc := ⟨#v[0, 0, 0, 0, 0, 0]⟩
  optimizedMds := ⟨⟨#v[0]⟩, ⟨#v[0]⟩, ⟨#v[0]⟩, ⟨#v[0, 0, 0, 0]⟩, ⟨#v[0, 0, 0, 0]⟩, ⟨#v[0, 0, 0, 0]⟩, ⟨#v[0]⟩, 0, ⟨#v[0, 0, 0, 0]⟩,
    #v[⟨#v[0]⟩], #v[⟨#v[0]⟩]⟩

/-- A prover's system with a witness of value 3. -/
def toyCS : CS (ZMod 7) := ⟨false, 1, 1, [1], [3], []⟩

local instance : Fact (Nat.Prime 7) := ⟨by norm_num⟩

/-- Of C10 (hence C09, C11, C12): the constant 2 and the variable of value 3. -/
example : ∃ d inst', (Instance.new toyParams).unoptimizedNTo1FixedHash #v[2, 3] = .ok (d, inst') ∧
    ∃ out cs', R1cs.nTo1FixedHash toyParams #v[.constant 2, .var ⟨some 3, [(1, .witness 0)]⟩] toyCS = .ok (out, cs') ∧
      Carries cs' out d ∧ (∃ σ, Satisfies σ cs') ∧ cs'.constraints.length = 12 := by
  have hd : ∃ d inst', (Instance.new toyParams).unoptimizedNTo1FixedHash #v[2, 3] = .ok (d, inst') := ⟨_, _, rfl⟩
  obtain ⟨d, inst', hd⟩ := hd
  obtain ⟨out, cs', h1, h2, h3, h4⟩ := C10_completeness toyParams (e := 5) rfl (by norm_num) (by norm_num) (by norm_num) rfl
    #v[.constant 2, .var ⟨some 3, [(1, .witness 0)]⟩] #v[2, 3] toyCS ⟨rfl, rfl⟩ ⟨1, rfl⟩ (by
      intro i
      fin_cases i
      · rfl
      · exact ⟨rfl, fun σ hσ => by
          have : σ (.witness 0) = 3 := hσ.2.2 0 3 rfl
          simp [LC.eval, this]⟩) d inst' hd
  have h5 := (C12_size toyParams (e := 5) rfl (by norm_num) (by norm_num) (by norm_num) rfl (by decide) _ _ _ _ h1).1
  refine ⟨d, inst', hd, out, cs', h1, h3, ?_, h5.trans (by decide)⟩
  let σ : R1cs.Variable → ZMod 7 := fun
    | .one => 1
    | .input i => cs'.instanceAssignment.getD i 0
    | .witness i => cs'.witnessAssignment.getD i 0
  exact ⟨σ, (h4 σ ⟨rfl, fun i x hx => by simp [σ, List.getD, hx], fun i x hx => by simp [σ, List.getD, hx]⟩).2
    ⟨rfl, fun con hc => absurd hc List.not_mem_nil⟩⟩

/-- Of C47: all inputs constant. -/
example : ∃ e, R1cs.nTo1FixedHash toyParams ((#v[2, 3] : Vector (ZMod 7) 2).map .constant) toyCS = .error e :=
  C47_constants_panic toyParams (e := 5) rfl (by norm_num) (by norm_num) (by norm_num) rfl (.inr le_rfl) #v[2, 3] toyCS

end Poseidon
