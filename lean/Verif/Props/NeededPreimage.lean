import Verif.Props.Needed
import Verif.Props.Preimage

/-!
# No constraint of the circuit with a shipped key is superfluous (C112)
-/

set_option linter.unusedSectionVars false

namespace Poseidon

open R1cs

theorem foldRounds_perm377 (i : Fin 7) (x : Fin (i.val + 2) → Fq) :
    foldRounds ((shippedParams i).mds.toM rfl) (arcAt i) 0 (fullFlags 4 31) x = perm377 i x := by
  have hz : (fullFlags 4 31).zipIdx 0 = (List.finRange 39).map fun r => (decide (r.val < 4 ∨ 35 ≤ r.val), r.val) := by decide
  rw [foldRounds, hz, List.foldl_map, shipped_mds_cauchy, perm377, permE]
  have hC : ∀ r : Fin 39, arcAt i r.val = shippedArc i r := by
    intro r
    funext j
    rw [arcAt, dif_pos r.isLt]
  simp only [hC]

/-- The value of the returned variable, when the rows of the hash hold. -/
theorem hash_rows (i : Fin 7) (inputs : Vector (FpVar Fq) (i.val + 2)) (hv : ∀ j : Fin (i.val + 2), j ≠ 0 → inputs[j].isVar = true)
    {cs cs' : CS Fq} {out : FpVar Fq} (h : R1cs.nTo1FixedHash (shippedParams i) inputs cs = .ok (out, cs')) {σ : R1cs.Variable → Fq}
    (h1 : σ .one = 1) (hrow : ∀ k, cs.constraints.length ≤ k → RowOk σ cs' k) : out.eval σ = perm377 i (inWords σ inputs) 1 := by
  obtain ⟨c, hc1, hc⟩ : ∃ c, c ≤ 1 ∧ ∀ j : Fin (i.val + 2), inputs[j].isVar = decide (c ≤ j.val) := by
    by_cases h0 : inputs[(0 : Fin (i.val + 2))].isVar = true
    · refine ⟨0, by omega, fun j => ?_⟩
      by_cases hj : j = 0
      · rw [hj, h0]; simp
      · rw [hv j hj]; simp
    · refine ⟨1, by omega, fun j => ?_⟩
      by_cases hj : j = 0
      · rw [hj, Bool.eq_false_iff.2 h0]; simp
      · rw [hv j hj]
        have : j.val ≠ 0 := fun h => hj (Fin.ext h)
        simp; omega
  unfold R1cs.nTo1FixedHash at h
  obtain ⟨⟨s', cs1⟩, h2, h3⟩ := run_bind_ok h
  obtain ⟨out', h4, h5⟩ := run_bind_ok h3
  cases h5
  rw [permute_run] at h2
  obtain ⟨st, h6, h7⟩ := run_bind_ok h2
  cases h7
  have hsl : inputs.toList.length = i.val + 2 := by simp
  obtain ⟨hs', ext, -, -, hg⟩ := rounds_good (shippedParams i) (shipped_alpha i) (by omega) rfl (C := arcAt i) (N := 39)
    (fun r hr j => arcAt_get i r hr j) (fullFlags 4 31) inputs.toList 0 cs hsl c (by rw [fullFlags_length]) (fun j hj => by
      have := hc ⟨j, by simpa using hj⟩
      simpa using this) (fun b hb hb' => by
      have : (fullFlags 4 31).head? = some true := by decide
      rw [this] at hb
      cases hb
      cases hb') (by omega) st h6
  have hword : wordsOf σ inputs.toList hsl = inWords σ inputs := by
    funext a
    simp [wordsOf, inWords]
  have hout : out.eval σ = wordsOf σ st.1 hs' ⟨1, by omega⟩ := by
    rw [lget_lt _ (show 1 < st.1.length by omega)] at h4
    cases h4
    rfl
  rw [hout, hg σ h1 hrow, hword, foldRounds_perm377]
  rfl

theorem hashes_perm377 (i : Fin 7) (x : Vector Fq (i.val + 2)) (y : Fq) : Block.Hashes i x y ↔ y = perm377 i (fun j => x[j]) 1 := by
  have h2 := nTo1_perm377 i (Vector.replicate _ 0) (fun j => x[j])
  have hx : Vector.ofFn (fun j : Fin (i.val + 2) => x[j]) = x := by ext; simp
  rw [hx] at h2
  constructor
  · rintro ⟨inst', h⟩
    exact congrArg Prod.fst (Except.ok.inj (h.symm.trans h2))
  · rintro rfl
    exact ⟨_, h2⟩

theorem hashes_eval (i : Fin 7) (inputs : Vector (FpVar Fq) (i.val + 2)) (σ : R1cs.Variable → Fq) (y : Fq) :
    Block.Hashes i (inputs.map (FpVar.eval σ)) y ↔ y = perm377 i (inWords σ inputs) 1 := by
  rw [hashes_perm377]
  have : (fun j : Fin (i.val + 2) => (inputs.map (FpVar.eval σ))[j]) = inWords σ inputs := by
    funext j
    simp [inWords]
  rw [this]

/-! ### The equality after a hash -/

theorem aenforceEqual_but (k : Nat) (σ : R1cs.Variable → Fq) (a b : AllocatedFp Fq) (cs : CS Fq) :
    SatisfiesBut k σ (a.enforceEqual b cs) ↔ SatisfiesBut k σ cs ∧ (k = cs.constraints.length ∨ LC.eval σ a.lc = LC.eval σ b.lc) := by
  have hrow : ∀ con : LC Fq × LC Fq × LC Fq, σ .one = 1 → con = (a.lc ++ b.lc.map fun (k, v) => (-k, v), [(1, .one)], []) →
      (LC.eval σ con.1 * LC.eval σ con.2.1 = LC.eval σ con.2.2 ↔ LC.eval σ a.lc = LC.eval σ b.lc) := by
    rintro con h1 rfl
    have h2 := (aenforceEqual_sat (σ := σ) a b { cs with constraints := [] })
    have h3 : Satisfies σ (a.enforceEqual b { cs with constraints := [] }) ↔
        LC.eval σ (a.lc ++ b.lc.map fun (k, v) => (-k, v)) * LC.eval σ [(1, .one)] = LC.eval σ [] := by
      constructor
      · intro h; exact h.2 (_, _, _) (List.mem_singleton.2 rfl)
      · intro h
        refine ⟨h1, fun con hc => ?_⟩
        simp only [AllocatedFp.enforceEqual, enforce, List.nil_append, List.mem_singleton] at hc
        rw [hc]; exact h
    have h4 : Satisfies σ { cs with constraints := [] } := ⟨h1, fun _ h => absurd h List.not_mem_nil⟩
    rw [← h3, h2]
    exact ⟨fun h => h.2, fun h => ⟨h4, h⟩⟩
  constructor
  · rintro ⟨h1, h2⟩
    refine ⟨⟨h1, fun i con hi hc => ?_⟩, ?_⟩
    · refine h2 i con hi ?_
      show (cs.constraints ++ [_])[i]? = _
      rw [List.getElem?_append_left (List.getElem?_eq_some_iff.1 hc).1, hc]
    · by_cases hk : k = cs.constraints.length
      · exact Or.inl hk
      · refine Or.inr ((hrow _ h1 rfl).1 (h2 cs.constraints.length _ (Ne.symm hk) ?_))
        show (cs.constraints ++ [_])[cs.constraints.length]? = _
        rw [List.getElem?_append_right le_rfl, Nat.sub_self]
        rfl
  · rintro ⟨⟨h1, h2⟩, h3⟩
    refine ⟨h1, fun i con hi hc => ?_⟩
    have hc : (cs.constraints ++ [_])[i]? = some con := hc
    by_cases hlt : i < cs.constraints.length
    · rw [List.getElem?_append_left hlt] at hc
      exact h2 i con hi hc
    · rw [List.getElem?_append_right (by omega)] at hc
      have h0 : i - cs.constraints.length = 0 := by
        by_contra h0
        rw [List.getElem?_eq_none (by simp; omega)] at hc
        cases hc
      rw [h0] at hc
      have hc := Option.some.inj hc
      exact (hrow con h1 hc.symm).2 (h3.resolve_left (by omega))

theorem enforceEqual_but (k : Nat) (σ : R1cs.Variable → Fq) {a : FpVar Fq} (ha : a.isVar = true) (b : FpVar Fq) (cs : CS Fq) :
    SatisfiesBut k σ (a.enforceEqual b cs) ↔ SatisfiesBut k σ cs ∧ (k = cs.constraints.length ∨ a.eval σ = b.eval σ) := by
  cases a with
  | constant c => cases ha
  | var v =>
    cases b with
    | var w => exact aenforceEqual_but k σ v w cs
    | constant c =>
      refine (aenforceEqual_but k σ ⟨some c, [(c, .one)]⟩ v cs).trans ?_
      constructor
      · rintro ⟨h1, h2⟩
        refine ⟨h1, h2.imp_right fun h2 => ?_⟩
        simp only [LC.eval, List.map_cons, List.map_nil, List.sum_cons, List.sum_nil, h1.1, mul_one, add_zero] at h2
        exact h2.symm
      · rintro ⟨h1, h2⟩
        refine ⟨h1, h2.imp_right fun h2 => ?_⟩
        simp only [LC.eval, List.map_cons, List.map_nil, List.sum_cons, List.sum_nil, h1.1, mul_one, add_zero]
        exact h2.symm

theorem aenforceEqual_wellFormed {a b : AllocatedFp Fq} {cs : CS Fq} (hw : WellFormed cs) (ha : LC.Known cs a.lc) (hb : LC.Known cs b.lc) :
    WellFormed (a.enforceEqual b cs) := by
  intro con hc
  rcases List.mem_append.1 (show con ∈ cs.constraints ++ [_] from hc) with hc | hc
  · exact hw con hc
  · rw [List.mem_singleton.1 hc]
    refine ⟨fun x hx => ?_, fun x hx => ?_, fun x hx => absurd hx List.not_mem_nil⟩
    · rcases List.mem_append.1 hx with hx | hx
      · exact ha x hx
      · obtain ⟨y, hy, rfl⟩ := List.mem_map.1 hx
        exact hb y hy
    · rw [List.mem_singleton.1 hx]; trivial

theorem enforceEqual_wellFormed {a b : FpVar Fq} {cs : CS Fq} (hw : WellFormed cs) (ha : a.Known cs) (hb : b.Known cs) :
    WellFormed (a.enforceEqual b cs) := by
  have hc : ∀ c : Fq, LC.Known cs [(c, Variable.one)] := by
    intro c x hx
    rw [List.mem_singleton.1 hx]; trivial
  cases a with
  | constant c =>
    cases b with
    | constant => exact hw
    | var w => exact aenforceEqual_wellFormed hw (hc c) hb
  | var v =>
    cases b with
    | constant c => exact aenforceEqual_wellFormed hw (hc c) ha
    | var w => exact aenforceEqual_wellFormed hw ha hb

/-! ### Blocks -/

/-- All message words of the block are variables. -/
def R1cs.Block.Vars (b : Block) : Prop := ∀ j : Fin (b.i.val + 2), j ≠ 0 → b.inputs[j].isVar = true

theorem inWords_agree {t : Nat} {inputs : Vector (FpVar Fq) t} {cs : CS Fq} (hk : ∀ j : Fin t, inputs[j].Known cs) {σ τ : R1cs.Variable → Fq}
    (h : AgreeOn cs σ τ) : inWords τ inputs = inWords σ inputs := funext fun j => (FpVar.eval_agreeOn h (hk j)).symm

theorem R1cs.Block.run_parts {b : Block} {cs cs' : CS Fq} (h : b.run cs = .ok cs') :
    ∃ o cs1, nTo1FixedHash (shippedParams b.i) b.inputs cs = .ok (o, cs1) ∧ b.out.enforceEqual o cs1 = cs' := by
  unfold Block.run at h
  obtain ⟨⟨o, cs1⟩, h1, h2⟩ := run_bind_ok h
  exact ⟨o, cs1, h1, Except.ok.inj h2⟩

theorem R1cs.Block.run_wellFormed {b : Block} {cs cs' : CS Fq} (hok : b.Ok cs) (hw : WellFormed cs) (h : b.run cs = .ok cs') : WellFormed cs' := by
  obtain ⟨o, cs1, h1, rfl⟩ := b.run_parts h
  obtain ⟨hg, ho⟩ := nTo1FixedHash_grows _ _ _ hok.known _ h1
  exact enforceEqual_wellFormed (hg.wellFormed hw) (hok.outKnown.mono hg) ho

/-- A block whose rows are all kept. -/
theorem R1cs.Block.good {b : Block} {cs cs' : CS Fq} (hok : b.Ok cs) (hvar : b.Vars) (hw : WellFormed cs) (h : b.run cs = .ok cs') {k : Nat}
    (hk : k < cs.constraints.length ∨ cs'.constraints.length ≤ k) {σ : R1cs.Variable → Fq} (hσ : SatisfiesBut k σ cs)
    (hh : b.out.eval σ = perm377 b.i (inWords σ b.inputs) 1) : ∃ τ, SatisfiesBut k τ cs' ∧ AgreeOn cs σ τ := by
  obtain ⟨o, cs1, h1, rfl⟩ := b.run_parts h
  obtain ⟨hg, ho⟩ := nTo1FixedHash_grows _ _ _ hok.known _ h1
  obtain ⟨τ, t1, t2, -⟩ := hg.fault hw hσ 0
  refine ⟨τ, (enforceEqual_but k τ hok.outVar o cs1).2 ⟨t1, Or.inr ?_⟩, t2⟩
  rw [enforceEqual_length hok.outVar] at hk
  rw [hash_rows b.i b.inputs hvar h1 t1.1 fun m hm con hcon => t1.2 m con ?_ hcon, inWords_agree hok.known t2, ← hh]
  · exact (FpVar.eval_agreeOn t2 hok.outKnown).symm
  · have := (List.getElem?_eq_some_iff.1 hcon).1
    omega

/-- A block with a row left out: words and a false digest of them. -/
theorem R1cs.Block.fault {b : Block} {cs cs' : CS Fq} (hok : b.Ok cs) (hvar : b.Vars) (hw : WellFormed cs) (h : b.run cs = .ok cs') {k : Nat}
    (hk1 : cs.constraints.length ≤ k) (hk2 : k < cs'.constraints.length) :
    ∃ (x : Fin (b.i.val + 2) → Fq) (D : Fq), (∀ (j : Fin (b.i.val + 2)) (c : Fq), b.inputs[j] = .constant c → x j = c) ∧
      D ≠ perm377 b.i x 1 ∧ ∀ σ, SatisfiesBut k σ cs → inWords σ b.inputs = x → b.out.eval σ = D →
        ∃ τ, SatisfiesBut k τ cs' ∧ AgreeOn cs σ τ := by
  obtain ⟨o, cs1, h1, rfl⟩ := b.run_parts h
  obtain ⟨hg, ho⟩ := nTo1FixedHash_grows _ _ _ hok.known _ h1
  rw [enforceEqual_length hok.outVar] at hk2
  by_cases hk : k < cs1.constraints.length
  · obtain ⟨n, j, bb, hn, -, hn0, hf, -⟩ := hash_fault b.i b.inputs hvar h1 hk1 hk
    obtain ⟨x, hx, hne⟩ := free_choice b.i b.inputs hvar hn hn0
    obtain ⟨u, D, hD, hu⟩ := hf x hne (perm377 b.i x 1)
    refine ⟨x, D, hx, hD, fun σ hσ hin hout => ?_⟩
    obtain ⟨τ, t1, t2, t3⟩ := hg.fault hw hσ u
    refine ⟨τ, (enforceEqual_but k τ hok.outVar o cs1).2 ⟨t1, Or.inr ?_⟩, t2⟩
    rw [hu τ t1 ((inWords_agree hok.known t2).trans hin) (t3 hk1 hk), ← hout]
    exact (FpVar.eval_agreeOn t2 hok.outKnown).symm
  · refine ⟨fun j => b.inputs[j].eval fun _ => 0, perm377 b.i (fun j => b.inputs[j].eval fun _ => 0) 1 + 1, fun j c hj => ?_, ?_,
      fun σ hσ hin hout => ?_⟩
    · dsimp only
      rw [hj]; rfl
    · intro h
      exact one_ne_zero (add_eq_left.1 h)
    · obtain ⟨τ, t1, t2, -⟩ := hg.fault hw hσ 0
      exact ⟨τ, (enforceEqual_but k τ hok.outVar o cs1).2 ⟨t1, Or.inl (by omega)⟩, t2⟩

theorem R1cs.AgreeOn.of_le {cs cs' : CS Fq} (h1 : cs.numInstance ≤ cs'.numInstance) (h2 : cs.numWitness ≤ cs'.numWitness)
    {σ τ : R1cs.Variable → Fq} (h : AgreeOn cs' σ τ) : AgreeOn cs σ τ := by
  intro v hv
  refine h v ?_
  cases v with
  | one => trivial
  | input i => exact lt_of_lt_of_le hv h1
  | witness i => exact lt_of_lt_of_le hv h2

theorem R1cs.AgreeOn.trans {cs : CS Fq} {σ τ υ : R1cs.Variable → Fq} (h : AgreeOn cs σ τ) (h' : AgreeOn cs τ υ) : AgreeOn cs σ υ :=
  fun v hv => (h v hv).trans (h' v hv)

/-- Blocks of which all rows are kept. -/
theorem blocks_good : ∀ (l : List Block) (cs cs' : CS Fq), (∀ b ∈ l, b.Ok cs ∧ b.Vars) → WellFormed cs → runBlocks l cs = .ok cs' →
    ∀ k, k < cs.constraints.length ∨ cs'.constraints.length ≤ k → ∀ σ, SatisfiesBut k σ cs →
    (∀ b ∈ l, b.out.eval σ = perm377 b.i (inWords σ b.inputs) 1) → ∃ τ, SatisfiesBut k τ cs' ∧ AgreeOn cs σ τ := by
  intro l
  induction l with
  | nil =>
    intro cs cs' _ _ h k _ σ hσ _
    cases h
    exact ⟨σ, hσ, fun _ _ => rfl⟩
  | cons b l ih =>
    intro cs cs' hok hw h k hk σ hσ hh
    rw [runBlocks] at h
    obtain ⟨cs1, h1, h2⟩ := run_bind_ok h
    obtain ⟨hb, hl⟩ := List.forall_mem_cons.1 hok
    have d1 := Block.run_did hb.1 h1
    have hok1 : ∀ c ∈ l, c.Ok cs1 ∧ c.Vars := fun c hc => ⟨(hl c hc).1.of_le d1.numInstance.ge (by rw [d1.numWitness]; exact Nat.le_add_right _ _), (hl c hc).2⟩
    have d2 := run_did (fun c hc => (hok1 c hc).1) h2
    have l1 := d1.pre.length_le
    have l2 := d2.pre.length_le
    obtain ⟨τ, t1, t2⟩ := b.good hb.1 hb.2 hw h1 (by omega) hσ (hh b List.mem_cons_self)
    obtain ⟨υ, u1, u2⟩ := ih cs1 cs' hok1 (Block.run_wellFormed hb.1 hw h1) h2 k (by omega) τ t1 fun c hc => by
      rw [inWords_agree (hl c hc).1.known t2, ← hh c (List.mem_cons_of_mem _ hc)]
      exact (FpVar.eval_agreeOn t2 (hl c hc).1.outKnown).symm
    exact ⟨υ, u1, t2.trans (AgreeOn.of_le d1.numInstance.ge (by rw [d1.numWitness]; exact Nat.le_add_right _ _) u2)⟩

/-- Blocks with a row left out. -/
theorem blocks_fault : ∀ (l : List Block) (cs cs' : CS Fq), (∀ b ∈ l, b.Ok cs ∧ b.Vars) → WellFormed cs → runBlocks l cs = .ok cs' →
    ∀ k, cs.constraints.length ≤ k → k < cs'.constraints.length →
    ∃ (m : Nat) (hm : m < l.length) (x : Fin (l[m].i.val + 2) → Fq) (D : Fq),
      (∀ (j : Fin (l[m].i.val + 2)) (c : Fq), l[m].inputs[j] = .constant c → x j = c) ∧ D ≠ perm377 l[m].i x 1 ∧
      ∀ σ, SatisfiesBut k σ cs → inWords σ l[m].inputs = x → l[m].out.eval σ = D →
        (∀ (n : Nat) (hn : n < l.length), n ≠ m → l[n].out.eval σ = perm377 l[n].i (inWords σ l[n].inputs) 1) →
        ∃ τ, SatisfiesBut k τ cs' ∧ AgreeOn cs σ τ := by
  intro l
  induction l with
  | nil =>
    intro cs cs' _ _ h k hk1 hk2
    cases h
    omega
  | cons b l ih =>
    intro cs cs' hok hw h k hk1 hk2
    rw [runBlocks] at h
    obtain ⟨cs1, h1, h2⟩ := run_bind_ok h
    obtain ⟨hb, hl⟩ := List.forall_mem_cons.1 hok
    have d1 := Block.run_did hb.1 h1
    have hok1 : ∀ c ∈ l, c.Ok cs1 ∧ c.Vars := fun c hc => ⟨(hl c hc).1.of_le d1.numInstance.ge (by rw [d1.numWitness]; exact Nat.le_add_right _ _), (hl c hc).2⟩
    have d2 := run_did (fun c hc => (hok1 c hc).1) h2
    have l1 := d1.pre.length_le
    have hw1 := Block.run_wellFormed hb.1 hw h1
    by_cases hk : k < cs1.constraints.length
    · obtain ⟨x, D, hx, hD, hf⟩ := b.fault hb.1 hb.2 hw h1 hk1 hk
      refine ⟨0, by simp, x, D, hx, hD, fun σ hσ hin hout hoth => ?_⟩
      obtain ⟨τ, t1, t2⟩ := hf σ hσ hin hout
      obtain ⟨υ, u1, u2⟩ := blocks_good l cs1 cs' hok1 hw1 h2 k (Or.inl hk) τ t1 fun c hc => by
        obtain ⟨n, hn, rfl⟩ := List.getElem_of_mem hc
        have := hoth (n + 1) (by simpa using hn) (by omega)
        rw [inWords_agree (hl _ hc).1.known t2]
        refine Eq.trans ?_ this
        exact (FpVar.eval_agreeOn t2 (hl _ hc).1.outKnown).symm
      exact ⟨υ, u1, t2.trans (AgreeOn.of_le d1.numInstance.ge (by rw [d1.numWitness]; exact Nat.le_add_right _ _) u2)⟩
    · obtain ⟨m, hm, x, D, hx, hD, hf⟩ := ih cs1 cs' hok1 hw1 h2 k (by omega) hk2
      refine ⟨m + 1, by simpa using hm, x, D, hx, hD, fun σ hσ hin hout hoth => ?_⟩
      obtain ⟨τ, t1, t2⟩ := b.good hb.1 hb.2 hw h1 (Or.inr (by omega)) hσ (hoth 0 (by simp) (by omega))
      have hmem : ∀ (n : Nat) (hn : n < l.length), l[n].Ok cs := fun n hn => (hl _ (List.getElem_mem hn)).1
      obtain ⟨υ, u1, u2⟩ := hf τ t1 ((inWords_agree (hmem m hm).known t2).trans hin)
        ((FpVar.eval_agreeOn t2 (hmem m hm).outKnown).symm.trans hout) fun n hn hne => by
          rw [inWords_agree (hmem n hn).known t2]
          exact (FpVar.eval_agreeOn t2 (hmem n hn).outKnown).symm.trans (hoth (n + 1) (by simpa using hn) (by omega))
      exact ⟨υ, u1, t2.trans (AgreeOn.of_le d1.numInstance.ge (by rw [d1.numWitness]; exact Nat.le_add_right _ _) u2)⟩

/-! ### The circuit -/

/-- The block `m` of the circuit: a constant, witnesses `0, 1, …, m`, and public input `m + 1`. -/
structure R1cs.Block.At (b : Block) (m : Nat) (ds : Fq) : Prop where
  i_eq : b.i.val = m
  out_eq : ∀ σ, b.out.eval σ = σ (.input (1 + m))
  zero : ∀ j : Fin (b.i.val + 2), j.val = 0 → b.inputs[j] = .constant ds
  word : ∀ (j : Fin (b.i.val + 2)) (n : Nat), j.val = n + 1 → b.inputs[j].isVar = true ∧ ∀ σ, b.inputs[j].eval σ = σ (.witness n)

theorem theBlocks_at (ds : Fq) (setup : Bool) (x y : Fin 7 → Fq) {m : Nat} {b : Block}
    (hb : (theBlocks (.constant ds) (preVar setup x) (outVar setup y))[m]? = some b) : b.At m ds := by
  have hm : m < 7 := (List.getElem?_eq_some_iff.1 hb).1
  have hl : b.i.val = m ∧ b.out = outVar setup y ⟨m, hm⟩ ∧
      b.inputs.toList = .constant ds :: ((List.finRange 7).map (preVar setup x)).take (m + 1) := by
    interval_cases m <;> (cases hb; exact ⟨rfl, rfl, rfl⟩)
  have e : ∀ j : Fin (b.i.val + 2), b.inputs.toList[j.val]? = some b.inputs[j] := by
    intro j
    rw [List.getElem?_eq_getElem (by simp)]
    simp
  rw [hl.2.2] at e
  refine ⟨hl.1, fun σ => by rw [hl.2.1, outVar_eval], fun j hj => ?_, fun j n hn => ?_⟩
  · have := e j
    simp only [hj, List.getElem?_cons_zero] at this
    exact (Option.some.inj this).symm
  · have h1 := j.isLt
    have h7 : n < 7 := by omega
    have h2 := e j
    simp only [hn, List.getElem?_cons_succ] at h2
    rw [List.getElem?_take_of_lt (by omega), List.getElem?_map, List.getElem?_eq_getElem (by simpa using h7)] at h2
    simp only [List.getElem_finRange, Option.map_some] at h2
    rw [← Option.some.inj h2]
    exact ⟨rfl, fun σ => preVar_eval _ _ _ _⟩

theorem faulty_circuit {B : List Block} {ds : Fq} (hat : ∀ (n : Nat) (hn : n < B.length), B[n].At n ds) {cs0 cs : CS Fq}
    (hok : ∀ b ∈ B, b.Ok cs0) (h0 : cs0.constraints = []) (h : runBlocks B cs0 = .ok cs) {k : Nat} (hk : k < cs.constraints.length) :
    ∃ τ : R1cs.Variable → Fq, SatisfiesBut k τ cs ∧
      ∃ b ∈ B, ¬ Block.Hashes b.i (b.inputs.map (FpVar.eval τ)) (b.out.eval τ) := by
  have hok' : ∀ b ∈ B, b.Ok cs0 ∧ b.Vars := by
    intro b hb
    refine ⟨hok b hb, fun j hj => ?_⟩
    obtain ⟨m, hm, rfl⟩ := List.getElem_of_mem hb
    have hj0 : j.val ≠ 0 := fun h => hj (Fin.ext h)
    exact ((hat m hm).word j (j.val - 1) (by omega)).1
  obtain ⟨m, hm, x, D, hx, hD, hf⟩ := blocks_fault B cs0 cs hok' (fun con hc => by rw [h0] at hc; exact absurd hc List.not_mem_nil) h k
    (by rw [h0]; exact Nat.zero_le _) hk
  -- the preimages, then the public inputs
  let w : Nat → Fq := fun n => if h : n + 1 < B[m].i.val + 2 then x ⟨n + 1, h⟩ else 0
  let σ1 : R1cs.Variable → Fq := fun v => match v with
    | .one => 1
    | .input _ => 0
    | .witness n => w n
  let y : Nat → Fq := fun n => if n = m then D else if h : n < B.length then perm377 B[n].i (inWords σ1 B[n].inputs) 1 else 0
  let σ : R1cs.Variable → Fq := fun v => match v with
    | .one => 1
    | .input n => y (n - 1)
    | .witness n => w n
  have hin : ∀ (n : Nat) (hn : n < B.length), inWords σ B[n].inputs = inWords σ1 B[n].inputs := by
    intro n hn
    funext j
    by_cases hj : j.val = 0
    · rw [inWords, inWords, (hat n hn).zero j hj]; rfl
    · have e := ((hat n hn).word j (j.val - 1) (by omega)).2
      rw [inWords, inWords, e, e]
  have hinm : inWords σ B[m].inputs = x := by
    funext j
    by_cases hj : j.val = 0
    · have e := (hat m hm).zero j hj
      rw [inWords, e, hx j _ e]; rfl
    · have e := ((hat m hm).word j (j.val - 1) (by omega)).2
      rw [inWords, e]
      show w (j.val - 1) = x j
      have h1 : j.val - 1 + 1 < B[m].i.val + 2 := by have := j.isLt; omega
      have h2 : (⟨j.val - 1 + 1, h1⟩ : Fin (B[m].i.val + 2)) = j := Fin.ext (by show j.val - 1 + 1 = j.val; omega)
      simp only [w]
      rw [dif_pos h1, h2]
  have hout : ∀ (n : Nat) (hn : n < B.length), B[n].out.eval σ = y n := by
    intro n hn
    rw [(hat n hn).out_eq]
    show y (1 + n - 1) = y n
    rw [Nat.add_sub_cancel_left]
  obtain ⟨τ, t1, t2⟩ := hf σ ⟨rfl, fun i con _ hc => by rw [h0] at hc; cases hc⟩ hinm ((hout m hm).trans (if_pos rfl)) fun n hn hne => by
    rw [hout n hn, hin n hn]
    simp only [y]
    rw [if_neg hne, dif_pos hn]
  refine ⟨τ, t1, B[m], List.getElem_mem hm, fun hm' => ?_⟩
  have hkm := hok B[m] (List.getElem_mem hm)
  rw [hashes_eval, inWords_agree hkm.known t2, hinm, ← FpVar.eval_agreeOn t2 hkm.outKnown, hout m hm] at hm'
  exact hD ((if_pos rfl).symm.trans hm')

/-- **C112**, for the circuit with a shipped key: leave out any one of its 2457 constraints, and there is an assignment
that satisfies the others although the public inputs are not the hashes of the preimages. -/
theorem C112_preimage_circuit (c : PreimageCircuit) (setup : Bool) (cs : CS Fq)
    (h : generateConstraints c (CS.new Fq setup) = .ok cs) (k : Nat) (hk : k < cs.constraints.length) :
    ∃ τ : R1cs.Variable → Fq, SatisfiesBut k τ cs ∧ ¬ PreimageRelation (firstWitnesses τ) (publicInputs τ) := by
  rw [generateConstraints_eq] at h
  obtain ⟨τ, t1, b, hb, hn⟩ := faulty_circuit
    (fun n hn => theBlocks_at testDomainSep setup (fun i => c.preimages[i]) (fun i => c.hashOutputs[i]) (List.getElem?_eq_getElem hn))
    (theBlocks_ok _ _ _) rfl h hk
  refine ⟨τ, t1, fun hrel => hn ?_⟩
  rw [relation_eval] at hrel
  exact (theBlocks_hashes _ setup (fun i => c.preimages[i]) (fun i => c.hashOutputs[i]) τ).2 hrel b hb

/-- The circuit of the shipped key has constraints to leave out. -/
example (c : PreimageCircuit) : ∃ cs, generateConstraints c (CS.new Fq true) = .ok cs ∧ cs.constraints.length = 2457 := by
  obtain ⟨cs, h⟩ := C62_setup c
  exact ⟨cs, h, (C62_size c true cs h).1⟩

end Poseidon
