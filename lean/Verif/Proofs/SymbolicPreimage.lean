import Verif.Proofs.SymbolicInline
import Verif.Proofs.Preimage

/-! # The preimage circuit with symbolic linear combinations; rows are determined by what they compute -/

set_option linter.unusedSectionVars false

namespace Poseidon.Sym

variable {F : Type} [Field F] [DecidableEq F]
variable {t tm1 nmds nhat rows cols nround npart : Nat}

/-! ### Uniqueness of rows -/

theorem dot_cons (x : F × Nat) (row : List (F × Nat)) (z : Nat → F) : dot (x :: row) z = x.1 * z x.2 + dot row z := by
  simp [dot]

theorem dot_congr {n : Nat} {row : List (F × Nat)} (h : CleanRow n row) {z z' : Nat → F} (hz : ∀ j, j < n → z j = z' j) :
    dot row z = dot row z' := by
  unfold dot
  congr 1
  refine List.map_congr_left fun x hx => ?_
  rw [hz _ (h.2 x hx).2]

/-- One in column `j`. -/
def unit (j k : Nat) : F := if k = j then 1 else 0

theorem dot_unit_ne {j : Nat} : ∀ {row : List (F × Nat)}, (∀ x ∈ row, x.2 ≠ j) → dot row (unit j) = 0 := by
  intro row
  induction row with
  | nil => intro _; rfl
  | cons x row ih =>
    intro h
    rw [dot_cons, ih fun y hy => h y (List.mem_cons_of_mem _ hy)]
    simp [unit, h x List.mem_cons_self]

theorem dot_unit {j : Nat} {c : F} : ∀ {row : List (F × Nat)}, (row.map Prod.snd).Pairwise (· < ·) → (c, j) ∈ row →
    dot row (unit j) = c := by
  intro row
  induction row with
  | nil => intro _ h; cases h
  | cons x row ih =>
    intro h hm
    rw [List.map_cons, List.pairwise_cons] at h
    have hlt : ∀ y ∈ row, x.2 < y.2 := fun y hy => h.1 y.2 (List.mem_map.2 ⟨y, hy, rfl⟩)
    rw [dot_cons]
    rcases List.mem_cons.1 hm with rfl | hm
    · rw [dot_unit_ne fun y hy => (hlt y hy).ne']
      simp [unit]
    · rw [ih h.2 hm]
      have := hlt _ hm
      dsimp only at this
      simp [unit, this.ne]

theorem clean_mem {n : Nat} {row : List (F × Nat)} (h : CleanRow n row) (x : F × Nat) :
    x ∈ row ↔ x.1 ≠ 0 ∧ dot row (unit x.2) = x.1 := by
  obtain ⟨c, j⟩ := x
  constructor
  · intro hx
    exact ⟨(h.2 _ hx).1, dot_unit h.1 hx⟩
  · rintro ⟨h0, h1⟩
    by_cases hj : ∃ y ∈ row, y.2 = j
    · obtain ⟨⟨d, k⟩, hy, rfl⟩ := hj
      have := dot_unit h.1 hy
      dsimp only at h1 this ⊢
      rw [← h1, this]
      exact hy
    · rw [dot_unit_ne fun y hy hyj => hj ⟨y, hy, hyj⟩] at h1
      exact absurd h1.symm h0

theorem clean_unique {n m : Nat} {row row' : List (F × Nat)} (h : CleanRow n row) (h' : CleanRow m row')
    (hd : ∀ z, dot row z = dot row' z) : row = row' := by
  have hp : row.Pairwise fun a b => a.2 < b.2 := List.pairwise_map.1 h.1
  have hp' : row'.Pairwise fun a b => a.2 < b.2 := List.pairwise_map.1 h'.1
  have : Std.Irrefl fun a b : F × Nat => a.2 < b.2 := ⟨fun a => lt_irrefl _⟩
  have : Std.Asymm fun a b : F × Nat => a.2 < b.2 := ⟨fun a b h1 h2 => lt_asymm h1 h2⟩
  refine List.Perm.eq_of_pairwise (le := fun a b : F × Nat => a.2 < b.2) (fun a b _ _ h1 h2 => absurd h1 (lt_asymm h2)) hp hp' ?_
  refine (List.perm_ext_iff_of_nodup (hp.imp fun {a b} h e => by rw [e] at h; exact lt_irrefl _ h)
    (hp'.imp fun {a b} h e => by rw [e] at h; exact lt_irrefl _ h)).2 fun x => ?_
  rw [clean_mem h, clean_mem h', hd]

theorem rows_unique {ni nw : Nat} : ∀ {ls : List (R1cs.LC F)} {rs rs' : List (List (F × Nat))},
    List.Forall₂ (RowOf ni nw) ls rs → List.Forall₂ (RowOf ni nw) ls rs' → rs = rs' := by
  intro ls rs rs' h
  induction h generalizing rs' with
  | nil => intro h'; cases h'; rfl
  | cons h1 _ ih =>
    intro h'
    cases h' with
    | cons h2 h3 => rw [ih h3, clean_unique h1.1 h2.1 fun z => (h1.2 z).trans (h2.2 z).symm]

theorem forall₂_get {ni nw : Nat} : ∀ {ls : List (R1cs.LC F)} {rs : List (List (F × Nat))}, List.Forall₂ (RowOf ni nw) ls rs →
    ∀ (k : Nat) (row : List (F × Nat)), rs[k]? = some row → ∃ l, ls[k]? = some l ∧ RowOf ni nw l row := by
  intro ls rs h
  induction h with
  | nil => intro k row h; simp at h
  | cons h1 _ ih =>
    intro k row h
    cases k with
    | zero =>
      rw [List.getElem?_cons_zero, Option.some.injEq] at h
      subst h
      exact ⟨_, by simp, h1⟩
    | succ k =>
      rw [List.getElem?_cons_succ] at h
      obtain ⟨l, h2, h3⟩ := ih k row h
      exact ⟨l, by simpa using h2, h3⟩

theorem forall₂_clean {ni nw : Nat} {ls : List (R1cs.LC F)} {rs : List (List (F × Nat))} (h : List.Forall₂ (RowOf ni nw) ls rs) :
    ∀ row ∈ rs, CleanRow (ni + nw) row := by
  intro row hr
  obtain ⟨k, hk, rfl⟩ := List.getElem_of_mem hr
  obtain ⟨l, -, h2⟩ := forall₂_get h k _ (List.getElem?_eq_getElem hk)
  exact h2.1

/-- The matrices say what the inlined constraints say. -/
theorem satisfied_iff {cs : CS F} {M : Matrices F}
    (ha : List.Forall₂ (RowOf cs.numInstance cs.numWitness) (cs.lower.constraints.map (·.1)) M.a)
    (hb : List.Forall₂ (RowOf cs.numInstance cs.numWitness) (cs.lower.constraints.map (·.2.1)) M.b)
    (hc : List.Forall₂ (RowOf cs.numInstance cs.numWitness) (cs.lower.constraints.map (·.2.2)) M.c) (z : Nat → F) :
    M.Satisfied z ↔ ∀ con ∈ cs.lower.constraints, R1cs.LC.eval (ofColumns cs.numInstance z) con.1 *
      R1cs.LC.eval (ofColumns cs.numInstance z) con.2.1 = R1cs.LC.eval (ofColumns cs.numInstance z) con.2.2 := by
  constructor
  · intro h con hcon
    obtain ⟨k, hk, rfl⟩ := List.getElem_of_mem hcon
    have la : k < M.a.length := by rw [← ha.length_eq, List.length_map]; exact hk
    have lb : k < M.b.length := by rw [← hb.length_eq, List.length_map]; exact hk
    have lc : k < M.c.length := by rw [← hc.length_eq, List.length_map]; exact hk
    have := h k _ _ _ (List.getElem?_eq_getElem la) (List.getElem?_eq_getElem lb) (List.getElem?_eq_getElem lc)
    obtain ⟨l1, e1, r1⟩ := forall₂_get ha k _ (List.getElem?_eq_getElem la)
    obtain ⟨l2, e2, r2⟩ := forall₂_get hb k _ (List.getElem?_eq_getElem lb)
    obtain ⟨l3, e3, r3⟩ := forall₂_get hc k _ (List.getElem?_eq_getElem lc)
    rw [List.getElem?_map, List.getElem?_eq_getElem hk, Option.map_some, Option.some.injEq] at e1 e2 e3
    rw [r1.2, r2.2, r3.2, ← e1, ← e2, ← e3] at this
    exact this
  · intro h k a b c h1 h2 h3
    obtain ⟨l1, e1, r1⟩ := forall₂_get ha k _ h1
    obtain ⟨l2, e2, r2⟩ := forall₂_get hb k _ h2
    obtain ⟨l3, e3, r3⟩ := forall₂_get hc k _ h3
    rw [List.getElem?_map] at e1 e2 e3
    obtain ⟨con, hcon, rfl⟩ := Option.map_eq_some_iff.1 e1
    rw [hcon, Option.map_some, Option.some.injEq] at e2 e3
    rw [r1.2, r2.2, r3.2, ← e2, ← e3]
    exact h con (List.mem_of_getElem? hcon)

/-! ### Inlined combinations are about allocated variables -/

theorem lowWith_known {cs : CS F} {acc : List (R1cs.LC F)} (ha : ∀ l ∈ acc, R1cs.LC.Known cs.lower l) {v : Var}
    (hv : v.Known cs) : R1cs.LC.Known cs.lower (v.lowWith acc) := by
  cases v with
  | one => intro x hx; rw [List.mem_singleton.1 hx]; trivial
  | input i => intro x hx; rw [List.mem_singleton.1 hx]; exact hv.2
  | witness i => intro x hx; rw [List.mem_singleton.1 hx]; exact hv
  | lc i =>
    intro x hx
    have hx : x ∈ acc.getD i [] := hx
    rw [List.getD_eq_getElem?_getD] at hx
    cases h : acc[i]? with
    | none => rw [h] at hx; exact absurd hx List.not_mem_nil
    | some l => rw [h] at hx; exact ha l (List.mem_of_getElem? h) x hx

theorem lowAll_known {cs : CS F} (m : List (LC F)) (hm : ∀ l ∈ m, ∀ x ∈ l, x.2.Known cs) :
    ∀ l ∈ lowAll m, R1cs.LC.Known cs.lower l := by
  induction m using List.reverseRecOn with
  | nil => intro l hl; cases hl
  | append_singleton m l ih =>
    have ih := ih fun l' hl' => hm l' (List.mem_append_left _ hl')
    rw [lowAll_snoc]
    intro l' hl'
    rcases List.mem_append.1 hl' with h | h
    · exact ih l' h
    · rw [List.mem_singleton.1 h]
      intro y hy
      obtain ⟨x, hx, hy⟩ := List.mem_flatMap.1 hy
      obtain ⟨w, hw, rfl⟩ := List.mem_map.1 hy
      exact lowWith_known ih (hm l (by simp) x hx) w hw

theorem CS.Sound.known {cs : CS F} (hs : cs.Sound) : ∀ l ∈ lowAll cs.lcMap, R1cs.LC.Known cs.lower l := by
  refine lowAll_known _ fun l hl x hx => ?_
  obtain ⟨i, hi⟩ := List.mem_iff_getElem?.1 hl
  exact (hs.terms i l hi x hx).1

theorem low_known {cs : CS F} (hs : cs.Sound) {x : FpVar F} (hx : x.Known cs) : (x.low cs).Known cs.lower := by
  cases x with
  | constant c => trivial
  | var v => exact lowWith_known hs.known hx

theorem lower_wellFormed {cs : CS F} (hs : cs.Sound) : R1cs.WellFormed cs.lower := by
  have key : ∀ i, R1cs.LC.Known cs.lower ((Var.lc i).low cs) := by
    intro i x hx
    have hx : x ∈ (lowAll cs.lcMap).getD i [] := hx
    rw [List.getD_eq_getElem?_getD] at hx
    cases h : (lowAll cs.lcMap)[i]? with
    | none => rw [h] at hx; exact absurd hx List.not_mem_nil
    | some l => rw [h] at hx; exact hs.known l (List.mem_of_getElem? h) x hx
  intro con hcon
  obtain ⟨k, -, rfl⟩ := List.mem_map.1 hcon
  exact ⟨key _, key _, key _⟩

theorem known_congr {cs : R1cs.CS F} {l : R1cs.LC F} (hl : R1cs.LC.Known cs l) {σ τ : R1cs.Variable → F}
    (h : ∀ v : R1cs.Variable, v.Known cs → σ v = τ v) : R1cs.LC.eval σ l = R1cs.LC.eval τ l := by
  unfold R1cs.LC.eval
  congr 1
  exact List.map_congr_left fun x hx => by rw [h _ (hl x hx)]

theorem columns_stored' {cs : CS F} (hi : cs.instanceAssignment.length = cs.numInstance)
    (h1 : cs.instanceAssignment[0]? = some 1) : R1cs.Stored cs.lower (ofColumns cs.numInstance cs.columns) := by
  have hget : ∀ i x, cs.instanceAssignment[i]? = some x → cs.columns i = x := by
    intro i x hx
    have hi : i < cs.instanceAssignment.length := (List.getElem?_eq_some_iff.1 hx).1
    rw [CS.columns, List.getD_eq_getElem?_getD, List.getElem?_append_left hi, hx]
    rfl
  refine ⟨hget 0 1 h1, hget, ?_⟩
  intro i x hx
  show cs.columns (cs.numInstance + i) = x
  rw [CS.columns, List.getD_eq_getElem?_getD, ← hi, List.getElem?_append_right (by omega), Nat.add_sub_cancel_left]
  have hx : cs.witnessAssignment[i]? = some x := hx
  rw [hx]
  rfl

theorem columns_stored {cs : CS F} (h : cs.Proving) : R1cs.Stored cs.lower (ofColumns cs.numInstance cs.columns) :=
  columns_stored' h.instances h.one

theorem stored_agree {cs : CS F} (h : cs.Proving) {σ τ : R1cs.Variable → F} (hσ : R1cs.Stored cs.lower σ)
    (hτ : R1cs.Stored cs.lower τ) : ∀ v : R1cs.Variable, v.Known cs.lower → σ v = τ v := by
  intro v hv
  cases v with
  | one => rw [hσ.1, hτ.1]
  | input i =>
    have hi : i < cs.instanceAssignment.length := by rw [h.instances]; exact hv
    rw [hσ.2.1 i _ (List.getElem?_eq_getElem hi), hτ.2.1 i _ (List.getElem?_eq_getElem hi)]
  | witness i =>
    have hi : i < cs.witnessAssignment.length := by rw [h.witnesses]; exact hv
    rw [hσ.2.2 i _ (List.getElem?_eq_getElem hi), hτ.2.2 i _ (List.getElem?_eq_getElem hi)]

theorem carries_low {cs : CS F} (hs : cs.Sound) (hp : cs.Proving) {x : FpVar F} (hk : x.Known cs) (a : F) :
    R1cs.Carries cs.lower (x.low cs) a ↔ x.Carries cs a := by
  cases x with
  | constant c => exact Iff.rfl
  | var v =>
    have e := eval_low (ofColumns cs.numInstance cs.columns) cs (.var v)
    constructor
    · rintro ⟨h1, h2⟩
      exact ⟨h1, by rw [← e]; exact h2 _ (columns_stored hp)⟩
    · rintro ⟨h1, h2⟩
      refine ⟨h1, fun σ hσ => ?_⟩
      rw [← h2, ← e]
      exact known_congr (cs := cs.lower) (lowWith_known hs.known hk) (stored_agree hp hσ (columns_stored hp))

/-! ### The preimage circuit -/

theorem allocPreimages_low (l : List Fq) {cs : CS Fq} (hs : cs.Sound) :
    Both (LPost cs) (allocPreimages l cs) (R1cs.allocPreimages l cs.lower) := by
  unfold allocPreimages R1cs.allocPreimages
  refine Both.forList (Rel := LPost cs) _ _ _ ⟨Ext.refl _, hs, by simp, rfl⟩ ?_
  rintro x - ⟨vars, cs1⟩ _ ⟨hE, hs1, hl1, rfl⟩
  dsimp only at hE hs1 hl1 ⊢
  refine Both.bind (newWitness_low _ hs1) ?_
  rintro ⟨v, cs2⟩ _ ⟨hE2, hs2, hv, rfl⟩
  dsimp only at hE2 hs2 hv ⊢
  refine ⟨hE.trans hE2, hs2, ?_, ?_⟩
  · intro x hx
    rcases List.mem_append.1 hx with h | h
    · exact hE2.known (hl1 x h)
    · rw [List.mem_singleton.1 h]
      exact hv
  · rw [List.map_append, hE2.lows hl1]
    rfl

theorem allocOutputs_low (l : List Fq) {cs : CS Fq} (hs : cs.Sound) :
    Both (LPost cs) (allocOutputs l cs) (R1cs.allocOutputs l cs.lower) := by
  unfold allocOutputs R1cs.allocOutputs
  refine Both.forList (Rel := LPost cs) _ _ _ ⟨Ext.refl _, hs, by simp, rfl⟩ ?_
  rintro x - ⟨vars, cs1⟩ _ ⟨hE, hs1, hl1, rfl⟩
  dsimp only at hE hs1 hl1 ⊢
  refine Both.bind (newInput_low _ hs1) ?_
  rintro ⟨v, cs2⟩ _ ⟨hE2, hs2, hv, rfl⟩
  dsimp only at hE2 hs2 hv ⊢
  refine ⟨hE.trans hE2, hs2, ?_, ?_⟩
  · intro x hx
    rcases List.mem_append.1 hx with h | h
    · exact hE2.known (hl1 x h)
    · rw [List.mem_singleton.1 h]
      exact hv
  · rw [List.map_append, hE2.lows hl1]
    rfl

/-- Hashing variables of an earlier system. -/
theorem hash_step (p : Params Fq t tm1 nmds nhat rows cols nround npart) (inputs : Vector (FpVar Fq) t)
    (inputs' : Vector (R1cs.FpVar Fq) t) {cs0 cs : CS Fq} (hE : Ext cs0 cs) (hs : cs.Sound)
    (hk : ∀ x ∈ inputs.toList, x.Known cs0) (hl : inputs.toList.map (FpVar.low cs0) = inputs'.toList) :
    Both (Post cs0) (nTo1FixedHash p inputs cs) (R1cs.nTo1FixedHash p inputs' cs.lower) := by
  have e : inputs.map (FpVar.low cs) = inputs' := by
    apply Vector.toList_inj.1
    rw [Vector.toList_map, hE.lows hk, hl]
  rw [← e]
  refine (hash_low p hs fun x hx => hE.known (hk x hx)).mono ?_
  rintro ⟨s2, cs2⟩ _ ⟨hE2, h⟩
  exact ⟨hE.trans hE2, h⟩

/-- Comparing with a variable of an earlier system. -/
theorem eq_step {cs0 cs : CS Fq} (hE : Ext cs0 cs) (hs : cs.Sound) {h o : FpVar Fq} (hh : h.Known cs0) (ho : o.Known cs) :
    Ext cs0 (h.enforceEqual o cs) ∧ (h.enforceEqual o cs).Sound ∧
      R1cs.FpVar.enforceEqual (h.low cs0) (o.low cs) cs.lower = (h.enforceEqual o cs).lower := by
  obtain ⟨h1, h2, h3⟩ := enforceEqual_low (a := h) hs (hE.known hh) ho
  refine ⟨hE.trans h1, h2, ?_⟩
  rw [h3, hE.low hh]

theorem generateConstraints_low (c : R1cs.PreimageCircuit) {cs : CS Fq} (hs : cs.Sound) :
    Both (fun cs' d => cs'.Sound ∧ d = cs'.lower) (generateConstraints c cs) (R1cs.generateConstraints c cs.lower) := by
  unfold generateConstraints R1cs.generateConstraints
  refine Both.bind (allocPreimages_low _ hs) ?_
  rintro ⟨pv, cs1⟩ _ ⟨hE1, hs1, hpv, rfl⟩
  dsimp only at hE1 hs1 hpv ⊢
  refine Both.bind (allocOutputs_low _ hs1) ?_
  rintro ⟨hv, cs2⟩ _ ⟨hE2, hs2, hhv, rfl⟩
  dsimp only at hE2 hs2 hhv ⊢
  rw [← hE2.lows hpv]
  replace hpv : ∀ x ∈ pv, x.Known cs2 := fun x hx => hE2.known (hpv x hx)
  have hds : (FpVar.constant R1cs.testDomainSep).Known cs2 := trivial
  have hE : Ext cs2 cs2 := Ext.refl _
  have hs := hs2
  refine Both.bind (lget_low hpv 0) ?_
  rintro x0 _ ⟨hx0, rfl⟩
  refine Both.bind (hash_step rate1Params #v[FpVar.constant R1cs.testDomainSep, x0] #v[R1cs.FpVar.constant R1cs.testDomainSep, x0.low cs2] hE hs (by
    show ∀ x ∈ [FpVar.constant R1cs.testDomainSep, x0], _
    simp only [List.forall_mem_cons, List.not_mem_nil, false_imp_iff, implies_true, and_true]
    exact ⟨hds, hx0⟩) rfl) ?_
  rintro ⟨o1, ds1⟩ _ ⟨hF1, hr1, ho1, rfl⟩
  dsimp only at hF1 hr1 ho1 ⊢
  refine Both.bind (lget_low hhv 0) ?_
  rintro h1 _ ⟨hh1, rfl⟩
  obtain ⟨hG1, hq1, e1⟩ := eq_step hF1 hr1 hh1 ho1
  rw [e1]
  refine Both.bind (lget_low hpv 0) ?_
  rintro x0 _ ⟨hx0, rfl⟩
  refine Both.bind (lget_low hpv 1) ?_
  rintro x1 _ ⟨hx1, rfl⟩
  refine Both.bind (hash_step rate2Params #v[FpVar.constant R1cs.testDomainSep, x0, x1] #v[R1cs.FpVar.constant R1cs.testDomainSep, x0.low cs2, x1.low cs2] hG1 hq1 (by
    show ∀ x ∈ [FpVar.constant R1cs.testDomainSep, x0, x1], _
    simp only [List.forall_mem_cons, List.not_mem_nil, false_imp_iff, implies_true, and_true]
    exact ⟨hds, hx0, hx1⟩) rfl) ?_
  rintro ⟨o2, ds2⟩ _ ⟨hF2, hr2, ho2, rfl⟩
  dsimp only at hF2 hr2 ho2 ⊢
  refine Both.bind (lget_low hhv 1) ?_
  rintro h2 _ ⟨hh2, rfl⟩
  obtain ⟨hG2, hq2, e2⟩ := eq_step hF2 hr2 hh2 ho2
  rw [e2]
  refine Both.bind (lget_low hpv 0) ?_
  rintro x0 _ ⟨hx0, rfl⟩
  refine Both.bind (lget_low hpv 1) ?_
  rintro x1 _ ⟨hx1, rfl⟩
  refine Both.bind (lget_low hpv 2) ?_
  rintro x2 _ ⟨hx2, rfl⟩
  refine Both.bind (hash_step rate3Params #v[FpVar.constant R1cs.testDomainSep, x0, x1, x2] #v[R1cs.FpVar.constant R1cs.testDomainSep, x0.low cs2, x1.low cs2, x2.low cs2] hG2 hq2 (by
    show ∀ x ∈ [FpVar.constant R1cs.testDomainSep, x0, x1, x2], _
    simp only [List.forall_mem_cons, List.not_mem_nil, false_imp_iff, implies_true, and_true]
    exact ⟨hds, hx0, hx1, hx2⟩) rfl) ?_
  rintro ⟨o3, ds3⟩ _ ⟨hF3, hr3, ho3, rfl⟩
  dsimp only at hF3 hr3 ho3 ⊢
  refine Both.bind (lget_low hhv 2) ?_
  rintro h3 _ ⟨hh3, rfl⟩
  obtain ⟨hG3, hq3, e3⟩ := eq_step hF3 hr3 hh3 ho3
  rw [e3]
  refine Both.bind (lget_low hpv 0) ?_
  rintro x0 _ ⟨hx0, rfl⟩
  refine Both.bind (lget_low hpv 1) ?_
  rintro x1 _ ⟨hx1, rfl⟩
  refine Both.bind (lget_low hpv 2) ?_
  rintro x2 _ ⟨hx2, rfl⟩
  refine Both.bind (lget_low hpv 3) ?_
  rintro x3 _ ⟨hx3, rfl⟩
  refine Both.bind (hash_step rate4Params #v[FpVar.constant R1cs.testDomainSep, x0, x1, x2, x3] #v[R1cs.FpVar.constant R1cs.testDomainSep, x0.low cs2, x1.low cs2, x2.low cs2, x3.low cs2] hG3 hq3 (by
    show ∀ x ∈ [FpVar.constant R1cs.testDomainSep, x0, x1, x2, x3], _
    simp only [List.forall_mem_cons, List.not_mem_nil, false_imp_iff, implies_true, and_true]
    exact ⟨hds, hx0, hx1, hx2, hx3⟩) rfl) ?_
  rintro ⟨o4, ds4⟩ _ ⟨hF4, hr4, ho4, rfl⟩
  dsimp only at hF4 hr4 ho4 ⊢
  refine Both.bind (lget_low hhv 3) ?_
  rintro h4 _ ⟨hh4, rfl⟩
  obtain ⟨hG4, hq4, e4⟩ := eq_step hF4 hr4 hh4 ho4
  rw [e4]
  refine Both.bind (lget_low hpv 0) ?_
  rintro x0 _ ⟨hx0, rfl⟩
  refine Both.bind (lget_low hpv 1) ?_
  rintro x1 _ ⟨hx1, rfl⟩
  refine Both.bind (lget_low hpv 2) ?_
  rintro x2 _ ⟨hx2, rfl⟩
  refine Both.bind (lget_low hpv 3) ?_
  rintro x3 _ ⟨hx3, rfl⟩
  refine Both.bind (lget_low hpv 4) ?_
  rintro x4 _ ⟨hx4, rfl⟩
  refine Both.bind (hash_step rate5Params #v[FpVar.constant R1cs.testDomainSep, x0, x1, x2, x3, x4] #v[R1cs.FpVar.constant R1cs.testDomainSep, x0.low cs2, x1.low cs2, x2.low cs2, x3.low cs2, x4.low cs2] hG4 hq4 (by
    show ∀ x ∈ [FpVar.constant R1cs.testDomainSep, x0, x1, x2, x3, x4], _
    simp only [List.forall_mem_cons, List.not_mem_nil, false_imp_iff, implies_true, and_true]
    exact ⟨hds, hx0, hx1, hx2, hx3, hx4⟩) rfl) ?_
  rintro ⟨o5, ds5⟩ _ ⟨hF5, hr5, ho5, rfl⟩
  dsimp only at hF5 hr5 ho5 ⊢
  refine Both.bind (lget_low hhv 4) ?_
  rintro h5 _ ⟨hh5, rfl⟩
  obtain ⟨hG5, hq5, e5⟩ := eq_step hF5 hr5 hh5 ho5
  rw [e5]
  refine Both.bind (lget_low hpv 0) ?_
  rintro x0 _ ⟨hx0, rfl⟩
  refine Both.bind (lget_low hpv 1) ?_
  rintro x1 _ ⟨hx1, rfl⟩
  refine Both.bind (lget_low hpv 2) ?_
  rintro x2 _ ⟨hx2, rfl⟩
  refine Both.bind (lget_low hpv 3) ?_
  rintro x3 _ ⟨hx3, rfl⟩
  refine Both.bind (lget_low hpv 4) ?_
  rintro x4 _ ⟨hx4, rfl⟩
  refine Both.bind (lget_low hpv 5) ?_
  rintro x5 _ ⟨hx5, rfl⟩
  refine Both.bind (hash_step rate6Params #v[FpVar.constant R1cs.testDomainSep, x0, x1, x2, x3, x4, x5] #v[R1cs.FpVar.constant R1cs.testDomainSep, x0.low cs2, x1.low cs2, x2.low cs2, x3.low cs2, x4.low cs2, x5.low cs2] hG5 hq5 (by
    show ∀ x ∈ [FpVar.constant R1cs.testDomainSep, x0, x1, x2, x3, x4, x5], _
    simp only [List.forall_mem_cons, List.not_mem_nil, false_imp_iff, implies_true, and_true]
    exact ⟨hds, hx0, hx1, hx2, hx3, hx4, hx5⟩) rfl) ?_
  rintro ⟨o6, ds6⟩ _ ⟨hF6, hr6, ho6, rfl⟩
  dsimp only at hF6 hr6 ho6 ⊢
  refine Both.bind (lget_low hhv 5) ?_
  rintro h6 _ ⟨hh6, rfl⟩
  obtain ⟨hG6, hq6, e6⟩ := eq_step hF6 hr6 hh6 ho6
  rw [e6]
  refine Both.bind (lget_low hpv 0) ?_
  rintro x0 _ ⟨hx0, rfl⟩
  refine Both.bind (lget_low hpv 1) ?_
  rintro x1 _ ⟨hx1, rfl⟩
  refine Both.bind (lget_low hpv 2) ?_
  rintro x2 _ ⟨hx2, rfl⟩
  refine Both.bind (lget_low hpv 3) ?_
  rintro x3 _ ⟨hx3, rfl⟩
  refine Both.bind (lget_low hpv 4) ?_
  rintro x4 _ ⟨hx4, rfl⟩
  refine Both.bind (lget_low hpv 5) ?_
  rintro x5 _ ⟨hx5, rfl⟩
  refine Both.bind (lget_low hpv 6) ?_
  rintro x6 _ ⟨hx6, rfl⟩
  refine Both.bind (hash_step rate7Params #v[FpVar.constant R1cs.testDomainSep, x0, x1, x2, x3, x4, x5, x6] #v[R1cs.FpVar.constant R1cs.testDomainSep, x0.low cs2, x1.low cs2, x2.low cs2, x3.low cs2, x4.low cs2, x5.low cs2, x6.low cs2] hG6 hq6 (by
    show ∀ x ∈ [FpVar.constant R1cs.testDomainSep, x0, x1, x2, x3, x4, x5, x6], _
    simp only [List.forall_mem_cons, List.not_mem_nil, false_imp_iff, implies_true, and_true]
    exact ⟨hds, hx0, hx1, hx2, hx3, hx4, hx5, hx6⟩) rfl) ?_
  rintro ⟨o7, ds7⟩ _ ⟨hF7, hr7, ho7, rfl⟩
  dsimp only at hF7 hr7 ho7 ⊢
  refine Both.bind (lget_low hhv 6) ?_
  rintro h7 _ ⟨hh7, rfl⟩
  obtain ⟨hG7, hq7, e7⟩ := eq_step hF7 hr7 hh7 ho7
  exact ⟨hq7, e7⟩

end Poseidon.Sym
