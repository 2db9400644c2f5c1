import Verif.Proofs.Preimage
import Verif.Proofs.R1csColumns

/-! # The columns of the preimage circuit: which variables occur in the rows, and where -/

set_option linter.unusedSectionVars false

namespace Poseidon.R1cs

variable {F : Type} [Field F] [DecidableEq F]

/-! ### Four kinds of columns -/

/-- In no row of the first two matrices. -/
def Absent (v : Variable) (l : List (LC F × LC F × LC F)) : Prop := ∀ con ∈ l, LC.coeff v con.1 = 0 ∧ LC.coeff v con.2.1 = 0

/-- In a row of the first matrix, in none of the second. -/
def OnlyA (v : Variable) (l : List (LC F × LC F × LC F)) : Prop :=
  (∃ con ∈ l, LC.coeff v con.1 ≠ 0) ∧ ∀ con ∈ l, LC.coeff v con.2.1 = 0

/-- In both, the same column. -/
def Same (v : Variable) (l : List (LC F × LC F × LC F)) : Prop :=
  (∃ con ∈ l, LC.coeff v con.2.1 ≠ 0) ∧ ∀ con ∈ l, LC.coeff v con.1 = LC.coeff v con.2.1

/-- In both, different columns. -/
def Differ (v : Variable) (l : List (LC F × LC F × LC F)) : Prop :=
  (∃ con ∈ l, LC.coeff v con.1 ≠ 0) ∧ ∃ con ∈ l, LC.coeff v con.2.1 ≠ 0 ∧ LC.coeff v con.1 = 0

inductive Kind where
  | absent
  | onlyA
  | same
  | differ
  deriving DecidableEq

def Kind.Holds (v : Variable) (l : List (LC F × LC F × LC F)) : Kind → Prop
  | .absent => Absent v l
  | .onlyA => OnlyA v l
  | .same => Same v l
  | .differ => Differ v l

theorem exists_left {α : Type} {P : α → Prop} {a b : List α} (h : ∃ x ∈ a, P x) : ∃ x ∈ a ++ b, P x := by
  obtain ⟨x, hx, h⟩ := h
  exact ⟨x, List.mem_append_left _ hx, h⟩

theorem exists_right {α : Type} {P : α → Prop} {a b : List α} (h : ∃ x ∈ b, P x) : ∃ x ∈ a ++ b, P x := by
  obtain ⟨x, hx, h⟩ := h
  exact ⟨x, List.mem_append_right _ hx, h⟩

theorem Kind.Holds.append_absent {v : Variable} {a b : List (LC F × LC F × LC F)} {k : Kind} (h : k.Holds v a) (h' : Absent v b) :
    k.Holds v (a ++ b) := by
  cases k with
  | absent => exact fun con hc => (List.mem_append.1 hc).elim (h con) (h' con)
  | onlyA => exact ⟨exists_left h.1, fun con hc => (List.mem_append.1 hc).elim (h.2 con) fun hc => (h' con hc).2⟩
  | same => exact ⟨exists_left h.1, fun con hc => (List.mem_append.1 hc).elim (h.2 con) fun hc => (h' con hc).1.trans (h' con hc).2.symm⟩
  | differ => exact ⟨exists_left h.1, exists_left h.2⟩

theorem Kind.Holds.absent_append {v : Variable} {a b : List (LC F × LC F × LC F)} {k : Kind} (h' : Absent v a) (h : k.Holds v b) :
    k.Holds v (a ++ b) := by
  cases k with
  | absent => exact fun con hc => (List.mem_append.1 hc).elim (h' con) (h con)
  | onlyA => exact ⟨exists_right h.1, fun con hc => (List.mem_append.1 hc).elim (fun hc => (h' con hc).2) (h.2 con)⟩
  | same => exact ⟨exists_right h.1, fun con hc => (List.mem_append.1 hc).elim (fun hc => (h' con hc).1.trans (h' con hc).2.symm) (h.2 con)⟩
  | differ => exact ⟨exists_right h.1, exists_right h.2⟩

/-! ### Rows of S-boxes -/

theorem mem_rowsOf {con : LC F × LC F × LC F} : ∀ {as : List (LC F)} {n : Nat}, con ∈ rowsOf n as ↔
    ∃ (k : Nat) (h : k < as.length), con ∈ sboxRows as[k] (n + 5 * k) := by
  intro as
  induction as with
  | nil => intro n; simp [rowsOf]
  | cons a as ih =>
    intro n
    rw [rowsOf, List.mem_append, ih]
    constructor
    · rintro (h | ⟨k, hk, h⟩)
      · exact ⟨0, by simp, by simpa using h⟩
      · exact ⟨k + 1, by simpa using hk, by
          rw [show n + 5 * (k + 1) = n + 5 + 5 * k by ring]; simpa using h⟩
    · rintro ⟨k, hk, h⟩
      cases k with
      | zero => exact Or.inl (by simpa using h)
      | succ k =>
        refine Or.inr ⟨k, by simpa using hk, ?_⟩
        rw [show n + 5 * (k + 1) = n + 5 + 5 * k by ring] at h
        simpa using h

theorem wit_coeff (v : Variable) (i : Nat) : LC.coeff (F := F) v (wit i) = if .witness i = v then 1 else 0 := wit_eval _ _

theorem wit_coeff_ne {v : Variable} {i : Nat} (h : v ≠ .witness i) : LC.coeff (F := F) v (wit i) = 0 := by
  rw [wit_coeff, if_neg (Ne.symm h)]

theorem wit_coeff_self (i : Nat) : LC.coeff (F := F) (.witness i) (wit i) = 1 := by rw [wit_coeff, if_pos rfl]

/-- Case analysis over the rows. -/
theorem forall_rows {as : List (LC F)} {n : Nat} {P : LC F × LC F × LC F → Prop}
    (h1 : ∀ k (h : k < as.length), P (as[k], as[k], wit (n + 5 * k)))
    (h2 : ∀ k, k < as.length → ∀ r, r < 3 → P (wit (n + 5 * k + r), wit (n + 5 * k + r), wit (n + 5 * k + r + 1)))
    (h3 : ∀ k (h : k < as.length), P (wit (n + 5 * k + 3), as[k], wit (n + 5 * k + 4))) : ∀ con ∈ rowsOf n as, P con := by
  intro con hc
  obtain ⟨k, hk, h⟩ := mem_rowsOf.1 hc
  simp only [sboxRows, List.mem_cons, List.not_mem_nil, or_false] at h
  rcases h with rfl | rfl | rfl | rfl | rfl
  · exact h1 k hk
  · exact h2 k hk 0 (by omega)
  · exact h2 k hk 1 (by omega)
  · exact h2 k hk 2 (by omega)
  · exact h3 k hk

theorem row_mem1 {as : List (LC F)} {n k : Nat} (h : k < as.length) : (as[k], as[k], wit (n + 5 * k)) ∈ rowsOf n as :=
  mem_rowsOf.2 ⟨k, h, by simp [sboxRows]⟩

theorem row_mem2 {as : List (LC F)} {n k r : Nat} (h : k < as.length) (hr : r < 3) :
    (wit (n + 5 * k + r), wit (n + 5 * k + r), wit (n + 5 * k + r + 1)) ∈ rowsOf n as := by
  refine mem_rowsOf.2 ⟨k, h, ?_⟩
  obtain rfl | rfl | rfl : r = 0 ∨ r = 1 ∨ r = 2 := by omega
  all_goals simp [sboxRows]

theorem row_mem3 {as : List (LC F)} {n k : Nat} (h : k < as.length) : (wit (n + 5 * k + 3), as[k], wit (n + 5 * k + 4)) ∈ rowsOf n as :=
  mem_rowsOf.2 ⟨k, h, by simp [sboxRows]⟩

theorem coeff_getElem {as : List (LC F)} {v : Variable} (h : ∃ a ∈ as, LC.coeff v a ≠ 0) :
    ∃ (k : Nat) (hk : k < as.length), LC.coeff v as[k] ≠ 0 := by
  obtain ⟨a, ha, h⟩ := h
  obtain ⟨k, hk, rfl⟩ := List.getElem_of_mem ha
  exact ⟨k, hk, h⟩

/-! ### The row of an equality -/

theorem enforceEqual_row {a b : FpVar F} (ha : a.isVar = true) (hb : b.isVar = true) (cs : CS F) :
    ∃ e, (a.enforceEqual b cs).constraints = cs.constraints ++ [e] ∧
      (∀ v, v ≠ .one → LC.coeff v e.1 = a.coeff v - b.coeff v ∧ LC.coeff v e.2.1 = 0) ∧ e.2.1 = [(1, .one)] ∧ e.2.2 = [] := by
  cases a with
  | constant c => cases ha
  | var x =>
    cases b with
    | constant c => cases hb
    | var y =>
      refine ⟨_, rfl, fun v hv => ⟨?_, ?_⟩, rfl, rfl⟩
      · dsimp only [LC.coeff, FpVar.coeff, FpVar.hev]
        rw [LC.eval_append, LC.eval_neg, sub_eq_add_neg]
      · dsimp only [LC.coeff]
        rw [LC.eval_single, ind_one hv, mul_zero]

/-! ### Blocks -/

/-- The block is as in the test: a constant and variables that were there before. -/
structure Block.Fits (b : Block) (n : Nat) : Prop where
  vars : ∀ i (hi : i < b.inputs.toList.length), b.inputs.toList[i].isVar = decide (1 ≤ i)
  fresh : ∀ i, n ≤ i → ∀ x ∈ b.inputs.toList, x.coeff (.witness i) = 0
  outFresh : ∀ i, n ≤ i → b.out.coeff (.witness i) = 0
  size : b.size = 5 * (8 * (b.i.val + 2) + 30)

theorem Block.Fits.mono {b : Block} {n m : Nat} (h : b.Fits n) (hm : n ≤ m) : b.Fits m :=
  ⟨h.vars, fun i hi => h.fresh i (hm.trans hi), fun i hi => h.outFresh i (hm.trans hi), h.size⟩

/-- The kind of the `r`-th witness of the S-box `k` of a hash of `t` words. -/
def sboxKind (t k r : Nat) : Kind :=
  if r < 3 then .same else if r = 3 then .onlyA else if k < 7 * t + 30 then .differ else .onlyA

theorem mds_ne (i : Fin 7) (a b : Fin (i.val + 2)) : (shippedParams i).mds.toM rfl a b ≠ 0 := by
  rw [shipped_mds_cauchy]
  show (((a.val + b.val + (i.val + 2) : Nat) : Fq))⁻¹ ≠ 0
  rw [Ne, inv_eq_zero, ZMod.natCast_eq_zero_iff]
  intro h
  have := Nat.le_of_dvd (by omega) h
  have ha := a.isLt
  have hb := b.isLt
  have hi := i.isLt
  have : (100 : Nat) ≤ q := by decide +kernel
  omega

theorem Block.columns {b : Block} {cs cs' : CS Fq} (hb : b.Ok cs) (hf : b.Fits cs.numWitness) (h : b.run cs = .ok cs') :
    ∃ new, cs'.constraints = cs.constraints ++ new ∧
      (∀ k r, k < 8 * (b.i.val + 2) + 30 → r < 5 →
        (sboxKind (b.i.val + 2) k r).Holds (.witness (cs.numWitness + 5 * k + r)) new) ∧
      (∀ v, v ≠ .one → (∀ i, v = .witness i → i < cs.numWitness ∨ cs.numWitness + b.size ≤ i) →
        ((∀ x ∈ b.inputs.toList, x.coeff v = 0) → b.out.coeff v = 0 → Absent v new) ∧
        ((∀ x ∈ b.inputs.toList, x.coeff v = 0) → b.out.coeff v ≠ 0 → OnlyA v new) ∧
        ((∃ x ∈ b.inputs.toList, x.coeff v ≠ 0) → Differ v new)) ∧
      (∃ con ∈ new, con.2.1 = [(1, .one)]) ∧ ∀ con ∈ new, con.2.2 = [] ∨ ∃ i, con.2.2 = wit i := by
  have hd := Block.run_did hb h
  unfold Block.run at h
  cases h1 : nTo1FixedHash (shippedParams b.i) b.inputs cs with
  | error e => rw [h1] at h; cases h
  | ok r =>
    obtain ⟨o, cs1⟩ := r
    rw [h1, ok_bind] at h
    have h : b.out.enforceEqual o cs1 = cs' := Except.ok.inj h
    obtain ⟨as, l, H⟩ := hash_rows (shippedParams b.i) (shipped_alpha b.i) (by omega) rfl (fun j => mds_ne b.i _ j)
      (by rw [shipped_rounds]; decide) hf.fresh hf.vars _ h1
    have hv := enforceEqual_vars b.out o cs1
    have hv3 : (b.out.enforceEqual o cs1).numWitness = cs1.numWitness := congrArg (fun x => x.2.2.1) hv
    have hlen : as.length = 8 * (b.i.val + 2) + 30 := by
      have k1 := hd.numWitness
      rw [← h, hv3, H.boxes.2, hf.size] at k1
      omega
    have hl : l = 7 * (b.i.val + 2) + 30 := by
      have := H.length
      omega
    obtain ⟨e, he, hev, heb, hec⟩ := enforceEqual_row hb.outVar H.isVar cs1
    refine ⟨rowsOf cs.numWitness as ++ [e], by rw [← h, he, H.boxes.1, List.append_assoc], ?_, ?_,
      exists_right ⟨e, List.mem_singleton_self _, heb⟩, fun con hc => ?_⟩
    · intro k r hk hr
      have hkl : k < as.length := by omega
      have hne : (Variable.witness (cs.numWitness + 5 * k + r)) ≠ .one := fun h => by cases h
      have hout0 : b.out.coeff (.witness (cs.numWitness + 5 * k + r)) = 0 := hf.outFresh _ (by omega)
      have hin : ∀ x ∈ b.inputs.toList, x.coeff (.witness (cs.numWitness + 5 * k + r)) = 0 := hf.fresh _ (by omega)
      by_cases hr4 : r = 4
      · subst hr4
        by_cases hkt : k < 7 * (b.i.val + 2) + 30
        · -- output of an S-box before the last round
          have e1 : sboxKind (b.i.val + 2) k 4 = .differ := by simp [sboxKind, hkt]
          rw [e1]
          obtain ⟨m, hm, hcm⟩ := coeff_getElem (H.early k (by omega))
          refine ⟨exists_left ⟨_, row_mem1 hm, hcm⟩, exists_left ⟨_, row_mem3 hm, hcm, ?_⟩⟩
          refine wit_coeff_ne ?_
          rw [Ne, Variable.witness.injEq]
          omega
        · have e1 : sboxKind (b.i.val + 2) k 4 = .onlyA := by simp [sboxKind, hkt]
          rw [e1]
          have hkj : k = l + (k - l) := by omega
          have hoo := H.outs ⟨k - l, by omega⟩
          have hbo : boxOut cs.numWitness (l + (k - l)) = .witness (cs.numWitness + 5 * k + 4) := by
            rw [← hkj]; rfl
          dsimp only at hoo
          rw [hbo] at hoo
          have hla := H.late (k - l) (by omega)
          rw [hbo] at hla
          refine ⟨exists_right ⟨e, List.mem_singleton_self _, ?_⟩, ?_⟩
          · rw [(hev _ hne).1, hout0, zero_sub, neg_ne_zero, hoo]
            exact mds_ne _ _ _
          · intro con hc
            rcases List.mem_append.1 hc with hc | hc
            · refine forall_rows (P := fun con => LC.coeff (.witness (cs.numWitness + 5 * k + 4)) con.2.1 = 0)
                (fun m hm => hla _ (List.getElem_mem _)) (fun m hm r hr => wit_coeff_ne ?_)
                (fun m hm => hla _ (List.getElem_mem _)) con hc
              rw [Ne, Variable.witness.injEq]
              omega
            · rw [List.mem_singleton.1 hc]
              exact (hev _ hne).2
      · -- a witness inside an S-box
        have hz := H.never _ hne hin fun m hm => by
          rw [boxOut, Ne, Variable.witness.injEq]; omega
        have hz' : ∀ m (hm : m < as.length), LC.coeff (.witness (cs.numWitness + 5 * k + r)) as[m] = 0 :=
          fun m hm => hz _ (List.getElem_mem _)
        have heA : LC.coeff (.witness (cs.numWitness + 5 * k + r)) e.1 = 0 := by
          rw [(hev _ hne).1, hout0, H.other _ hne fun j hj => by rw [boxOut, Ne, Variable.witness.injEq]; omega, sub_zero]
        by_cases hr3 : r = 3
        · subst hr3
          have e1 : sboxKind (b.i.val + 2) k 3 = .onlyA := by simp [sboxKind]
          rw [e1]
          refine ⟨exists_left ⟨_, row_mem3 hkl, by rw [wit_coeff_self]; exact one_ne_zero⟩, ?_⟩
          intro con hc
          rcases List.mem_append.1 hc with hc | hc
          · refine forall_rows (P := fun con => LC.coeff (.witness (cs.numWitness + 5 * k + 3)) con.2.1 = 0)
              (fun m hm => hz' m hm) (fun m hm r hr => wit_coeff_ne ?_) (fun m hm => hz' m hm) con hc
            rw [Ne, Variable.witness.injEq]
            omega
          · rw [List.mem_singleton.1 hc]
            exact (hev _ hne).2
        · have e1 : sboxKind (b.i.val + 2) k r = .same := by simp [sboxKind, show r < 3 by omega]
          rw [e1]
          refine ⟨exists_left ⟨_, row_mem2 (r := r) hkl (by omega), by rw [wit_coeff_self]; exact one_ne_zero⟩, ?_⟩
          intro con hc
          rcases List.mem_append.1 hc with hc | hc
          · refine forall_rows (P := fun con => LC.coeff (.witness (cs.numWitness + 5 * k + r)) con.1 =
                LC.coeff (.witness (cs.numWitness + 5 * k + r)) con.2.1)
              (fun m hm => rfl) (fun m hm r hr => rfl) (fun m hm => ?_) con hc
            dsimp only
            rw [hz' m hm]
            refine wit_coeff_ne ?_
            rw [Ne, Variable.witness.injEq]
            omega
          · rw [List.mem_singleton.1 hc, heA, (hev _ hne).2]
    · intro v hv hold
      have hw : ∀ i, cs.numWitness ≤ i → i < cs.numWitness + b.size → v ≠ .witness i := by
        rintro i h1 h2 rfl
        have := hold i rfl
        omega
      have hsz := hf.size
      have hoz : o.coeff v = 0 := H.other v hv fun j hj => hw _ (by omega) (by omega)
      have hB : (∀ x ∈ b.inputs.toList, x.coeff v = 0) → Absent v (rowsOf cs.numWitness as) := by
        intro hx
        have hz := H.never v hv hx fun m hm => hw _ (by omega) (by omega)
        have hz' : ∀ m (hm : m < as.length), LC.coeff v as[m] = 0 := fun m hm => hz _ (List.getElem_mem _)
        refine forall_rows (fun m hm => ⟨hz' m hm, hz' m hm⟩) (fun m hm r hr => ?_) (fun m hm => ⟨?_, hz' m hm⟩)
        · have := wit_coeff_ne (F := Fq) (hw (cs.numWitness + 5 * m + r) (by omega) (by omega))
          exact ⟨this, this⟩
        · exact wit_coeff_ne (hw _ (by omega) (by omega))
      refine ⟨fun hx hO => ?_, fun hx hO => ?_, fun hx => ?_⟩
      · refine Kind.Holds.append_absent (k := .absent) (hB hx) fun con hc => ?_
        rw [List.mem_singleton.1 hc, (hev v hv).1, (hev v hv).2, hO, hoz, sub_zero]
        exact ⟨rfl, rfl⟩
      · refine Kind.Holds.absent_append (k := .onlyA) (hB hx) ⟨⟨e, List.mem_singleton_self _, ?_⟩, fun con hc => ?_⟩
        · rw [(hev v hv).1, hoz, sub_zero]
          exact hO
        · rw [List.mem_singleton.1 hc]
          exact (hev v hv).2
      · obtain ⟨x, hx, hxv⟩ := hx
        have hxd : x ∈ b.inputs.toList.drop 1 := by
          obtain ⟨i, hi, rfl⟩ := List.getElem_of_mem hx
          cases i with
          | zero =>
            refine absurd ?_ hxv
            exact FpVar.hev_const (by rw [hf.vars 0 hi]; rfl) (ind_one hv)
          | succ i => exact List.mem_drop_iff_getElem.2 ⟨i, by omega, by simp [Nat.add_comm]⟩
        obtain ⟨m, hm, hcm⟩ := coeff_getElem (H.inputs v hv x hxd hxv)
        exact ⟨exists_left ⟨_, row_mem1 hm, hcm⟩, exists_left ⟨_, row_mem3 hm, hcm, wit_coeff_ne (hw _ (by omega) (by omega))⟩⟩
    · rcases List.mem_append.1 hc with hc | hc
      · exact forall_rows (P := fun con => con.2.2 = [] ∨ ∃ i, con.2.2 = wit i) (fun m hm => .inr ⟨_, rfl⟩)
          (fun m hm r hr => .inr ⟨_, rfl⟩) (fun m hm => .inr ⟨_, rfl⟩) con hc
      · rw [List.mem_singleton.1 hc]
        exact .inl hec

/-! ### Several blocks -/

/-- Witnesses of a list of hashes of these widths. -/
def totalSize : List Nat → Nat
  | [] => 0
  | t :: ts => 5 * (8 * t + 30) + totalSize ts

/-- The kind of the `i`-th of them. -/
def kindOf : List Nat → Nat → Kind
  | [], _ => .absent
  | t :: ts, i => if i < 5 * (8 * t + 30) then sboxKind t (i / 5) (i % 5) else kindOf ts (i - 5 * (8 * t + 30))

def Block.width (b : Block) : Nat := b.i.val + 2

theorem runBlocks_columns : ∀ {l : List Block} {cs cs' : CS Fq}, (∀ b ∈ l, b.Ok cs) → (∀ b ∈ l, b.Fits cs.numWitness) →
    runBlocks l cs = .ok cs' →
    ∃ new, cs'.constraints = cs.constraints ++ new ∧
      (∀ i, i < totalSize (l.map Block.width) → (kindOf (l.map Block.width) i).Holds (.witness (cs.numWitness + i)) new) ∧
      (∀ v, v ≠ .one → (∀ i, v = .witness i → i < cs.numWitness ∨ cs.numWitness + totalSize (l.map Block.width) ≤ i) →
        ((∀ b ∈ l, ∀ x ∈ b.inputs.toList, x.coeff v = 0) → (∀ b ∈ l, b.out.coeff v = 0) → Absent v new) ∧
        ((∀ b ∈ l, ∀ x ∈ b.inputs.toList, x.coeff v = 0) → (∃ b ∈ l, b.out.coeff v ≠ 0) → OnlyA v new) ∧
        ((∃ b ∈ l, ∃ x ∈ b.inputs.toList, x.coeff v ≠ 0) → Differ v new)) ∧
      (l ≠ [] → ∃ con ∈ new, con.2.1 = [(1, .one)]) ∧ ∀ con ∈ new, con.2.2 = [] ∨ ∃ i, con.2.2 = wit i := by
  intro l
  induction l with
  | nil =>
    intro cs cs' _ _ h
    cases h
    refine ⟨[], by simp, fun i hi => by simp [totalSize] at hi, fun v _ _ => ⟨fun _ _ con hc => by simp at hc, ?_, ?_⟩,
      fun h => absurd rfl h, fun con hc => by simp at hc⟩
    · rintro _ ⟨b, hb, _⟩; simp at hb
    · rintro ⟨b, hb, _⟩; simp at hb
  | cons b l ih =>
    intro cs cs' hok hfit h
    obtain ⟨cs1, h1, h2⟩ : ∃ cs1, b.run cs = .ok cs1 ∧ runBlocks l cs1 = .ok cs' := by
      unfold runBlocks at h
      cases h1 : b.run cs with
      | error e => rw [h1] at h; cases h
      | ok cs1 => rw [h1, ok_bind] at h; exact ⟨cs1, rfl, h⟩
    have hb := hok b List.mem_cons_self
    have hf := hfit b List.mem_cons_self
    have hd := Block.run_did hb h1
    obtain ⟨n1, e1, own1, old1, one1, out1⟩ := Block.columns hb hf h1
    have hle : cs.numWitness ≤ cs1.numWitness := by rw [hd.numWitness]; omega
    obtain ⟨n2, e2, own2, old2, -, out2⟩ := ih (fun c hc => (hok c (List.mem_cons_of_mem _ hc)).of_le hd.numInstance.ge hle)
      (fun c hc => (hfit c (List.mem_cons_of_mem _ hc)).mono hle) h2
    have hsz : b.size = 5 * (8 * b.width + 30) := hf.size
    rw [hd.numWitness, hsz] at own2 old2
    rw [hsz] at old1
    refine ⟨n1 ++ n2, by rw [e2, e1, List.append_assoc], fun i hi => ?_, fun v hv hold => ?_, fun _ => exists_left one1,
      fun con hc => (List.mem_append.1 hc).elim (out1 con) (out2 con)⟩
    · rw [List.map_cons, totalSize] at hi
      rw [List.map_cons, kindOf]
      have hne : (Variable.witness (cs.numWitness + i)) ≠ .one := fun h => by cases h
      split
      · next hlt =>
        refine Kind.Holds.append_absent ?_ ?_
        · have := own1 (i / 5) (i % 5) (by show i / 5 < 8 * b.width + 30; omega) (Nat.mod_lt _ (by omega))
          rw [show cs.numWitness + 5 * (i / 5) + i % 5 = cs.numWitness + i by omega] at this
          exact this
        · refine (old2 _ hne ?_).1 (fun c hc x hx => (hfit c (List.mem_cons_of_mem _ hc)).fresh _ (by omega) x hx)
            (fun c hc => (hfit c (List.mem_cons_of_mem _ hc)).outFresh _ (by omega))
          intro j hj
          injection hj with hj
          left
          omega
      · next hlt =>
        refine Kind.Holds.absent_append ?_ ?_
        · refine (old1 _ hne ?_).1 (fun x hx => hf.fresh _ (by omega) x hx) (hf.outFresh _ (by omega))
          intro j hj
          injection hj with hj
          right
          omega
        · have := own2 (i - 5 * (8 * b.width + 30)) (by omega)
          rw [show cs.numWitness + 5 * (8 * b.width + 30) + (i - 5 * (8 * b.width + 30)) = cs.numWitness + i by omega] at this
          exact this
    · rw [List.map_cons, totalSize] at hold
      have hold1 : ∀ i, v = .witness i → i < cs.numWitness ∨ cs.numWitness + 5 * (8 * b.width + 30) ≤ i := fun i hi => by
        have := hold i hi; omega
      have hold2 : ∀ i, v = .witness i → i < cs.numWitness + 5 * (8 * b.width + 30) ∨
          cs.numWitness + 5 * (8 * b.width + 30) + totalSize (l.map Block.width) ≤ i := fun i hi => by
        have := hold i hi; omega
      obtain ⟨a1, o1, d1⟩ := old1 v hv hold1
      obtain ⟨a2, o2, d2⟩ := old2 v hv hold2
      simp only [List.forall_mem_cons, List.exists_mem_cons_iff]
      refine ⟨fun hx ho => ?_, fun hx ho => ?_, ?_⟩
      · exact Kind.Holds.append_absent (k := .absent) (a1 hx.1 ho.1) (a2 hx.2 ho.2)
      · by_cases ho1 : b.out.coeff v = 0
        · refine Kind.Holds.absent_append (k := .onlyA) (a1 hx.1 ho1) (o2 hx.2 ?_)
          exact ho.resolve_left fun h => h ho1
        · have k1 := o1 hx.1 ho1
          by_cases ho2 : ∃ c ∈ l, c.out.coeff v ≠ 0
          · have k2 := o2 hx.2 ho2
            exact ⟨exists_left k1.1, fun con hc => (List.mem_append.1 hc).elim (k1.2 con) (k2.2 con)⟩
          · push Not at ho2
            exact Kind.Holds.append_absent (k := .onlyA) k1 (a2 hx.2 ho2)
      · rintro (h | h)
        · exact ⟨exists_left (d1 h).1, exists_left (d1 h).2⟩
        · exact ⟨exists_right (d2 h).1, exists_right (d2 h).2⟩

/-! ### The test's circuit -/

theorem preVar_coeff (s : Bool) (x : Fin 7 → Fq) (i : Fin 7) (v : Variable) :
    (preVar s x i).coeff v = if .witness i.val = v then 1 else 0 := wit_eval _ _

theorem outVar_coeff (s : Bool) (y : Fin 7 → Fq) (i : Fin 7) (v : Variable) :
    (outVar s y i).coeff v = if .input (1 + i.val) = v then 1 else 0 := by
  show LC.eval (ind v) [(1, .input (1 + i.val))] = _
  rw [LC.eval_single, one_mul]
  rfl

theorem const_coeff (c : Fq) {v : Variable} (hv : v ≠ .one) : (FpVar.constant c).coeff v = 0 := FpVar.hev_const rfl (ind_one hv)

theorem theBlocks_fits (s : Bool) (x y : Fin 7 → Fq) :
    ∀ b ∈ theBlocks (.constant testDomainSep) (preVar s x) (outVar s y), b.Fits 7 := by
  have hp : ∀ (i : Fin 7) (j : Nat), 7 ≤ j → (preVar s x i).coeff (.witness j) = 0 := fun i j hj => by
    rw [preVar_coeff, if_neg]
    rw [Variable.witness.injEq]
    omega
  have ho : ∀ (i : Fin 7) (j : Nat), (outVar s y i).coeff (.witness j) = 0 := fun i j => by
    rw [outVar_coeff, if_neg]
    exact fun h => by cases h
  have hc : ∀ j : Nat, (FpVar.constant testDomainSep).coeff (.witness j) = 0 := fun j => const_coeff _ fun h => by cases h
  have hpv : ∀ i, (preVar s x i).isVar = true := fun _ => rfl
  have hcv : (FpVar.constant testDomainSep).isVar = false := rfl
  generalize preVar s x = pv at hp hpv
  generalize outVar s y = hv at ho
  generalize FpVar.constant testDomainSep = ds at hc hcv
  unfold theBlocks
  simp only [List.forall_mem_cons, List.not_mem_nil, false_imp_iff, implies_true, and_true]
  refine ⟨?_, ?_, ?_, ?_, ?_, ?_, ?_⟩ <;>
    (refine ⟨?_, ?_, fun j _ => ho _ j, ?_⟩
     · intro i hi
       simp only [Vector.toList_mk, List.length_cons, List.length_nil] at hi ⊢
       interval_cases i <;> simp [hcv, hpv]
     · intro j hj z hz
       simp only [Vector.toList_mk, List.mem_cons, List.not_mem_nil, or_false] at hz
       rcases hz with rfl | hz
       · exact hc j
       · rcases hz with rfl | rfl | rfl | rfl | rfl | rfl | rfl <;> exact hp _ j hj
     · simp [Block.size, hcv, hpv])

/-- The variable of a column of the matrices of a system with 8 public variables. -/
def colVar (j : Nat) : Variable := if j = 0 then .one else if j < 8 then .input j else .witness (j - 8)

/-- The kind of a column. -/
def columnKind (j : Nat) : Kind :=
  if j < 8 then .onlyA else if j < 15 then .differ else kindOf [2, 3, 4, 5, 6, 7, 8] (j - 15)

theorem circuit_columns {c : PreimageCircuit} {s : Bool} {cs : CS Fq} (h : generateConstraints c (CS.new Fq s) = .ok cs) (j : Nat)
    (h0 : 0 < j) (hj : j < 2465) : (columnKind j).Holds (colVar j) cs.constraints := by
  rw [generateConstraints_eq] at h
  obtain ⟨new, e, own, old, -, -⟩ := runBlocks_columns (theBlocks_ok _ _ _) (theBlocks_fits _ _ _) h
  rw [show (startCS s (fun i => c.preimages[i]) (fun i => c.hashOutputs[i])).constraints = [] from rfl, List.nil_append] at e
  rw [e]
  change ∀ i, i < totalSize [2, 3, 4, 5, 6, 7, 8] → (kindOf [2, 3, 4, 5, 6, 7, 8] i).Holds (.witness (7 + i)) new at own
  have ht : totalSize [2, 3, 4, 5, 6, 7, 8] = 2450 := by decide
  rw [ht] at own
  have htb : totalSize (List.map Block.width (theBlocks (.constant testDomainSep) (preVar s fun i => c.preimages[i])
      (outVar s fun i => c.hashOutputs[i]))) = 2450 := ht
  rw [htb, show (startCS s (fun i => c.preimages[i]) (fun i => c.hashOutputs[i])).numWitness = 7 from rfl] at old
  have hne : colVar j ≠ .one := by
    unfold colVar
    rw [if_neg (by omega)]
    split <;> exact fun h => by cases h
  unfold columnKind
  by_cases h8 : j < 8
  · rw [if_pos h8]
    have hcv : colVar j = .input j := by unfold colVar; rw [if_neg (by omega), if_pos h8]
    refine (old _ hne ?_).2.1 ?_ ?_
    · rw [hcv]; exact fun i h => by cases h
    · rw [hcv]
      have hp : ∀ i : Fin 7, (preVar s (fun i => c.preimages[i]) i).coeff (.input j) = 0 := fun i => by
        rw [preVar_coeff, if_neg]; exact fun h => by cases h
      have hc : (FpVar.constant testDomainSep).coeff (.input j) = 0 := const_coeff _ fun h => by cases h
      generalize preVar s (fun i => c.preimages[i]) = pv at hp
      unfold theBlocks
      simp [hp, hc]
    · rw [hcv]
      have ho : ∀ i : Fin 7, (outVar s (fun i => c.hashOutputs[i]) i).coeff (.input j) = if 1 + i.val = j then 1 else 0 := fun i => by
        rw [outVar_coeff]; simp only [Variable.input.injEq]
      unfold theBlocks
      simp only [List.exists_mem_cons_iff, List.not_mem_nil, false_and, exists_false, or_false, ho]
      interval_cases j <;> decide
  · rw [if_neg h8]
    have hcv : colVar j = .witness (j - 8) := by unfold colVar; rw [if_neg (by omega), if_neg h8]
    by_cases h15 : j < 15
    · rw [if_pos h15]
      refine (old _ hne ?_).2.2 ?_
      · rw [hcv]
        intro i h
        injection h with h
        omega
      · refine ⟨⟨6, #v[.constant testDomainSep, preVar s (fun i => c.preimages[i]) 0, preVar s (fun i => c.preimages[i]) 1,
          preVar s (fun i => c.preimages[i]) 2, preVar s (fun i => c.preimages[i]) 3, preVar s (fun i => c.preimages[i]) 4,
          preVar s (fun i => c.preimages[i]) 5, preVar s (fun i => c.preimages[i]) 6], outVar s (fun i => c.hashOutputs[i]) 6⟩,
          by unfold theBlocks; simp, preVar s (fun i => c.preimages[i]) ⟨j - 8, by omega⟩, ?_, ?_⟩
        · simp only [Vector.toList_mk]
          interval_cases j <;> simp
        · rw [preVar_coeff, hcv, if_pos rfl]
          exact one_ne_zero
    · rw [if_neg h15, hcv]
      have := own (j - 15) (by omega)
      rw [show 7 + (j - 15) = j - 8 by omega] at this
      exact this

/-- The constant column and the third matrix. -/
theorem circuit_rest {c : PreimageCircuit} {s : Bool} {cs : CS Fq} (h : generateConstraints c (CS.new Fq s) = .ok cs) :
    (∃ con ∈ cs.constraints, con.2.1 = [(1, .one)]) ∧ ∀ con ∈ cs.constraints, con.2.2 = [] ∨ ∃ i, con.2.2 = wit i := by
  rw [generateConstraints_eq] at h
  obtain ⟨new, e, -, -, h1, h2⟩ := runBlocks_columns (theBlocks_ok _ _ _) (theBlocks_fits _ _ _) h
  rw [show (startCS s (fun i => c.preimages[i]) (fun i => c.hashOutputs[i])).constraints = [] from rfl, List.nil_append] at e
  rw [e]
  exact ⟨h1 (by unfold theBlocks; exact List.cons_ne_nil _ _), h2⟩

end Poseidon.R1cs
