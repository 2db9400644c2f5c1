import Verif.Proofs.R1csComplete

/-! # The gadget only appends products with a fresh witness -/

set_option linter.unusedSectionVars false

namespace Poseidon.R1cs

variable {F : Type} [Field F] [DecidableEq F]
variable {t tm1 nmds nhat rows cols nround npart : Nat}

/-- `cs'` arises from `cs` by allocating witnesses `w`, each with a constraint `a * b = w` over older variables. -/
inductive Grows (cs : CS F) : CS F → Prop
  | refl : Grows cs cs
  | step {cs1 cs2 : CS F} (h : Grows cs cs1) (a b : LC F) (ha : LC.Known cs1 a) (hb : LC.Known cs1 b)
      (hs : cs2.setup = cs1.setup) (hi : cs2.numInstance = cs1.numInstance)
      (hia : cs2.instanceAssignment = cs1.instanceAssignment) (hw : cs2.numWitness = cs1.numWitness + 1)
      (hwa : if cs1.setup then cs2.witnessAssignment = cs1.witnessAssignment
        else ∃ x, cs2.witnessAssignment = cs1.witnessAssignment ++ [x])
      (hc : cs2.constraints = cs1.constraints ++ [(a, b, [(1, .witness cs1.numWitness)])]) : Grows cs cs2

theorem Grows.trans {a b c : CS F} (h : Grows a b) (h' : Grows b c) : Grows a c := by
  induction h' with
  | refl => exact h
  | step _ x y ha hb hs hi hia hw hwa hc ih => exact .step ih x y ha hb hs hi hia hw hwa hc

theorem Grows.numInstance {a b : CS F} (h : Grows a b) : b.numInstance = a.numInstance := by
  induction h with
  | refl => rfl
  | step _ _ _ _ _ _ hi _ _ _ _ ih => rw [hi, ih]

theorem Grows.instanceAssignment {a b : CS F} (h : Grows a b) : b.instanceAssignment = a.instanceAssignment := by
  induction h with
  | refl => rfl
  | step _ _ _ _ _ _ _ hia _ _ _ ih => rw [hia, ih]

theorem Grows.setup {a b : CS F} (h : Grows a b) : b.setup = a.setup := by
  induction h with
  | refl => rfl
  | step _ _ _ _ _ hs _ _ _ _ _ ih => rw [hs, ih]

theorem Grows.numWitness {a b : CS F} (h : Grows a b) : a.numWitness ≤ b.numWitness := by
  induction h with
  | refl => exact le_rfl
  | step _ _ _ _ _ _ _ _ hw _ _ ih => omega

theorem Grows.constraints {a b : CS F} (h : Grows a b) : a.constraints <+: b.constraints := by
  induction h with
  | refl => exact List.prefix_rfl
  | step _ _ _ _ _ _ _ _ _ _ hc ih => rw [hc]; exact ih.trans (List.prefix_append _ _)

theorem Grows.witnessAssignment {a b : CS F} (h : Grows a b) : a.witnessAssignment <+: b.witnessAssignment := by
  induction h with
  | refl => exact List.prefix_rfl
  | step _ _ _ _ _ _ _ _ _ hwa _ ih =>
    split at hwa
    · rw [hwa]; exact ih
    · obtain ⟨x, hx⟩ := hwa
      rw [hx]; exact ih.trans (List.prefix_append _ _)

theorem Variable.Known.mono {a b : CS F} (h : Grows a b) {v : Variable} (hv : v.Known a) : v.Known b := by
  cases v with
  | one => trivial
  | input i => exact lt_of_lt_of_eq hv h.numInstance.symm
  | witness i => exact lt_of_lt_of_le hv h.numWitness

theorem LC.Known.mono {a b : CS F} (h : Grows a b) {l : LC F} (hl : LC.Known a l) : LC.Known b l :=
  fun x hx => (hl x hx).mono h

theorem FpVar.Known.mono {a b : CS F} (h : Grows a b) {x : FpVar F} (hx : x.Known a) : x.Known b := by
  cases x with
  | constant => trivial
  | var v => exact LC.Known.mono h hx

theorem Grows.satisfies {a b : CS F} (h : Grows a b) {σ : Variable → F} (hs : Satisfies σ b) : Satisfies σ a :=
  ⟨hs.1, fun con hc => hs.2 con (h.constraints.subset hc)⟩

/-! ### Operations -/

theorem amul_grows {cs : CS F} {a b : AllocatedFp F} (ha : LC.Known cs a.lc) (hb : LC.Known cs b.lc) :
    Ens (fun r => Grows cs r.2 ∧ LC.Known r.2 r.1.lc) (a.mul b cs) := by
  unfold AllocatedFp.mul newWitness
  simp only
  split
  · next hs =>
    refine Ens.ok ⟨.step .refl a.lc b.lc ha hb rfl rfl rfl rfl (by rw [if_pos hs]; rfl) rfl, ?_⟩
    intro x hx
    rw [List.mem_singleton] at hx; subst hx
    exact Nat.lt_succ_self _
  · next hs =>
    split
    · exact Ens.error
    · refine Ens.ok ⟨.step .refl a.lc b.lc ha hb rfl rfl rfl rfl (by rw [if_neg hs]; exact ⟨_, rfl⟩) rfl, ?_⟩
      intro x hx
      rw [List.mem_singleton] at hx; subst hx
      exact Nat.lt_succ_self _

theorem mulConstant_known {cs : CS F} {a : AllocatedFp F} (ha : LC.Known cs a.lc) (c : F) :
    LC.Known cs (a.mulConstant c).lc := by
  unfold AllocatedFp.mulConstant
  split
  · exact ha
  · intro x hx
    obtain ⟨y, hy, rfl⟩ := List.mem_map.1 hx
    exact ha y hy

theorem addConstant_known {cs : CS F} {a : FpVar F} (ha : a.Known cs) (c : F) : (a.addConstant c).Known cs := by
  cases a with
  | constant => trivial
  | var v =>
    simp only [FpVar.addConstant, AllocatedFp.addConstant]
    split
    · exact ha
    · intro x hx
      rcases List.mem_append.1 hx with hx | hx
      · exact ha x hx
      · rw [List.mem_singleton] at hx; subst hx; trivial

theorem mul_grows {cs : CS F} {a b : FpVar F} (ha : a.Known cs) (hb : b.Known cs) :
    Ens (fun r => Grows cs r.2 ∧ r.1.Known r.2) (a.mul b cs) := by
  unfold FpVar.mul
  split
  · exact Ens.ok ⟨.refl, trivial⟩
  · exact Ens.ok ⟨.refl, mulConstant_known hb _⟩
  · exact Ens.ok ⟨.refl, mulConstant_known ha _⟩
  · refine Ens.bind (amul_grows ha hb) fun r hr => Ens.ok hr

theorem square_grows {cs : CS F} {a : FpVar F} (ha : a.Known cs) :
    Ens (fun r => Grows cs r.2 ∧ r.1.Known r.2) (a.square cs) := by
  unfold FpVar.square
  split
  · exact Ens.ok ⟨.refl, trivial⟩
  · refine Ens.bind (amul_grows ha ha) fun r hr => Ens.ok hr

theorem sum_known {cs : CS F} (l : List (FpVar F)) (h : ∀ x ∈ l, x.Known cs) :
    Ens (fun r => r.Known cs) (FpVar.sum l) := by
  unfold FpVar.sum
  refine Ens.bind (Q := fun v : AllocatedFp F => FpVar.Known cs (.var v)) ?_ fun v hv => Ens.ok (addConstant_known (cs := cs) (a := .var v) hv _)
  unfold AllocatedFp.addmany
  split
  · exact Ens.error
  · refine Ens.ok ?_
    have key : ∀ (m : List (AllocatedFp F)) (acc : LC F), (∀ v ∈ m, LC.Known cs v.lc) → LC.Known cs acc →
        LC.Known cs (m.foldl (fun acc v => acc ++ v.lc) acc) := by
      intro m
      induction m with
      | nil => intro acc _ h; exact h
      | cons v m ih =>
        intro acc hm hacc
        refine ih _ (fun w hw => hm w (List.mem_cons_of_mem _ hw)) fun x hx => ?_
        rcases List.mem_append.1 hx with hx | hx
        · exact hacc x hx
        · exact hm v List.mem_cons_self x hx
    refine key _ _ (fun v hv => ?_) (fun x hx => by cases hx)
    obtain ⟨y, hy, hyv⟩ := List.mem_filterMap.1 hv
    cases y with
    | constant => cases hyv
    | var w => cases hyv; exact h _ hy

theorem pow_grows {cs : CS F} {a : FpVar F} (ha : a.Known cs) (e : Nat) :
    Ens (fun r => Grows cs r.2 ∧ r.1.Known r.2) (a.powByConstant e cs) := by
  unfold FpVar.powByConstant
  refine (Ens.forList (Inv := fun _ (r : FpVar F × CS F) => Grows cs r.2 ∧ r.1.Known r.2) (bitsBE e) 0 _ ⟨.refl, trivial⟩ ?_)
  rintro j hj ⟨res, cs1⟩ ⟨h1, h2⟩
  refine Ens.bind (square_grows h2) ?_
  rintro ⟨res2, cs2⟩ ⟨h3, h4⟩
  dsimp only at *
  split
  · exact (mul_grows h4 ((ha.mono h1).mono h3)).mono fun r hr => ⟨(h1.trans h3).trans hr.1, hr.2⟩
  · exact Ens.ok ⟨h1.trans h3, h4⟩

/-- All words known. -/
def KnownAll (cs : CS F) (s : List (FpVar F)) : Prop := ∀ x ∈ s, x.Known cs

theorem KnownAll.mono {a b : CS F} (h : Grows a b) {s : List (FpVar F)} (hs : KnownAll a s) : KnownAll b s :=
  fun x hx => (hs x hx).mono h

theorem lget_known {cs : CS F} {s : List (FpVar F)} (hs : KnownAll cs s) (i : Nat) : Ens (fun x => x.Known cs) (lget s i) := by
  unfold lget
  split
  · exact Ens.ok (hs _ (List.mem_of_getElem? ‹_›))
  · exact Ens.error

theorem lset_known {cs : CS F} {s : List (FpVar F)} (hs : KnownAll cs s) (i : Nat) {x : FpVar F} (hx : x.Known cs) :
    Ens (fun s => KnownAll cs s) (lset s i x) := by
  unfold lset
  split
  · refine Ens.ok fun y hy => ?_
    rcases List.mem_or_eq_of_mem_set hy with h | h
    · exact hs y h
    · rw [h]; exact hx
  · exact Ens.error

theorem addRoundConstants_known {cs : CS F} (arc : Mat F rows cols nround) {s : List (FpVar F)} (hs : KnownAll cs s)
    (counter : Nat) : Ens (fun r => KnownAll cs r.1) (addRoundConstants t arc s counter) := by
  unfold addRoundConstants
  refine Ens.forRange (Inv := fun _ (r : List (FpVar F) × Nat) => KnownAll cs r.1) (Nat.zero_le _) hs ?_
  rintro k ⟨s, c⟩ _ _ h
  refine Ens.bind (lget_known h k) fun x hx => ?_
  refine Ens.bind (Q := fun _ => True) (fun _ _ => trivial) fun y _ => ?_
  exact Ens.bind (lset_known h k (addConstant_known hx y)) fun s hs => Ens.ok hs

theorem subWord_grows {cs : CS F} (e : Nat) {s : List (FpVar F)} (hs : KnownAll cs s) (i : Nat) :
    Ens (fun r => Grows cs r.2 ∧ KnownAll r.2 r.1) (do
      let x ← lget s i
      let (y, cs) ← x.powByConstant e cs
      let s ← lset s i y
      return (s, cs)) := by
  refine Ens.bind (lget_known hs i) fun x hx => ?_
  refine Ens.bind (pow_grows hx e) ?_
  rintro ⟨y, cs'⟩ ⟨h1, h2⟩
  exact Ens.bind (lset_known (hs.mono h1) i h2) fun s hs => Ens.ok ⟨h1, hs⟩

theorem partialSubWords_grows {cs : CS F} (alpha : Alpha) {s : List (FpVar F)} (hs : KnownAll cs s) :
    Ens (fun r => Grows cs r.2 ∧ KnownAll r.2 r.1) (partialSubWords alpha s cs) := by
  cases alpha with
  | exponent e => exact subWord_grows e hs 0
  | inverse => exact Ens.error

theorem fullSubWords_grows {cs : CS F} (alpha : Alpha) {s : List (FpVar F)} (hs : KnownAll cs s) :
    Ens (fun r => Grows cs r.2 ∧ KnownAll r.2 r.1) (fullSubWords t alpha s cs) := by
  cases alpha with
  | exponent e =>
    refine Ens.forRange (Inv := fun _ (r : List (FpVar F) × CS F) => Grows cs r.2 ∧ KnownAll r.2 r.1) (Nat.zero_le _)
      ⟨.refl, hs⟩ ?_
    rintro k ⟨s, cs1⟩ _ _ ⟨h1, h2⟩
    exact (subWord_grows e h2 k).mono fun r hr => ⟨h1.trans hr.1, hr.2⟩
  | inverse => exact Ens.error

theorem mixRow_grows {cs : CS F} (row : List F) {s : List (FpVar F)} (hs : KnownAll cs s) :
    Ens (fun r => Grows cs r.2 ∧ r.1.Known r.2) (mixRow row s cs) := by
  unfold mixRow
  refine Ens.bind (Q := fun r => Grows cs r.2 ∧ KnownAll r.2 r.1) ?_ ?_
  · refine Ens.forList (Inv := fun _ (r : List (FpVar F) × CS F) => Grows cs r.2 ∧ KnownAll r.2 r.1) (row.zip s) 0 _
      ⟨.refl, fun x hx => by cases hx⟩ ?_
    rintro j hj ⟨terms, cs1⟩ ⟨h1, h2⟩
    have hk : ((row.zip s)[j]).2.Known cs1 := by
      rw [List.getElem_zip]
      exact (hs _ (List.getElem_mem _)).mono h1
    refine Ens.bind (mul_grows (a := .constant ((row.zip s)[j]).1) trivial hk) ?_
    rintro ⟨p, cs2⟩ ⟨h3, h4⟩
    refine Ens.ok ⟨h1.trans h3, fun x hx => ?_⟩
    rcases List.mem_append.1 hx with hx | hx
    · exact (h2 x hx).mono h3
    · rw [List.mem_singleton] at hx; subst hx; exact h4
  · rintro ⟨terms, cs1⟩ ⟨h1, h2⟩
    exact Ens.bind (sum_known terms h2) fun r hr => Ens.ok ⟨h1, hr⟩

theorem mixLayer_grows {cs : CS F} (m : Mat F t t nmds) {s : List (FpVar F)} (hs : KnownAll cs s) :
    Ens (fun r => Grows cs r.2 ∧ KnownAll r.2 r.1) (mixLayer m s cs) := by
  unfold mixLayer
  refine Ens.bind (Q := fun _ => True) (fun _ _ => trivial) fun rws _ => ?_
  refine Ens.forList (Inv := fun _ (r : List (FpVar F) × CS F) => Grows cs r.2 ∧ KnownAll r.2 r.1) rws 0 _
    ⟨.refl, fun x hx => by cases hx⟩ ?_
  rintro j hj ⟨new, cs1⟩ ⟨h1, h2⟩
  refine Ens.bind (mixRow_grows rws[j] (hs.mono h1)) ?_
  rintro ⟨p, cs2⟩ ⟨h3, h4⟩
  refine Ens.ok ⟨h1.trans h3, fun x hx => ?_⟩
  rcases List.mem_append.1 hx with hx | hx
  · exact (h2 x hx).mono h3
  · rw [List.mem_singleton] at hx; subst hx; exact h4

theorem round_grows (p : Params F t tm1 nmds nhat rows cols nround npart) (full : Bool)
    (st : List (FpVar F) × Nat × CS F) (h : KnownAll st.2.2 st.1) :
    Ens (fun r => Grows st.2.2 r.2.2 ∧ KnownAll r.2.2 r.1) (round p full st) := by
  obtain ⟨s, c, cs⟩ := st
  unfold round
  refine Ens.bind (addRoundConstants_known p.arc h c) ?_
  rintro ⟨s1, c1⟩ h1
  have tail : ∀ r : List (FpVar F) × CS F, Grows cs r.2 ∧ KnownAll r.2 r.1 →
      Ens (fun r => Grows cs r.2.2 ∧ KnownAll r.2.2 r.1) (do
        let (s, cs) ← mixLayer p.mds r.1 r.2
        return (s, c1, cs)) := by
    rintro ⟨s2, cs2⟩ ⟨h2, h3⟩
    refine Ens.bind (mixLayer_grows p.mds h3) ?_
    rintro ⟨s3, cs3⟩ ⟨h4, h5⟩
    exact Ens.ok ⟨h2.trans h4, h5⟩
  cases full with
  | true => exact Ens.bind (fullSubWords_grows p.alpha h1) tail
  | false => exact Ens.bind (partialSubWords_grows p.alpha h1) tail

theorem permute_grows (p : Params F t tm1 nmds nhat rows cols nround npart) {s : List (FpVar F)} {cs : CS F}
    (hs : KnownAll cs s) : Ens (fun r => Grows cs r.2 ∧ KnownAll r.2 r.1) (permute p s cs) := by
  have L : ∀ (full : Bool) (n : Nat) (a : List (FpVar F) × Nat × CS F), Grows cs a.2.2 ∧ KnownAll a.2.2 a.1 →
      Ens (fun r => Grows cs r.2.2 ∧ KnownAll r.2.2 r.1) (forRange 0 n a fun _ st => round p full st) := by
    intro full n a ha
    refine Ens.forRange (Inv := fun _ (r : List (FpVar F) × Nat × CS F) => Grows cs r.2.2 ∧ KnownAll r.2.2 r.1)
      (Nat.zero_le _) ha ?_
    rintro k st _ _ ⟨h1, h2⟩
    exact (round_grows p full st h2).mono fun r hr => ⟨h1.trans hr.1, hr.2⟩
  unfold permute
  refine Ens.bind (L true _ _ ⟨.refl, hs⟩) fun a ha => ?_
  refine Ens.bind (L false _ _ ha) fun a ha => ?_
  exact Ens.bind (L true _ _ ha) fun a ha => Ens.ok ha

theorem nTo1FixedHash_grows (p : Params F t tm1 nmds nhat rows cols nround npart) (inputs : Vector (FpVar F) t) (cs : CS F)
    (hs : ∀ i : Fin t, inputs[i].Known cs) :
    Ens (fun r => Grows cs r.2 ∧ r.1.Known r.2) (nTo1FixedHash p inputs cs) := by
  unfold nTo1FixedHash
  refine Ens.bind (permute_grows p (s := inputs.toList) (cs := cs) ?_) ?_
  · intro x hx
    obtain ⟨i, hi, rfl⟩ := List.getElem_of_mem hx
    have := hs ⟨i, by simpa using hi⟩
    simpa using this
  · rintro ⟨s, cs'⟩ ⟨h1, h2⟩
    exact Ens.bind (lget_known h2 1) fun x hx => Ens.ok ⟨h1, hx⟩

/-! ### Exactly one extension -/

/-- Assignments that agree on the allocated variables. -/
def AgreeOn (cs : CS F) (σ τ : Variable → F) : Prop := ∀ v : Variable, v.Known cs → σ v = τ v

theorem LC.eval_agree {cs : CS F} {σ τ : Variable → F} (h : AgreeOn cs σ τ) {l : LC F} (hl : LC.Known cs l) :
    LC.eval σ l = LC.eval τ l := by
  unfold LC.eval
  congr 1
  apply List.map_congr_left
  intro x hx
  rw [h x.2 (hl x hx)]

theorem Satisfies.agree {cs : CS F} (hw : WellFormed cs) {σ τ : Variable → F} (h : AgreeOn cs σ τ) (hs : Satisfies σ cs) :
    Satisfies τ cs := by
  refine ⟨by rw [← h .one trivial]; exact hs.1, fun con hc => ?_⟩
  obtain ⟨h1, h2, h3⟩ := hw con hc
  rw [← LC.eval_agree h h1, ← LC.eval_agree h h2, ← LC.eval_agree h h3]
  exact hs.2 con hc

theorem Grows.wellFormed {a b : CS F} (h : Grows a b) (hw : WellFormed a) : WellFormed b := by
  induction h with
  | refl => exact hw
  | @step cs1 cs2 h x y ha hb hs hi hia hnw hwa hc ih =>
    have hg : Grows cs1 cs2 := .step .refl x y ha hb hs hi hia hnw hwa hc
    intro con hcon
    rw [hc, List.mem_append, List.mem_singleton] at hcon
    rcases hcon with hcon | rfl
    · obtain ⟨h1, h2, h3⟩ := ih con hcon
      exact ⟨h1.mono hg, h2.mono hg, h3.mono hg⟩
    · refine ⟨ha.mono hg, hb.mono hg, fun z hz => ?_⟩
      rw [List.mem_singleton] at hz; subst hz
      show cs1.numWitness < cs2.numWitness
      omega

theorem Grows.unique {a b : CS F} (h : Grows a b) {σ τ : Variable → F} (hσ : Satisfies σ b) (hτ : Satisfies τ b)
    (hag : AgreeOn a σ τ) : AgreeOn b σ τ := by
  induction h with
  | refl => exact hag
  | @step cs1 cs2 h x y ha hb hs hi hia hnw hwa hc ih =>
    have hg : Grows cs1 cs2 := .step .refl x y ha hb hs hi hia hnw hwa hc
    have h1 := ih (hg.satisfies hσ) (hg.satisfies hτ)
    intro v hv
    have mem : (x, y, [((1 : F), Variable.witness cs1.numWitness)]) ∈ cs2.constraints := by rw [hc]; simp
    have e1 := hσ.2 _ mem
    have e2 := hτ.2 _ mem
    dsimp only at e1 e2
    rw [LC.eval_agree h1 ha, LC.eval_agree h1 hb, e2] at e1
    simp only [LC.eval, List.map_cons, List.map_nil, List.sum_cons, List.sum_nil, add_zero, one_mul] at e1
    cases v with
    | one => exact h1 _ trivial
    | input i => exact h1 _ (lt_of_lt_of_eq hv hi)
    | witness i =>
      have hv' : i < cs2.numWitness := hv
      rw [hnw] at hv'
      rcases Nat.lt_succ_iff_lt_or_eq.1 hv' with h2 | h2
      · exact h1 _ h2
      · rw [h2]; exact e1.symm

theorem Grows.extend {a b : CS F} (h : Grows a b) (hw : WellFormed a) {σ : Variable → F} (hσ : Satisfies σ a) :
    ∃ τ, Satisfies τ b ∧ ∀ v, v.Known a ∨ ¬ v.Known b → τ v = σ v := by
  induction h with
  | refl => exact ⟨σ, hσ, fun _ _ => rfl⟩
  | @step cs1 cs2 h x y ha hb hs hi hia hnw hwa hc ih =>
    have hg : Grows cs1 cs2 := .step .refl x y ha hb hs hi hia hnw hwa hc
    obtain ⟨τ, h1, h2⟩ := ih
    let τ' : Variable → F := fun v => if v = .witness cs1.numWitness then LC.eval τ x * LC.eval τ y else τ v
    have hag : AgreeOn cs1 τ τ' := by
      intro v hv
      have : v ≠ .witness cs1.numWitness := by
        rintro rfl; exact Nat.lt_irrefl _ hv
      simp only [τ', if_neg this]
    have hsat := Satisfies.agree (h.wellFormed hw) hag h1
    refine ⟨τ', ⟨hsat.1, fun con hcon => ?_⟩, fun v hv => ?_⟩
    · rw [hc, List.mem_append, List.mem_singleton] at hcon
      rcases hcon with hcon | rfl
      · exact hsat.2 con hcon
      · dsimp only
        rw [← LC.eval_agree hag ha, ← LC.eval_agree hag hb]
        simp [LC.eval, τ']
    · rcases hv with hv | hv
      · rw [← hag v (hv.mono h)]; exact h2 v (Or.inl hv)
      · have : v ≠ .witness cs1.numWitness := by
          rintro rfl
          apply hv
          show cs1.numWitness < cs2.numWitness
          omega
        simp only [τ', if_neg this]
        exact h2 v (Or.inr fun hv' => hv (hv'.mono hg))

end Poseidon.R1cs
