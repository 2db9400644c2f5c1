import Verif.Spec.Symbolic
import Verif.Proofs.Sim
import Verif.Proofs.R1csSound

/-! # The circuits with symbolic linear combinations refine those with inlined ones -/

set_option linter.unusedSectionVars false

namespace Poseidon

variable {α β α' β' γ : Type _}

/-- Both return, with related results, or both panic in the same way. -/
def Both (Q : α → β → Prop) : R α → R β → Prop
  | .ok a, .ok b => Q a b
  | .error e, .error e' => e = e'
  | _, _ => False

theorem Both.bind {Q : α → β → Prop} {Q' : α' → β' → Prop} {x : R α} {y : R β} {f : α → R α'} {g : β → R β'}
    (h : Both Q x y) (h' : ∀ a b, Q a b → Both Q' (f a) (g b)) : Both Q' (x >>= f) (y >>= g) := by
  cases x with
  | error e =>
    cases y with
    | error e' => exact h
    | ok b => exact h.elim
  | ok a =>
    cases y with
    | error e' => exact h.elim
    | ok b => exact h' a b h

theorem Both.mono {Q Q' : α → β → Prop} {x : R α} {y : R β} (h : Both Q x y) (h' : ∀ a b, Q a b → Q' a b) :
    Both Q' x y := by
  cases x with
  | error e =>
    cases y with
    | error e' => exact h
    | ok b => exact h.elim
  | ok a =>
    cases y with
    | error e' => exact h.elim
    | ok b => exact h' a b h

theorem Both.rfl' {x : R α} : Both (fun a b => b = a) x x := by
  cases x with
  | error e => exact Eq.refl e
  | ok a => exact Eq.refl a

theorem Both.forList {γ : Type _} {Rel : α → β → Prop} {f : γ → α → R α} {g : γ → β → R β} :
    ∀ (l : List γ) (a : α) (b : β), Rel a b → (∀ x ∈ l, ∀ a b, Rel a b → Both Rel (f x a) (g x b)) →
      Both Rel (forList l a f) (forList l b g) := by
  intro l
  induction l with
  | nil => intro a b h _; exact h
  | cons x l ih =>
    intro a b h step
    exact Both.bind (step x List.mem_cons_self a b h) fun a b h => ih a b h fun y hy => step y (List.mem_cons_of_mem _ hy)

theorem Both.loopN {Rel : α → β → Prop} {f : Nat → α → R α} {g : Nat → β → R β}
    (step : ∀ k a b, Rel a b → Both Rel (f k a) (g k b)) :
    ∀ (n i : Nat) (a : α) (b : β), Rel a b → Both Rel (loopN f n i a) (loopN g n i b) := by
  intro n
  induction n with
  | zero => intro i a b h; exact h
  | succ n ih => intro i a b h; exact Both.bind (step i a b h) fun a b h => ih _ a b h

theorem Both.forRange {Rel : α → β → Prop} {f : Nat → α → R α} {g : Nat → β → R β} {lo hi : Nat} {a : α} {b : β} (h : Rel a b)
    (step : ∀ k a b, Rel a b → Both Rel (f k a) (g k b)) : Both Rel (forRange lo hi a f) (forRange lo hi b g) :=
  Both.loopN step _ _ _ _ h

namespace Sym

variable {F : Type} [Field F] [DecidableEq F]
variable {t tm1 nmds nhat rows cols nround npart : Nat}

theorem lowAll_nil : lowAll ([] : List (LC F)) = [] := rfl

theorem lowAll_snoc (m : List (LC F)) (l : LC F) : lowAll (m ++ [l]) = lowAll m ++ [LC.lowWith (lowAll m) l] := by
  rw [lowAll, List.foldl_append]
  rfl

theorem lowAll_length (m : List (LC F)) : (lowAll m).length = m.length := by
  induction m using List.reverseRecOn with
  | nil => rfl
  | append_singleton m l ih => simp [lowAll_snoc, ih]

theorem lowAll_prefix (m l : List (LC F)) : ∃ e, lowAll (m ++ l) = lowAll m ++ e := by
  induction l using List.reverseRecOn with
  | nil => exact ⟨[], by simp⟩
  | append_singleton l x ih =>
    obtain ⟨e, he⟩ := ih
    rw [← List.append_assoc, lowAll_snoc, he, List.append_assoc]
    exact ⟨_, rfl⟩

theorem lowWith_append (acc e : List (R1cs.LC F)) (v : Var) (h : ∀ i, v = .lc i → i < acc.length) :
    v.lowWith (acc ++ e) = v.lowWith acc := by
  cases v with
  | lc i =>
    have := h i rfl
    show (acc ++ e).getD i [] = acc.getD i []
    simp [List.getD_eq_getElem?_getD, List.getElem?_append_left this]
  | _ => rfl

theorem LC.lowWith_append (acc e : List (R1cs.LC F)) (l : LC F) (h : ∀ x ∈ l, ∀ i, x.2 = .lc i → i < acc.length) :
    LC.lowWith (acc ++ e) l = LC.lowWith acc l := by
  unfold LC.lowWith
  induction l with
  | nil => rfl
  | cons x l ih =>
    rw [List.flatMap_cons, List.flatMap_cons, ih fun y hy => h y (List.mem_cons_of_mem _ hy),
      Sym.lowWith_append acc e x.2 (h x List.mem_cons_self)]

/-- The system has grown. -/
structure Ext (cs0 cs : CS F) : Prop where
  pre : ∃ e, cs.lcMap = cs0.lcMap ++ e
  ni : cs0.numInstance ≤ cs.numInstance
  nw : cs0.numWitness ≤ cs.numWitness
  con : ∀ i, cs.IsConstraint i → cs0.IsConstraint i ∨ cs0.lcMap.length ≤ i

theorem Ext.refl (cs : CS F) : Ext cs cs := ⟨⟨[], by simp⟩, le_rfl, le_rfl, fun _ h => .inl h⟩

theorem Ext.len {a b : CS F} (h : Ext a b) : a.lcMap.length ≤ b.lcMap.length := by
  obtain ⟨e, he⟩ := h.pre
  simp [he]

theorem Ext.trans {a b c : CS F} (h1 : Ext a b) (h2 : Ext b c) : Ext a c := by
  obtain ⟨e1, h1e⟩ := h1.pre
  obtain ⟨e2, h2e⟩ := h2.pre
  refine ⟨⟨e1 ++ e2, by rw [h2e, h1e, List.append_assoc]⟩, h1.ni.trans h2.ni, h1.nw.trans h2.nw, fun i hi => ?_⟩
  rcases h2.con i hi with h | h
  · exact h1.con i h
  · exact .inr (h1.len.trans h)

theorem Ext.vknown {a b : CS F} (h : Ext a b) {v : Var} (hv : v.Known a) : v.Known b := by
  cases v with
  | one => trivial
  | input i => exact ⟨hv.1, hv.2.trans_le h.ni⟩
  | witness i => exact lt_of_lt_of_le hv h.nw
  | lc i =>
    refine ⟨hv.1.trans_le h.len, fun hc => ?_⟩
    rcases h.con i hc with h1 | h1
    · exact hv.2 h1
    · have := hv.1
      omega

theorem Ext.known {a b : CS F} (h : Ext a b) {x : FpVar F} (hx : x.Known a) : x.Known b := by
  cases x with
  | constant c => trivial
  | var v => exact h.vknown hx

theorem Ext.vlow {a b : CS F} (h : Ext a b) {v : Var} (hv : ∀ i, v = .lc i → i < a.lcMap.length) : v.low b = v.low a := by
  obtain ⟨e, he⟩ := h.pre
  obtain ⟨e', he'⟩ := lowAll_prefix a.lcMap e
  rw [Var.low, Var.low, he, he']
  exact lowWith_append _ _ _ fun i hi => by rw [lowAll_length]; exact hv i hi

theorem Var.Known.lt {cs : CS F} {v : Var} (hv : v.Known cs) : ∀ i, v = .lc i → i < cs.lcMap.length := by
  rintro i rfl
  exact hv.1

theorem Ext.low {a b : CS F} (h : Ext a b) {x : FpVar F} (hx : x.Known a) : x.low b = x.low a := by
  cases x with
  | constant c => rfl
  | var v =>
    have hv : v.var.Known a := hx
    show R1cs.FpVar.var ⟨v.value, _⟩ = R1cs.FpVar.var ⟨v.value, _⟩
    rw [h.vlow hv.lt]

/-- Appending combinations and constraints about them, and growing the numbers of variables. -/
theorem grow {cs cs' : CS F} (hs : cs.Sound) (e : List (LC F)) (hl : cs'.lcMap = cs.lcMap ++ e)
    (ni : cs.numInstance ≤ cs'.numInstance) (nw : cs.numWitness ≤ cs'.numWitness)
    (hc : ∀ i, cs'.IsConstraint i → cs.IsConstraint i ∨ cs.lcMap.length ≤ i ∧ i < cs.lcMap.length + e.length)
    (he : ∀ l ∈ e, ∀ x ∈ l, x.2.Known cs ∨ ∃ i, x.2 = .witness i ∧ i < cs'.numWitness) : Ext cs cs' ∧ cs'.Sound := by
  have hE : Ext cs cs' := ⟨⟨e, hl⟩, ni, nw, fun i hi => (hc i hi).imp_right And.left⟩
  refine ⟨hE, hs.instances.trans_le ni, ?_, ?_⟩
  · intro i l hi x hx
    rw [hl] at hi
    by_cases h : i < cs.lcMap.length
    · rw [List.getElem?_append_left h] at hi
      obtain ⟨h1, h2⟩ := hs.terms i l hi x hx
      exact ⟨hE.vknown h1, h2⟩
    · rw [List.getElem?_append_right (by omega)] at hi
      rcases he l (List.mem_of_getElem? hi) x hx with h1 | ⟨j, h1, h2⟩
      · refine ⟨hE.vknown h1, fun j hj => ?_⟩
        have := h1.lt j hj
        omega
      · rw [h1]
        exact ⟨h2, fun j hj => by cases hj⟩
  · intro i hi
    rw [hl, List.length_append]
    rcases hc i hi with h | h
    · have := hs.constraints i h
      omega
    · exact h.2

theorem lower_constraints {cs cs' : CS F} (hs : cs.Sound) (hE : Ext cs cs') :
    cs.constraints.map (fun k => ((Var.lc k.1).low cs', (Var.lc k.2.1).low cs', (Var.lc k.2.2).low cs')) =
      cs.lower.constraints := by
  refine List.map_congr_left fun k hk => ?_
  have h1 := hs.constraints k.1 ⟨k, hk, .inl rfl⟩
  have h2 := hs.constraints k.2.1 ⟨k, hk, .inr (.inl rfl)⟩
  have h3 := hs.constraints k.2.2 ⟨k, hk, .inr (.inr rfl)⟩
  rw [hE.vlow (v := .lc k.1) (by rintro i ⟨⟩; exact h1), hE.vlow (v := .lc k.2.1) (by rintro i ⟨⟩; exact h2),
    hE.vlow (v := .lc k.2.2) (by rintro i ⟨⟩; exact h3)]

theorem newLc_spec {cs : CS F} (hs : cs.Sound) {l : LC F} (hl : ∀ x ∈ l, x.2.Known cs) :
    Ext cs (newLc l cs).2 ∧ (newLc l cs).2.Sound ∧ (newLc l cs).1.Known (newLc l cs).2 ∧
      (newLc l cs).1.low (newLc l cs).2 = LC.lowWith (lowAll cs.lcMap) l ∧ (newLc l cs).2.lower = cs.lower := by
  have hg := grow (cs' := (newLc l cs).2) hs [l] rfl le_rfl le_rfl (fun i hi => .inl hi)
    (by rintro l' hl' x hx; rw [List.mem_singleton.1 hl'] at hx; exact .inl (hl x hx))
  refine ⟨hg.1, hg.2, ⟨by simp [newLc], fun hc => ?_⟩, ?_, ?_⟩
  · have : cs.lcMap.length < cs.lcMap.length := hs.constraints _ hc
    omega
  · show (lowAll (cs.lcMap ++ [l])).getD cs.lcMap.length [] = _
    rw [lowAll_snoc, List.getD_eq_getElem?_getD, List.getElem?_append_right (by rw [lowAll_length])]
    simp [lowAll_length]
  · have := lower_constraints hs hg.1
    unfold CS.lower at this ⊢
    congr 1

theorem low1 (acc : List (R1cs.LC F)) (v : Var) : LC.lowWith acc [((1 : F), v)] = v.lowWith acc := by
  simp [LC.lowWith]

theorem enforce_spec {cs : CS F} (hs : cs.Sound) {a b c : LC F} (ha : ∀ x ∈ a, x.2.Known cs) (hb : ∀ x ∈ b, x.2.Known cs)
    (hc : ∀ x ∈ c, x.2.Known cs) :
    Ext cs (enforce a b c cs) ∧ (enforce a b c cs).Sound ∧
      (enforce a b c cs).lower = R1cs.enforce (LC.lowWith (lowAll cs.lcMap) a) (LC.lowWith (lowAll cs.lcMap) b)
        (LC.lowWith (lowAll cs.lcMap) c) cs.lower := by
  have hg := grow (cs' := enforce a b c cs) hs [a, b, c] rfl le_rfl le_rfl
    (by
      rintro i ⟨k, hk, hi⟩
      rcases List.mem_append.1 hk with hk | hk
      · exact .inl ⟨k, hk, hi⟩
      · rw [List.mem_singleton.1 hk] at hi
        refine .inr ?_
        simp only [List.length_cons, List.length_nil]
        dsimp only at hi
        omega)
    (by
      intro l hl x hx
      simp only [List.mem_cons, List.not_mem_nil, or_false] at hl
      rcases hl with rfl | rfl | rfl
      · exact .inl (ha x hx)
      · exact .inl (hb x hx)
      · exact .inl (hc x hx))
  refine ⟨hg.1, hg.2, ?_⟩
  have h1 := lower_constraints hs hg.1
  have e0 : (enforce a b c cs).lcMap = cs.lcMap ++ [a] ++ [b] ++ [c] := by simp [enforce]
  have e1 : LC.lowWith (lowAll (cs.lcMap ++ [a])) b = LC.lowWith (lowAll cs.lcMap) b := by
    rw [lowAll_snoc]
    exact LC.lowWith_append _ _ _ fun x hx i hi => by rw [lowAll_length]; exact (hb x hx).lt i hi
  have e2 : LC.lowWith (lowAll (cs.lcMap ++ [a] ++ [b])) c = LC.lowWith (lowAll cs.lcMap) c := by
    rw [lowAll_snoc, lowAll_snoc, List.append_assoc]
    exact LC.lowWith_append _ _ _ fun x hx i hi => by rw [lowAll_length]; exact (hc x hx).lt i hi
  have e3 : lowAll (enforce a b c cs).lcMap = lowAll cs.lcMap ++ [LC.lowWith (lowAll cs.lcMap) a,
      LC.lowWith (lowAll cs.lcMap) b, LC.lowWith (lowAll cs.lcMap) c] := by
    rw [e0, lowAll_snoc, e2, lowAll_snoc, e1, lowAll_snoc]
    simp
  have hlen := lowAll_length cs.lcMap
  have i1 : (Var.lc cs.lcMap.length).low (enforce a b c cs) = LC.lowWith (lowAll cs.lcMap) a := by
    show (lowAll _).getD _ [] = _
    rw [e3, List.getD_eq_getElem?_getD, List.getElem?_append_right (by omega), hlen]
    simp
  have i2 : (Var.lc (cs.lcMap.length + 1)).low (enforce a b c cs) = LC.lowWith (lowAll cs.lcMap) b := by
    show (lowAll _).getD _ [] = _
    rw [e3, List.getD_eq_getElem?_getD, List.getElem?_append_right (by omega), hlen]
    simp
  have i3 : (Var.lc (cs.lcMap.length + 2)).low (enforce a b c cs) = LC.lowWith (lowAll cs.lcMap) c := by
    show (lowAll _).getD _ [] = _
    rw [e3, List.getD_eq_getElem?_getD, List.getElem?_append_right (by omega), hlen]
    simp
  have key : (enforce a b c cs).lower.constraints = cs.lower.constraints ++ [(LC.lowWith (lowAll cs.lcMap) a,
      LC.lowWith (lowAll cs.lcMap) b, LC.lowWith (lowAll cs.lcMap) c)] := by
    rw [← h1, ← i1, ← i2, ← i3]
    show (cs.constraints ++ [_]).map _ = _
    rw [List.map_append]
    rfl
  show (⟨_, _, _, _, _, (enforce a b c cs).lower.constraints⟩ : R1cs.CS F) = ⟨_, _, _, _, _, cs.lower.constraints ++ [_]⟩
  rw [key]
  rfl

/-- What an operation that returns a circuit variable does. -/
def Post (cs : CS F) (r : FpVar F × CS F) (r' : R1cs.FpVar F × R1cs.CS F) : Prop :=
  Ext cs r.2 ∧ r.2.Sound ∧ r.1.Known r.2 ∧ r' = (r.1.low r.2, r.2.lower)

/-- The same for allocated variables. -/
def APost (cs : CS F) (r : AllocatedFp F × CS F) (r' : R1cs.AllocatedFp F × R1cs.CS F) : Prop :=
  Ext cs r.2 ∧ r.2.Sound ∧ r.1.var.Known r.2 ∧ r' = (r.1.low r.2, r.2.lower)

theorem APost.post {cs : CS F} {r : AllocatedFp F × CS F} {r' : R1cs.AllocatedFp F × R1cs.CS F} (h : APost cs r r') :
    Post cs (.var r.1, r.2) (.var r'.1, r'.2) := by
  obtain ⟨h1, h2, h3, rfl⟩ := h
  exact ⟨h1, h2, h3, rfl⟩

theorem newWitness_low (value : Option F) {cs : CS F} (hs : cs.Sound) :
    Both (APost cs) (newWitness value cs) (R1cs.newWitness value cs.lower) := by
  unfold newWitness R1cs.newWitness
  have hg : ∀ wa, Ext cs { cs with numWitness := cs.numWitness + 1, witnessAssignment := wa } ∧
      CS.Sound { cs with numWitness := cs.numWitness + 1, witnessAssignment := wa } := fun wa =>
    grow hs [] (by simp) le_rfl (Nat.le_succ _) (fun i hi => .inl hi) (by simp)
  have hsetup : cs.lower.setup = cs.setup := rfl
  dsimp only
  by_cases h : cs.setup = true
  · rw [if_pos h, if_pos (hsetup.trans h)]
    exact ⟨(hg _).1, (hg _).2, Nat.lt_succ_self _, rfl⟩
  · rw [if_neg h, if_neg (by rwa [hsetup])]
    cases value with
    | none => exact rfl
    | some x => exact ⟨(hg _).1, (hg _).2, Nat.lt_succ_self _, rfl⟩

theorem newInput_low (value : Option F) {cs : CS F} (hs : cs.Sound) :
    Both (APost cs) (newInput value cs) (R1cs.newInput value cs.lower) := by
  unfold newInput R1cs.newInput
  have hg : ∀ wa, Ext cs { cs with numInstance := cs.numInstance + 1, instanceAssignment := wa } ∧
      CS.Sound { cs with numInstance := cs.numInstance + 1, instanceAssignment := wa } := fun wa =>
    grow hs [] (by simp) (Nat.le_succ _) le_rfl (fun i hi => .inl hi) (by simp)
  have hsetup : cs.lower.setup = cs.setup := rfl
  dsimp only
  by_cases h : cs.setup = true
  · rw [if_pos h, if_pos (hsetup.trans h)]
    exact ⟨(hg _).1, (hg _).2, ⟨hs.instances, Nat.lt_succ_self _⟩, rfl⟩
  · rw [if_neg h, if_neg (by rwa [hsetup])]
    cases value with
    | none => exact rfl
    | some x => exact ⟨(hg _).1, (hg _).2, ⟨hs.instances, Nat.lt_succ_self _⟩, rfl⟩

theorem mul_low_alloc {a b : AllocatedFp F} {cs : CS F} (hs : cs.Sound) (ha : a.var.Known cs) (hb : b.var.Known cs) :
    Both (APost cs) (a.mul b cs) (R1cs.AllocatedFp.mul (a.low cs) (b.low cs) cs.lower) := by
  unfold AllocatedFp.mul R1cs.AllocatedFp.mul
  refine Both.bind (newWitness_low _ hs) ?_
  rintro ⟨p, cs1⟩ _ ⟨hE, hs1, hp, rfl⟩
  dsimp only at hE hs1 hp ⊢
  have key := enforce_spec (a := [(1, a.var)]) (b := [(1, b.var)]) (c := [(1, p.var)]) hs1
    (by simpa using hE.vknown ha) (by simpa using hE.vknown hb) (by simpa using hp)
  refine ⟨hE.trans key.1, key.2.1, key.1.vknown hp, ?_⟩
  rw [key.2.2, low1, low1, low1]
  have e1 := hE.vlow ha.lt
  have e2 := hE.vlow hb.lt
  have e3 := key.1.vlow hp.lt
  unfold AllocatedFp.low
  rw [e3, ← e1, ← e2]
  rfl

theorem addConstant_low_alloc {a : AllocatedFp F} (c : F) {cs : CS F} (hs : cs.Sound) (ha : a.var.Known cs) :
    APost cs (a.addConstant c cs) (R1cs.AllocatedFp.addConstant (a.low cs) c, cs.lower) := by
  unfold AllocatedFp.addConstant R1cs.AllocatedFp.addConstant
  by_cases h : c = 0
  · rw [if_pos h, if_pos h]
    exact ⟨Ext.refl _, hs, ha, rfl⟩
  · rw [if_neg h, if_neg h]
    obtain ⟨h1, h2, h3, h4, h5⟩ := newLc_spec (l := [(1, a.var), (c, .one)]) hs (by simpa [Var.Known] using ha)
    refine ⟨h1, h2, h3, ?_⟩
    show _ = ((⟨_, _⟩ : R1cs.AllocatedFp F), _)
    dsimp only
    rw [h4, h5]
    simp [LC.lowWith, Var.lowWith, AllocatedFp.low, Var.low]

theorem mulConstant_low_alloc {a : AllocatedFp F} (c : F) {cs : CS F} (hs : cs.Sound) (ha : a.var.Known cs) :
    APost cs (a.mulConstant c cs) (R1cs.AllocatedFp.mulConstant (a.low cs) c, cs.lower) := by
  unfold AllocatedFp.mulConstant R1cs.AllocatedFp.mulConstant
  by_cases h : c = 1
  · rw [if_pos h, if_pos h]
    exact ⟨Ext.refl _, hs, ha, rfl⟩
  · rw [if_neg h, if_neg h]
    obtain ⟨h1, h2, h3, h4, h5⟩ := newLc_spec (l := [(c, a.var)]) hs (by simpa using ha)
    refine ⟨h1, h2, h3, ?_⟩
    show _ = ((⟨_, _⟩ : R1cs.AllocatedFp F), _)
    dsimp only
    rw [h4, h5]
    simp [LC.lowWith, AllocatedFp.low, Var.low]

theorem addmany_low {l : List (AllocatedFp F)} {cs : CS F} (hs : cs.Sound) (hl : ∀ v ∈ l, v.var.Known cs) :
    Both (APost cs) (AllocatedFp.addmany l cs)
      (R1cs.AllocatedFp.addmany (l.map (AllocatedFp.low cs)) >>= fun v => .ok (v, cs.lower)) := by
  unfold AllocatedFp.addmany R1cs.AllocatedFp.addmany
  cases hl0 : l with
  | nil => exact rfl
  | cons v0 l0 =>
    rw [← hl0, show l.isEmpty = false by rw [hl0]; rfl, show (l.map (AllocatedFp.low cs)).isEmpty = false by rw [hl0]; rfl]
    obtain ⟨h1, h2, h3, h4, h5⟩ := newLc_spec (l := l.map fun x => ((1 : F), x.var)) hs (by
      intro x hx
      obtain ⟨v, hv, rfl⟩ := List.mem_map.1 hx
      exact hl v hv)
    refine ⟨h1, h2, h3, Prod.ext ?_ h5.symm⟩
    show R1cs.AllocatedFp.mk _ _ = R1cs.AllocatedFp.mk _ (Var.low (newLc (l.map fun x => ((1 : F), x.var)) cs).2 (newLc (l.map fun x => ((1 : F), x.var)) cs).1)
    rw [h4]
    congr 1
    · rw [List.foldl_map]
      rfl
    · rw [List.foldl_map]
      have : ∀ (l : List (AllocatedFp F)) (acc : R1cs.LC F), List.foldl (fun acc v => acc ++ (AllocatedFp.low cs v).lc) acc l =
          acc ++ LC.lowWith (lowAll cs.lcMap) (l.map fun x => ((1 : F), x.var)) := by
        intro l
        induction l with
        | nil => intro acc; simp [LC.lowWith]
        | cons v l ih =>
          intro acc
          rw [List.foldl_cons, ih, List.map_cons]
          simp [LC.lowWith, AllocatedFp.low, Var.low]
      simpa using this l []

theorem mul_low {a b : FpVar F} {cs : CS F} (hs : cs.Sound) (ha : a.Known cs) (hb : b.Known cs) :
    Both (Post cs) (a.mul b cs) ((a.low cs).mul (b.low cs) cs.lower) := by
  cases a with
  | constant c =>
    cases b with
    | constant d => exact ⟨Ext.refl _, hs, trivial, rfl⟩
    | var w =>
      exact (mulConstant_low_alloc (a := w) c hs hb).post
  | var v =>
    cases b with
    | constant d =>
      exact (mulConstant_low_alloc (a := v) d hs ha).post
    | var w =>
      refine Both.bind (mul_low_alloc hs ha hb) ?_
      rintro ⟨p, cs1⟩ _ ⟨hE, hs1, hp, rfl⟩
      exact ⟨hE, hs1, hp, rfl⟩

theorem addConstant_low {a : FpVar F} (c : F) {cs : CS F} (hs : cs.Sound) (ha : a.Known cs) :
    Post cs (a.addConstant c cs) ((a.low cs).addConstant c, cs.lower) := by
  cases a with
  | constant d => exact ⟨Ext.refl _, hs, trivial, rfl⟩
  | var v =>
    exact (addConstant_low_alloc (a := v) c hs ha).post

theorem square_low {a : FpVar F} {cs : CS F} (hs : cs.Sound) (ha : a.Known cs) :
    Both (Post cs) (a.square cs) ((a.low cs).square cs.lower) := by
  cases a with
  | constant c => exact ⟨Ext.refl _, hs, trivial, rfl⟩
  | var v =>
    refine Both.bind (mul_low_alloc hs ha ha) ?_
    rintro ⟨p, cs1⟩ _ ⟨hE, hs1, hp, rfl⟩
    exact ⟨hE, hs1, hp, rfl⟩

theorem pow_low {a : FpVar F} (e : Nat) {cs : CS F} (hs : cs.Sound) (ha : a.Known cs) :
    Both (Post cs) (a.powByConstant e cs) ((a.low cs).powByConstant e cs.lower) := by
  unfold FpVar.powByConstant R1cs.FpVar.powByConstant
  refine Both.forList (Rel := Post cs) _ _ _ ⟨Ext.refl _, hs, trivial, rfl⟩ ?_
  rintro bit - ⟨r, cs1⟩ _ ⟨hE, hs1, hr, rfl⟩
  refine Both.bind (square_low hs1 hr) ?_
  rintro ⟨r2, cs2⟩ _ ⟨hE2, hs2, hr2, rfl⟩
  dsimp only at hE hs1 hr hE2 hs2 hr2 ⊢
  cases bit with
  | false => exact ⟨hE.trans hE2, hs2, hr2, rfl⟩
  | true =>
    have := mul_low hs2 hr2 ((hE.trans hE2).known ha)
    rw [(hE.trans hE2).low ha] at this
    refine this.mono ?_
    rintro ⟨r3, cs3⟩ _ ⟨hE3, h⟩
    exact ⟨(hE.trans hE2).trans hE3, h⟩

theorem const?_low (cs : CS F) (l : List (FpVar F)) :
    (l.map (FpVar.low cs)).filterMap R1cs.FpVar.const? = l.filterMap FpVar.const? := by
  rw [List.filterMap_map]
  congr 1
  funext x
  cases x <;> rfl

theorem var?_low (cs : CS F) (l : List (FpVar F)) :
    (l.map (FpVar.low cs)).filterMap R1cs.FpVar.var? = (l.filterMap FpVar.var?).map (AllocatedFp.low cs) := by
  rw [List.filterMap_map, List.map_filterMap]
  congr 1
  funext x
  cases x <;> rfl

theorem sum_low {l : List (FpVar F)} {cs : CS F} (hs : cs.Sound) (hl : ∀ x ∈ l, x.Known cs) :
    Both (Post cs) (FpVar.sum l cs) (R1cs.FpVar.sum (l.map (FpVar.low cs)) >>= fun r => .ok (r, cs.lower)) := by
  unfold FpVar.sum R1cs.FpVar.sum
  rw [const?_low, var?_low]
  have := addmany_low (l := l.filterMap FpVar.var?) hs (by
    intro v hv
    obtain ⟨x, hx, h⟩ := List.mem_filterMap.1 hv
    cases x with
    | constant c => cases h
    | var w => cases h; exact hl _ hx)
  have e : ∀ (x : R (R1cs.AllocatedFp F)) (k : F), ((x >>= fun v => pure ((R1cs.FpVar.var v).addConstant k)) >>= fun r =>
      (Except.ok (r, cs.lower) : R _)) = (x >>= fun v => Except.ok (v, cs.lower)) >>= fun r =>
        Except.ok ((R1cs.FpVar.var r.1).addConstant k, r.2) := by
    intro x k
    cases x <;> rfl
  dsimp only
  rw [e]
  refine Both.bind this ?_
  rintro ⟨v, cs1⟩ _ ⟨hE, hs1, hv, rfl⟩
  dsimp only at hE hs1 hv ⊢
  obtain ⟨h1, h2, h3, h4⟩ := addConstant_low (a := .var v) (fsum (l.filterMap FpVar.const?)) hs1 hv
  exact ⟨hE.trans h1, h2, h3, h4⟩

/-- What an operation that returns words does. -/
def LPost (cs : CS F) (r : List (FpVar F) × CS F) (r' : List (R1cs.FpVar F) × R1cs.CS F) : Prop :=
  Ext cs r.2 ∧ r.2.Sound ∧ (∀ x ∈ r.1, x.Known r.2) ∧ r' = (r.1.map (FpVar.low r.2), r.2.lower)

theorem Ext.lows {a b : CS F} (h : Ext a b) {l : List (FpVar F)} (hl : ∀ x ∈ l, x.Known a) :
    l.map (FpVar.low b) = l.map (FpVar.low a) := List.map_congr_left fun x hx => h.low (hl x hx)

theorem lget_low {s : List (FpVar F)} {cs : CS F} (hl : ∀ x ∈ s, x.Known cs) (i : Nat) :
    Both (fun x y => x.Known cs ∧ y = x.low cs) (lget s i) (lget (s.map (FpVar.low cs)) i) := by
  by_cases h : i < s.length
  · rw [lget_lt s h, lget_lt _ (by simpa using h)]
    exact ⟨hl _ (List.getElem_mem _), by simp⟩
  · rw [lget_ge s (by omega), lget_ge _ (by simpa using h)]
    exact rfl

/-- Storing a word computed in an extended system. -/
theorem lset_low {s : List (FpVar F)} {cs cs' : CS F} (hE : Ext cs cs') (hl : ∀ x ∈ s, x.Known cs) {y : FpVar F}
    (hy : y.Known cs') (i : Nat) :
    Both (fun a b => (∀ x ∈ a, x.Known cs') ∧ b = a.map (FpVar.low cs')) (R1cs.lset s i y)
      (R1cs.lset (s.map (FpVar.low cs)) i (y.low cs')) := by
  unfold R1cs.lset
  rw [List.length_map]
  by_cases h : i < s.length
  · rw [if_pos h, if_pos h]
    refine ⟨fun x hx => ?_, ?_⟩
    · rcases List.mem_or_eq_of_mem_set hx with h1 | rfl
      · exact hE.known (hl x h1)
      · exact hy
    · rw [List.map_set, hE.lows hl]
  · rw [if_neg h, if_neg h]
    exact rfl

theorem addRoundConstants_low (t : Nat) (arc : Mat F rows cols nround) {s : List (FpVar F)} (counter : Nat) {cs : CS F}
    (hs : cs.Sound) (hl : ∀ x ∈ s, x.Known cs) :
    Both (fun r r' => Ext cs r.2.2 ∧ r.2.2.Sound ∧ (∀ x ∈ r.1, x.Known r.2.2) ∧ r' = (r.1.map (FpVar.low r.2.2), r.2.1) ∧
        r.2.2.lower = cs.lower)
      (addRoundConstants t arc s counter cs) (R1cs.addRoundConstants t arc (s.map (FpVar.low cs)) counter) := by
  unfold addRoundConstants R1cs.addRoundConstants
  refine Both.forRange (Rel := fun (r : List (FpVar F) × Nat × CS F) (r' : List (R1cs.FpVar F) × Nat) =>
    Ext cs r.2.2 ∧ r.2.2.Sound ∧ (∀ x ∈ r.1, x.Known r.2.2) ∧ r' = (r.1.map (FpVar.low r.2.2), r.2.1) ∧
        r.2.2.lower = cs.lower) ⟨Ext.refl _, hs, hl, rfl, rfl⟩ ?_
  rintro i ⟨s, counter, cs1⟩ _ ⟨hE, hs1, hl1, rfl, hlow⟩
  dsimp only at hE hs1 hl1 hlow ⊢
  refine Both.bind (lget_low hl1 i) ?_
  rintro x _ ⟨hx, rfl⟩
  refine Both.bind Both.rfl' ?_
  rintro _ k rfl
  obtain ⟨h1, h2, h3, h4⟩ := addConstant_low (a := x) k hs1 hx
  have e1 := congrArg Prod.fst h4
  have e2 := congrArg Prod.snd h4
  dsimp only at e1 e2
  rw [e1]
  refine Both.bind (lset_low h1 hl1 h3 i) ?_
  rintro s2 _ ⟨h5, rfl⟩
  exact ⟨hE.trans h1, h2, h5, rfl, e2.symm.trans hlow⟩

theorem subWord_low (e : Nat) {s : List (FpVar F)} {cs : CS F} (hs : cs.Sound) (hl : ∀ x ∈ s, x.Known cs) (i : Nat) :
    Both (LPost cs) (do
      let x ← lget s i
      let (y, cs) ← x.powByConstant e cs
      let s ← R1cs.lset s i y
      return (s, cs)) (do
      let x ← lget (s.map (FpVar.low cs)) i
      let (y, cs') ← x.powByConstant e cs.lower
      let s ← R1cs.lset (s.map (FpVar.low cs)) i y
      return (s, cs')) := by
  refine Both.bind (lget_low hl i) ?_
  rintro x _ ⟨hx, rfl⟩
  refine Both.bind (pow_low e hs hx) ?_
  rintro ⟨y, cs1⟩ _ ⟨hE, hs1, hy, rfl⟩
  dsimp only at hE hs1 hy ⊢
  refine Both.bind (lset_low hE hl hy i) ?_
  rintro s2 _ ⟨h5, rfl⟩
  exact ⟨hE, hs1, h5, rfl⟩

theorem fullSubWords_low (t : Nat) (alpha : Alpha) {s : List (FpVar F)} {cs : CS F} (hs : cs.Sound) (hl : ∀ x ∈ s, x.Known cs) :
    Both (LPost cs) (fullSubWords t alpha s cs) (R1cs.fullSubWords t alpha (s.map (FpVar.low cs)) cs.lower) := by
  unfold fullSubWords R1cs.fullSubWords
  cases alpha with
  | inverse => exact rfl
  | exponent e =>
    refine Both.forRange (Rel := LPost cs) ⟨Ext.refl _, hs, hl, rfl⟩ ?_
    rintro i ⟨s, cs1⟩ _ ⟨hE, hs1, hl1, rfl⟩
    refine (subWord_low e hs1 hl1 i).mono ?_
    rintro ⟨s2, cs2⟩ _ ⟨hE2, h⟩
    exact ⟨hE.trans hE2, h⟩

theorem partialSubWords_low (alpha : Alpha) {s : List (FpVar F)} {cs : CS F} (hs : cs.Sound) (hl : ∀ x ∈ s, x.Known cs) :
    Both (LPost cs) (partialSubWords alpha s cs) (R1cs.partialSubWords alpha (s.map (FpVar.low cs)) cs.lower) := by
  unfold partialSubWords R1cs.partialSubWords
  cases alpha with
  | inverse => exact rfl
  | exponent e => exact subWord_low e hs hl 0

theorem mixRow_low (row : List F) {s : List (FpVar F)} {cs : CS F} (hs : cs.Sound) (hl : ∀ x ∈ s, x.Known cs) :
    Both (Post cs) (mixRow row s cs) (R1cs.mixRow row (s.map (FpVar.low cs)) cs.lower) := by
  unfold mixRow R1cs.mixRow
  refine Both.bind (Q := LPost cs) ?_ ?_
  · have e : row.zip (s.map (FpVar.low cs)) = (row.zip s).map fun x => (x.1, x.2.low cs) := by
      rw [List.zip_map_right]
      rfl
    rw [e]
    have e2 : ∀ (l : List (F × FpVar F)) (b : List (R1cs.FpVar F) × R1cs.CS F) (f : F × R1cs.FpVar F → _ → R _),
        forList (l.map fun x => (x.1, x.2.low cs)) b f = forList l b fun x => f (x.1, x.2.low cs) := by
      intro l
      induction l with
      | nil => intro b f; rfl
      | cons x l ih =>
        intro b f
        show (f _ _ >>= _) = (f _ _ >>= _)
        congr 1
        funext b
        exact ih b f
    rw [e2]
    refine Both.forList (Rel := LPost cs) _ _ _ ⟨Ext.refl _, hs, by simp, rfl⟩ ?_
    rintro ⟨k, y⟩ hky ⟨terms, cs1⟩ _ ⟨hE, hs1, hl1, rfl⟩
    have hy := hl y (List.of_mem_zip hky).2
    dsimp only at hE hs1 hl1 ⊢
    have := mul_low (a := .constant k) hs1 trivial (hE.known hy)
    rw [hE.low hy] at this
    refine Both.bind this ?_
    rintro ⟨p, cs2⟩ _ ⟨hE2, hs2, hp, rfl⟩
    dsimp only at hE2 hs2 hp ⊢
    refine ⟨hE.trans hE2, hs2, ?_, ?_⟩
    · intro x hx
      rcases List.mem_append.1 hx with h | h
      · exact hE2.known (hl1 x h)
      · rw [List.mem_singleton.1 h]
        exact hp
    · rw [List.map_append, hE2.lows hl1]
      rfl
  · rintro ⟨terms, cs1⟩ _ ⟨hE, hs1, hl1, rfl⟩
    refine (sum_low hs1 hl1).mono ?_
    rintro ⟨s2, cs2⟩ _ ⟨hE2, h⟩
    exact ⟨hE.trans hE2, h⟩

theorem mixLayer_low (m : Mat F t t nmds) {s : List (FpVar F)} {cs : CS F} (hs : cs.Sound) (hl : ∀ x ∈ s, x.Known cs) :
    Both (LPost cs) (mixLayer m s cs) (R1cs.mixLayer m (s.map (FpVar.low cs)) cs.lower) := by
  unfold mixLayer R1cs.mixLayer
  refine Both.bind Both.rfl' ?_
  rintro rws _ rfl
  refine Both.forList (Rel := LPost cs) _ _ _ ⟨Ext.refl _, hs, by simp, rfl⟩ ?_
  rintro row - ⟨new, cs1⟩ _ ⟨hE, hs1, hl1, rfl⟩
  dsimp only at hE hs1 hl1 ⊢
  have := mixRow_low row hs1 fun x hx => hE.known (hl x hx)
  rw [hE.lows hl] at this
  refine Both.bind this ?_
  rintro ⟨p, cs2⟩ _ ⟨hE2, hs2, hp, rfl⟩
  dsimp only at hE2 hs2 hp ⊢
  refine ⟨hE.trans hE2, hs2, ?_, ?_⟩
  · intro x hx
    rcases List.mem_append.1 hx with h | h
    · exact hE2.known (hl1 x h)
    · rw [List.mem_singleton.1 h]
      exact hp
  · rw [List.map_append, hE2.lows hl1]
    rfl

/-- What a round does. -/
def RPost (cs : CS F) (r : List (FpVar F) × Nat × CS F) (r' : List (R1cs.FpVar F) × Nat × R1cs.CS F) : Prop :=
  Ext cs r.2.2 ∧ r.2.2.Sound ∧ (∀ x ∈ r.1, x.Known r.2.2) ∧ r' = (r.1.map (FpVar.low r.2.2), r.2.1, r.2.2.lower)

theorem round_low (p : Params F t tm1 nmds nhat rows cols nround npart) (full : Bool) {cs0 : CS F}
    {st : List (FpVar F) × Nat × CS F} {st' : List (R1cs.FpVar F) × Nat × R1cs.CS F} (h : RPost cs0 st st') :
    Both (RPost cs0) (round p full st) (R1cs.round p full st') := by
  obtain ⟨s, counter, cs⟩ := st
  obtain ⟨hE, hs, hl, rfl⟩ := h
  unfold round R1cs.round
  dsimp only at hE hs hl ⊢
  refine Both.bind (addRoundConstants_low t p.arc counter hs hl) ?_
  rintro ⟨s1, c1, cs1⟩ _ ⟨hE1, hs1, hl1, rfl, hlow⟩
  dsimp only at hE1 hs1 hl1 hlow ⊢
  rw [← hlow]
  cases full with
  | true =>
    refine Both.bind (fullSubWords_low t p.alpha hs1 hl1) ?_
    rintro ⟨s2, cs2⟩ _ ⟨hE2, hs2, hl2, rfl⟩
    dsimp only at hE2 hs2 hl2 ⊢
    refine Both.bind (mixLayer_low p.mds hs2 hl2) ?_
    rintro ⟨s3, cs3⟩ _ ⟨hE3, hs3, hl3, rfl⟩
    exact ⟨((hE.trans hE1).trans hE2).trans hE3, hs3, hl3, rfl⟩
  | false =>
    refine Both.bind (partialSubWords_low p.alpha hs1 hl1) ?_
    rintro ⟨s2, cs2⟩ _ ⟨hE2, hs2, hl2, rfl⟩
    dsimp only at hE2 hs2 hl2 ⊢
    refine Both.bind (mixLayer_low p.mds hs2 hl2) ?_
    rintro ⟨s3, cs3⟩ _ ⟨hE3, hs3, hl3, rfl⟩
    exact ⟨((hE.trans hE1).trans hE2).trans hE3, hs3, hl3, rfl⟩

theorem permute_low (p : Params F t tm1 nmds nhat rows cols nround npart) {s : List (FpVar F)} {cs : CS F} (hs : cs.Sound)
    (hl : ∀ x ∈ s, x.Known cs) : Both (LPost cs) (permute p s cs) (R1cs.permute p (s.map (FpVar.low cs)) cs.lower) := by
  unfold permute R1cs.permute
  dsimp only
  refine Both.bind (Both.forRange (Rel := RPost cs) ⟨Ext.refl _, hs, hl, rfl⟩ fun _ _ _ h => round_low p true h) ?_
  intro a b hab
  refine Both.bind (Both.forRange (Rel := RPost cs) hab fun _ _ _ h => round_low p false h) ?_
  intro a b hab
  refine Both.bind (Both.forRange (Rel := RPost cs) hab fun _ _ _ h => round_low p true h) ?_
  rintro ⟨s, c, cs1⟩ _ ⟨h1, h2, h3, rfl⟩
  exact ⟨h1, h2, h3, rfl⟩

theorem hash_low (p : Params F t tm1 nmds nhat rows cols nround npart) {inputs : Vector (FpVar F) t} {cs : CS F} (hs : cs.Sound)
    (hl : ∀ x ∈ inputs.toList, x.Known cs) :
    Both (Post cs) (nTo1FixedHash p inputs cs) (R1cs.nTo1FixedHash p (inputs.map (FpVar.low cs)) cs.lower) := by
  unfold nTo1FixedHash R1cs.nTo1FixedHash
  rw [Vector.toList_map]
  refine Both.bind (permute_low p hs hl) ?_
  rintro ⟨s, cs1⟩ _ ⟨hE, hs1, hl1, rfl⟩
  dsimp only at hE hs1 hl1 ⊢
  refine Both.bind (lget_low hl1 1) ?_
  rintro x _ ⟨hx, rfl⟩
  exact ⟨hE, hs1, hx, rfl⟩

theorem enforceEqual_low_alloc {a b : AllocatedFp F} {cs : CS F} (hs : cs.Sound) (ha : a.var.Known cs) (hb : b.var.Known cs) :
    Ext cs (a.enforceEqual b cs) ∧ (a.enforceEqual b cs).Sound ∧
      (a.enforceEqual b cs).lower = R1cs.AllocatedFp.enforceEqual (a.low cs) (b.low cs) cs.lower := by
  have := enforce_spec (a := [((1 : F), a.var), (-1, b.var)]) (b := [((1 : F), .one)]) (c := []) hs (by simp [ha, hb])
    (by simp [Var.Known]) (by simp)
  refine ⟨this.1, this.2.1, this.2.2.trans ?_⟩
  unfold R1cs.AllocatedFp.enforceEqual
  congr 1 <;> simp [LC.lowWith, Var.lowWith, AllocatedFp.low, Var.low]

theorem enforceEqual_low {a b : FpVar F} {cs : CS F} (hs : cs.Sound) (ha : a.Known cs) (hb : b.Known cs) :
    Ext cs (a.enforceEqual b cs) ∧ (a.enforceEqual b cs).Sound ∧
      (a.enforceEqual b cs).lower = R1cs.FpVar.enforceEqual (a.low cs) (b.low cs) cs.lower := by
  have key : ∀ (c : F) (v : AllocatedFp F), v.var.Known cs →
      Ext cs (AllocatedFp.enforceEqual ⟨some c, (newLc [(c, .one)] cs).1⟩ v (newLc [(c, .one)] cs).2) ∧
      (AllocatedFp.enforceEqual ⟨some c, (newLc [(c, .one)] cs).1⟩ v (newLc [(c, .one)] cs).2).Sound ∧
      (AllocatedFp.enforceEqual ⟨some c, (newLc [(c, .one)] cs).1⟩ v (newLc [(c, .one)] cs).2).lower =
        R1cs.AllocatedFp.enforceEqual ⟨some c, [(c, .one)]⟩ (v.low cs) cs.lower := by
    intro c v hv
    obtain ⟨h1, h2, h3, h4, h5⟩ := newLc_spec (l := [(c, .one)]) hs (by simp [Var.Known])
    obtain ⟨h6, h7, h8⟩ := enforceEqual_low_alloc (a := ⟨some c, (newLc [(c, .one)] cs).1⟩) h2 h3 (h1.vknown hv)
    refine ⟨h1.trans h6, h7, h8.trans ?_⟩
    rw [h5]
    unfold AllocatedFp.low
    rw [h4, h1.vlow hv.lt]
    simp [LC.lowWith, Var.lowWith]
  cases a with
  | constant c =>
    cases b with
    | constant d => exact ⟨Ext.refl _, hs, rfl⟩
    | var w => exact key c w hb
  | var v =>
    cases b with
    | constant d => exact key d v ha
    | var w => exact enforceEqual_low_alloc hs ha hb

end Sym

end Poseidon
