import Verif.Proofs.R1csSound

/-! # The honest run of the gadget succeeds and its assignment satisfies the constraints -/

set_option linter.unusedSectionVars false
set_option linter.unusedSimpArgs false

namespace Poseidon.R1cs

variable {F : Type} [Field F] [DecidableEq F]
variable {t tm1 nmds nhat rows cols nround npart : Nat}

/-- `cs'` extends the prover's state `cs`; the new constraints hold under the stored assignment. -/
structure Ext (cs cs' : CS F) : Prop where
  proving : Proving cs'
  stored : ∀ σ, Stored cs' σ → Stored cs σ
  sat : ∀ σ, Stored cs' σ → Satisfies σ cs → Satisfies σ cs'

theorem Ext.refl {cs : CS F} (h : Proving cs) : Ext cs cs := ⟨h, fun _ h => h, fun _ _ h => h⟩

theorem Ext.trans {a b c : CS F} (h : Ext a b) (h' : Ext b c) : Ext a c :=
  ⟨h'.proving, fun σ hσ => h.stored σ (h'.stored σ hσ), fun σ hσ hs => h'.sat σ hσ (h.sat σ (h'.stored σ hσ) hs)⟩

theorem Carries.ext {cs cs' : CS F} (h : Ext cs cs') {x : FpVar F} {a : F} (hx : Carries cs x a) :
    Carries cs' x a := by
  cases x with
  | constant c => exact hx
  | var v => exact ⟨hx.1, fun σ hσ => hx.2 σ (h.stored σ hσ)⟩

theorem Carries.eval {cs : CS F} {σ : Variable → F} (hσ : Stored cs σ) {x : FpVar F} {a : F} (hx : Carries cs x a) :
    x.eval σ = a := by
  cases x with
  | constant c => exact hx
  | var v => exact hx.2 σ hσ

/-! ### Products -/

/-- What a step of the gadget establishes: it returns; in proving mode it extends the prover's state
and its result carries `z`. -/
def Gives (cs : CS F) (isVar : Bool) (z : F) (r : FpVar F × CS F) : Prop :=
  r.2.setup = cs.setup ∧ r.1.isVar = isVar ∧ (cs.setup = false → Ext cs r.2 ∧ Carries r.2 r.1 z)

theorem amul_complete {cs : CS F} {a b : AllocatedFp F} {x y : F}
    (h : cs.setup = false → Proving cs ∧ Carries cs (.var a) x ∧ Carries cs (.var b) y) :
    ∃ r, a.mul b cs = .ok r ∧ Gives cs true (x * y) (.var r.1, r.2) := by
  unfold AllocatedFp.mul newWitness
  cases hset : cs.setup with
  | true => exact ⟨_, rfl, by simp [enforce, hset], rfl, by simp [hset]⟩
  | false =>
    obtain ⟨hp, ha, hb⟩ := h hset
    rw [ha.1, hb.1]
    refine ⟨_, rfl, by simp [enforce, hset], rfl, fun _ => ?_⟩
    have key : ∀ σ, Stored (enforce a.lc b.lc [(1, .witness cs.numWitness)]
        { cs with numWitness := cs.numWitness + 1, witnessAssignment := cs.witnessAssignment ++ [x * y] }) σ →
        Stored cs σ ∧ σ (.witness cs.numWitness) = x * y := by
      rintro σ ⟨h1, h2, h3⟩
      refine ⟨⟨h1, h2, fun i z hz => h3 i z ?_⟩, h3 _ _ ?_⟩
      · show (cs.witnessAssignment ++ [x * y])[i]? = some z
        rw [List.getElem?_append_left]
        · exact hz
        · exact (List.getElem?_eq_some_iff.1 hz).1
      · show (cs.witnessAssignment ++ [x * y])[cs.numWitness]? = some _
        rw [← hp.2]; simp
    have kev : ∀ σ, Stored (enforce a.lc b.lc [(1, .witness cs.numWitness)]
        { cs with numWitness := cs.numWitness + 1, witnessAssignment := cs.witnessAssignment ++ [x * y] }) σ →
        LC.eval σ [((1 : F), Variable.witness cs.numWitness)] = x * y := by
      intro σ hσ
      rw [LC.eval_single, one_mul, (key σ hσ).2]
    refine ⟨⟨⟨rfl, ?_⟩, fun σ hσ => (key σ hσ).1, fun σ hσ hs => ⟨hs.1, ?_⟩⟩, rfl, kev⟩
    · show (cs.witnessAssignment ++ [x * y]).length = cs.numWitness + 1
      rw [List.length_append, hp.2]; rfl
    · intro con hcon
      have hcon : con ∈ cs.constraints ++ [(a.lc, b.lc, [(1, .witness cs.numWitness)])] := hcon
      rcases List.mem_append.1 hcon with hc | hc
      · exact hs.2 con hc
      · rw [List.mem_singleton] at hc
        subst hc
        show LC.eval σ a.lc * LC.eval σ b.lc = LC.eval σ [(1, .witness cs.numWitness)]
        rw [kev σ hσ, ha.2 σ (key σ hσ).1, hb.2 σ (key σ hσ).1]

theorem mulConstant_carries {cs : CS F} {v : AllocatedFp F} {x : F} (h : Carries cs (.var v) x) (c : F) :
    Carries cs (.var (v.mulConstant c)) (x * c) := by
  refine ⟨?_, fun σ hσ => by rw [mulConstant_eval, h.2 σ hσ]⟩
  unfold AllocatedFp.mulConstant
  split
  · next hc => rw [hc, mul_one]; exact h.1
  · simp [h.1]

theorem addConstant_carries {cs : CS F} {a : FpVar F} {x : F} (h : Carries cs a x) (c : F) :
    Carries cs (a.addConstant c) (x + c) := by
  cases a with
  | constant y => exact congrArg (· + c) h
  | var v =>
    refine ⟨?_, fun σ hσ => ?_⟩
    · unfold AllocatedFp.addConstant
      split
      · next hc => rw [hc, add_zero]; exact h.1
      · simp [h.1]
    · have := addConstant_eval hσ.1 (.var v) c
      simp only [FpVar.addConstant, FpVar.eval] at this
      rw [this, h.2 σ hσ]

theorem addConstant_isVar (a : FpVar F) (c : F) : (a.addConstant c).isVar = a.isVar := by
  cases a <;> rfl

theorem mul_complete {cs : CS F} {a b : FpVar F} {x y : F}
    (h : cs.setup = false → Proving cs ∧ Carries cs a x ∧ Carries cs b y) :
    ∃ r, a.mul b cs = .ok r ∧ Gives cs (a.isVar || b.isVar) (x * y) r := by
  cases a with
  | constant c =>
    cases b with
    | constant d =>
      refine ⟨_, rfl, rfl, rfl, fun hs => ?_⟩
      obtain ⟨hp, ha, hb⟩ := h hs
      exact ⟨Ext.refl hp, by rw [show c = x from ha, show d = y from hb]; rfl⟩
    | var w =>
      refine ⟨_, rfl, rfl, rfl, fun hs => ?_⟩
      obtain ⟨hp, ha, hb⟩ := h hs
      refine ⟨Ext.refl hp, ?_⟩
      rw [show c = x from ha, mul_comm]
      exact mulConstant_carries hb x
  | var v =>
    cases b with
    | constant d =>
      refine ⟨_, rfl, rfl, rfl, fun hs => ?_⟩
      obtain ⟨hp, ha, hb⟩ := h hs
      refine ⟨Ext.refl hp, ?_⟩
      rw [show d = y from hb]
      exact mulConstant_carries ha y
    | var w =>
      obtain ⟨r, hr, hg⟩ := amul_complete h
      refine ⟨(.var r.1, r.2), ?_, hg⟩
      rw [FpVar.mul, hr]; rfl

theorem square_complete {cs : CS F} {a : FpVar F} {x : F} (h : cs.setup = false → Proving cs ∧ Carries cs a x) :
    ∃ r, a.square cs = .ok r ∧ Gives cs a.isVar (x * x) r := by
  cases a with
  | constant c =>
    refine ⟨_, rfl, rfl, rfl, fun hs => ?_⟩
    obtain ⟨hp, ha⟩ := h hs
    exact ⟨Ext.refl hp, by rw [show c = x from ha]; rfl⟩
  | var v =>
    obtain ⟨r, hr, hg⟩ := amul_complete (cs := cs) (a := v) (b := v) (x := x) (y := x)
      (fun hs => ⟨(h hs).1, (h hs).2, (h hs).2⟩)
    refine ⟨(.var r.1, r.2), ?_, hg⟩
    rw [FpVar.square, hr]; rfl

theorem Gives.trans {cs : CS F} {b b' : Bool} {z z' : F} {r r' : FpVar F × CS F} (h : Gives cs b z r)
    (h' : Gives r.2 b' z' r') : Gives cs b' z' r' := by
  refine ⟨h'.1.trans h.1, h'.2.1, fun hs => ?_⟩
  obtain ⟨e, -⟩ := h.2.2 hs
  obtain ⟨e', c'⟩ := h'.2.2 (h.1.trans hs)
  exact ⟨e.trans e', c'⟩

theorem pow_loop_complete {a : FpVar F} {x : F} : ∀ (l : List Bool) (m : Nat) (res : FpVar F) (cs : CS F),
    (cs.setup = false → Proving cs ∧ Carries cs a x ∧ Carries cs res (x ^ m)) →
    ∃ r, (forList l (res, cs) fun bit (res, cs) => do
        let (res, cs) ← res.square cs
        if bit then res.mul a cs else return (res, cs)) = .ok r ∧
      Gives cs (res.isVar || (a.isVar && l.any id)) (x ^ bitsVal m l) r := by
  intro l
  induction l with
  | nil => intro m res cs h; exact ⟨_, rfl, rfl, by simp, fun hs => ⟨Ext.refl (h hs).1, (h hs).2.2⟩⟩
  | cons b l ih =>
    intro m res cs h
    obtain ⟨r1, h1, g1⟩ := square_complete (fun hs => ⟨(h hs).1, (h hs).2.2⟩)
    have step : ∃ r2, (if b then r1.1.mul a r1.2 else return (r1.1, r1.2) : R _) = .ok r2 ∧
        Gives cs (res.isVar || (a.isVar && b)) (x ^ (2 * m + b.toNat)) r2 := by
      cases b with
      | false =>
        refine ⟨_, rfl, ?_⟩
        simpa [Nat.two_mul, pow_add] using g1
      | true =>
        obtain ⟨r2, h2, g2⟩ := mul_complete (cs := r1.2) (a := r1.1) (b := a) (x := x ^ m * x ^ m) (y := x) (fun hs => by
          have hs' := g1.1.symm.trans hs
          obtain ⟨e, c⟩ := g1.2.2 hs'
          exact ⟨e.proving, c, (h hs').2.1.ext e⟩)
        refine ⟨r2, h2, ?_⟩
        have := g1.trans g2
        rw [g1.2.1] at this
        simpa [Nat.two_mul, pow_add] using this
    obtain ⟨r2, h2, g2⟩ := step
    obtain ⟨r3, h3, g3⟩ := ih (2 * m + b.toNat) r2.1 r2.2 (fun hs => by
      have hs' := g2.1.symm.trans hs
      obtain ⟨e, c⟩ := g2.2.2 hs'
      exact ⟨e.proving, (h hs').2.1.ext e, c⟩)
    refine ⟨r3, ?_, ?_⟩
    · rw [forList]
      dsimp only
      rw [h1, ok_bind, h2, ok_bind]
      exact h3
    · have := g2.trans g3
      rw [g2.2.1] at this
      convert this using 1
      · simp [Bool.or_assoc, Bool.and_or_distrib_left]
      · exact congrArg (x ^ ·) (show bitsVal m (b :: l) = bitsVal (2 * m + b.toNat) l from rfl)

theorem bitsBE_any {e : Nat} (he : e < 2 ^ 64) (h0 : e ≠ 0) : (bitsBE e).any id = true := by
  by_contra h
  have h1 : ∀ b ∈ bitsBE e, b = false := by simpa using h
  have h2 : ∀ l : List Bool, (∀ b ∈ l, b = false) → bitsVal 0 l = 0 := by
    intro l
    induction l with
    | nil => intro _; rfl
    | cons b l ih =>
      intro hb
      have := hb b (by simp)
      subst this
      exact ih fun b hb' => hb b (by simp [hb'])
  have := h2 _ h1
  rw [bitsVal_bitsBE he] at this
  exact h0 this

theorem pow_complete {cs : CS F} {a : FpVar F} {x : F} {e : Nat} (he : e < 2 ^ 64) (h0 : e ≠ 0)
    (h : cs.setup = false → Proving cs ∧ Carries cs a x) :
    ∃ r, a.powByConstant e cs = .ok r ∧ Gives cs a.isVar (x ^ e) r := by
  obtain ⟨r, hr, hg⟩ := pow_loop_complete (a := a) (x := x) (bitsBE e) 0 (.constant 1) cs
    (fun hs => ⟨(h hs).1, (h hs).2, (pow_zero x).symm⟩)
  refine ⟨r, hr, ?_⟩
  rw [bitsVal_bitsBE he, bitsBE_any he h0] at hg
  simpa [FpVar.isVar] using hg

/-! ### Sums -/

theorem sum_complete {cs : CS F} {l : List (FpVar F)} {vals : List F} (hl : l.length = vals.length)
    (hvar : ∃ x ∈ l, x.isVar = true)
    (h : cs.setup = false → ∀ i (h : i < l.length) (h' : i < vals.length), Carries cs l[i] vals[i]) :
    ∃ r, FpVar.sum l = .ok r ∧ r.isVar = true ∧ (cs.setup = false → Carries cs r vals.sum) := by
  have hne : (l.filterMap FpVar.var?) ≠ [] := by
    obtain ⟨x, hx, hv⟩ := hvar
    cases x with
    | constant c => cases hv
    | var v => exact List.ne_nil_of_mem (List.mem_filterMap.2 ⟨_, hx, rfl⟩)
  have hres : ∃ r, FpVar.sum l = .ok r ∧ r.isVar = true ∧
      (cs.setup = false → ∀ v, r = .var v → v.value = some vals.sum) := by
    unfold FpVar.sum AllocatedFp.addmany
    rw [if_neg (by simpa using hne)]
    refine ⟨_, rfl, rfl, fun hs v hv => ?_⟩
    simp only [FpVar.addConstant, FpVar.var.injEq] at hv
    subst hv
    have key : ∀ (l : List (FpVar F)) (vals : List F) (acc : F), l.length = vals.length →
        (∀ i (h : i < l.length) (h' : i < vals.length), Carries cs l[i] vals[i]) →
        ∃ b, (l.filterMap FpVar.var?).foldl
          (fun acc (v : AllocatedFp F) => do let x ← acc; let y ← v.value; return x + y) (some acc) = some b ∧
          b + (l.filterMap FpVar.const?).sum = acc + vals.sum := by
      intro l
      induction l with
      | nil =>
        intro vals acc hl _
        cases vals with
        | nil => exact ⟨acc, rfl, rfl⟩
        | cons _ _ => simp at hl
      | cons x xs ih =>
        intro vals acc hl hc
        cases vals with
        | nil => simp at hl
        | cons y ys =>
          have hx := hc 0 (by simp) (by simp)
          have ht : ∀ i (h : i < xs.length) (h' : i < ys.length), Carries cs xs[i] ys[i] :=
            fun i h h' => hc (i + 1) (by simpa using h) (by simpa using h')
          simp only [List.getElem_cons_zero] at hx
          cases x with
          | constant c =>
            obtain ⟨b, h1, h2⟩ := ih ys acc (by simpa using hl) ht
            refine ⟨b, ?_, ?_⟩
            · simpa [List.filterMap_cons, FpVar.var?, FpVar.const?] using h1
            · simp only [List.filterMap_cons, FpVar.var?, FpVar.const?, List.sum_cons]
              have hx : c = y := hx
              rw [hx, add_left_comm, h2]; ring
          | var v =>
            obtain ⟨b, h1, h2⟩ := ih ys (acc + y) (by simpa using hl) ht
            refine ⟨b, ?_, ?_⟩
            · simp only [List.filterMap_cons, FpVar.var?, FpVar.const?, List.foldl_cons]
              have hv : v.value = some y := hx.1
              rw [hv]
              exact h1
            · simp only [List.filterMap_cons, FpVar.var?, FpVar.const?, List.sum_cons]
              rw [h2]; ring
    obtain ⟨b, h1, h2⟩ := key l vals 0 hl (h hs)
    unfold AllocatedFp.addConstant
    split
    · next hc =>
      rw [fsum_eq_sum] at hc
      rw [hc] at h2
      simp only
      rw [h1, ← zero_add vals.sum, ← h2, add_zero]
    · simp only
      rw [h1, fsum_eq_sum, ← zero_add vals.sum, ← h2]
      rfl
  obtain ⟨r, hr, hv, hval⟩ := hres
  refine ⟨r, hr, hv, fun hs => ?_⟩
  cases r with
  | constant c => cases hv
  | var v =>
    refine ⟨hval hs v rfl, fun σ hσ => ?_⟩
    have h1 := sum_eval hσ.1 l _ hr
    simp only [FpVar.eval] at h1
    rw [h1]
    congr 1
    apply List.ext_getElem
    · simp [hl]
    · intro i hi hi'
      rw [List.getElem_map]
      exact (h hs i (by simpa using hi) hi').eval hσ

/-! ### Layers -/

/-- The circuit state is fit to go on: it has the right length, some word is a variable, and in
proving mode the words carry the native values. -/
structure Comp (cs0 : CS F) (v : Vector F t) (s : List (FpVar F)) (cs : CS F) : Prop where
  len : s.length = t
  setup : cs.setup = cs0.setup
  hasVar : ∃ i, ∃ h : i < s.length, s[i].isVar = true
  carries : cs.setup = false → Ext cs0 cs ∧ ∀ i (h : i < s.length) (h' : i < t), Carries cs s[i] v[i]

theorem Comp.set {cs0 cs cs' : CS F} {v : Vector F t} {s : List (FpVar F)} (h : Comp cs0 v s cs) {i : Nat}
    (hi : i < t) (hi' : i < s.length) {y : FpVar F} {z : F} (g : Gives cs s[i].isVar z (y, cs')) :
    Comp cs0 (v.set i z) (s.set i y) cs' := by
  refine ⟨by simp [h.len], g.1.trans h.setup, ?_, fun hs => ?_⟩
  · obtain ⟨j, hj, hv⟩ := h.hasVar
    refine ⟨j, by simpa using hj, ?_⟩
    rw [List.getElem_set]
    split
    · next heq => subst heq; rw [← hv]; exact g.2.1
    · exact hv
  · have hs' := g.1.symm.trans hs
    obtain ⟨e, c⟩ := g.2.2 hs'
    obtain ⟨e0, c0⟩ := h.carries hs'
    refine ⟨e0.trans e, fun j hj hj' => ?_⟩
    rw [List.getElem_set, Vector.getElem_set]
    split
    · exact c
    · exact (c0 j (by simpa using hj) hj').ext e

theorem Comp.proving {cs0 cs : CS F} {v : Vector F t} {s : List (FpVar F)} (h : Comp cs0 v s cs)
    (hs : cs.setup = false) : Proving cs := (h.carries hs).1.proving

theorem addRoundConstants_complete {cs0 : CS F} (arc : Mat F rows cols nround) {s : List (FpVar F)} {cs : CS F}
    {v : Vector F t} (h : Comp cs0 v s cs) (counter : Nat) :
    Sim (fun b a => Comp cs0 b.1 a.1 cs ∧ a.2 = b.2) (addLinear arc (v, counter))
      (addRoundConstants t arc s counter) := by
  unfold addRoundConstants addLinear
  refine Sim.forRange (Rel := fun _ (b : Vector F t × Nat) (a : List (FpVar F) × Nat) =>
    Comp cs0 b.1 a.1 cs ∧ a.2 = b.2) (Nat.zero_le _) ⟨h, rfl⟩ ?_
  rintro i ⟨v, c'⟩ ⟨s, c⟩ _ hi ⟨hs, rfl⟩
  dsimp only at hs ⊢
  have hi' : i < s.length := by rw [hs.len]; exact hi
  rw [lget_lt s hi', ok_bind, aget_lt v hi, ok_bind]
  refine Sim.bind (Q := fun x y => x = y) (fun a ha => ⟨a, ha, rfl⟩) ?_
  rintro k _ rfl
  rw [lset_lt _ hi', aset_lt _ _ hi, ok_bind, ok_bind]
  refine Sim.ok ⟨hs.set hi hi' ⟨rfl, addConstant_isVar _ _, fun h => ⟨Ext.refl (hs.proving h), ?_⟩⟩, rfl⟩
  exact addConstant_carries ((hs.carries h).2 i hi' hi) k

theorem subWord_complete {cs0 : CS F} {e : Nat} (he : e < 2 ^ 64) (h0 : e ≠ 0) {s : List (FpVar F)} {cs : CS F}
    {v : Vector F t} (h : Comp cs0 v s cs) {i : Nat} (hi : i < t) :
    Sim (fun b a => Comp cs0 b a.1 a.2) (do
      let x ← aget v i
      let y ← sbox (.exponent e) x
      aset v i y) (do
      let x ← lget s i
      let (y, cs) ← x.powByConstant e cs
      let s ← lset s i y
      return (s, cs)) := by
  have hi' : i < s.length := by rw [h.len]; exact hi
  obtain ⟨r, hr, g⟩ := pow_complete (cs := cs) (a := s[i]) (x := v[i]) he h0
    (fun hs => ⟨h.proving hs, (h.carries hs).2 i hi' hi⟩)
  rw [lget_lt s hi', ok_bind, aget_lt v hi, ok_bind, hr, ok_bind]
  dsimp only
  rw [lset_lt _ hi', ok_bind, sbox, ok_bind, aset_lt _ _ hi]
  exact Sim.ok (h.set hi hi' g)

theorem partialSubWords_complete {cs0 : CS F} {e : Nat} (he : e < 2 ^ 64) (h0 : e ≠ 0) (ht : 0 < t)
    {s : List (FpVar F)} {cs : CS F} {v : Vector F t} (h : Comp cs0 v s cs) :
    Sim (fun b a => Comp cs0 b a.1 a.2) (Poseidon.partialSubWords (.exponent e) v)
      (partialSubWords (.exponent e) s cs) :=
  subWord_complete he h0 h ht

theorem fullSubWords_complete {cs0 : CS F} {e : Nat} (he : e < 2 ^ 64) (h0 : e ≠ 0)
    {s : List (FpVar F)} {cs : CS F} {v : Vector F t} (h : Comp cs0 v s cs) :
    Sim (fun b a => Comp cs0 b a.1 a.2) (Poseidon.fullSubWords (.exponent e) v)
      (fullSubWords t (.exponent e) s cs) := by
  unfold fullSubWords Poseidon.fullSubWords
  refine Sim.forRange (Rel := fun _ (b : Vector F t) (a : List (FpVar F) × CS F) => Comp cs0 b a.1 a.2)
    (Nat.zero_le _) h ?_
  rintro i v ⟨s, cs⟩ _ hi hs
  exact subWord_complete he h0 hs hi

theorem mixRow_complete {cs : CS F} {row : List F} {s : List (FpVar F)} {vals : List F}
    (hrow : row.length = s.length) (hl : s.length = vals.length)
    (hvar : ∃ i, ∃ h : i < s.length, s[i].isVar = true)
    (h : cs.setup = false → ∀ i (h : i < s.length) (h' : i < vals.length), Carries cs s[i] vals[i]) :
    ∃ r, mixRow row s cs = .ok (r, cs) ∧ r.isVar = true ∧
      (cs.setup = false → Carries cs r (List.zipWith (· * ·) row vals).sum) := by
  unfold mixRow
  obtain ⟨⟨terms, cs'⟩, h1, h2⟩ := forList_spec (fun j (r : List (FpVar F) × CS F) => r.2 = cs ∧ r.1.length = j ∧
      (∀ i (hi : i < r.1.length) (hi' : i < s.length), r.1[i].isVar = s[i].isVar) ∧
      (cs.setup = false → ∀ i (hi : i < r.1.length) (h1 : i < row.length) (h2 : i < vals.length),
        Carries cs r.1[i] (row[i] * vals[i])))
    (body := fun (x : F × FpVar F) (r : List (FpVar F) × CS F) => do
      let (p, cs) ← (FpVar.constant x.1).mul x.2 r.2
      return (r.1 ++ [p], cs)) (row.zip s) 0 ([], cs)
    ⟨rfl, rfl, fun i hi => absurd hi (by simp), fun _ i hi => absurd hi (by simp)⟩ (by
      rintro j hj ⟨terms, cs'⟩ ⟨rfl, hlen, hv, hc⟩
      simp only [Nat.zero_add] at hlen hv hc ⊢
      have hjr : j < row.length := by rw [List.length_zip] at hj; omega
      have hjs : j < s.length := by rw [List.length_zip] at hj; omega
      rw [List.getElem_zip]
      have hm : ∃ p, (FpVar.constant row[j]).mul s[j] cs' = .ok (p, cs') ∧ p.isVar = s[j].isVar ∧
          (∀ z, Carries cs' s[j] z → Carries cs' p (row[j] * z)) := by
        cases s[j] with
        | constant c =>
          exact ⟨_, rfl, rfl, fun z hz => by rw [show c = z from hz]; rfl⟩
        | var w =>
          exact ⟨_, rfl, rfl, fun z hz => by rw [mul_comm]; exact mulConstant_carries hz _⟩
      obtain ⟨p, hp, hpv, hpc⟩ := hm
      refine ⟨(terms ++ [p], cs'), by rw [hp]; rfl, rfl, by simp [hlen], ?_, ?_⟩
      · intro i hi hi'
        rw [List.getElem_append]
        split
        · next hlt => exact hv i hlt hi'
        · next hlt =>
          have : i = j := by simp at hi; omega
          subst this
          simpa using hpv
      · intro hs i hi h1 h2
        rw [List.getElem_append]
        split
        · next hlt => exact hc hs i hlt h1 h2
        · next hlt =>
          have : i = j := by simp at hi; omega
          subst this
          simpa using hpc _ (h hs i hjs h2))
  obtain ⟨rfl, hlen, hv, hc⟩ := h2
  simp only [Nat.zero_add, List.length_zip] at hlen hv hc
  have hlen' : terms.length = s.length := by omega
  obtain ⟨r, hr, hrv, hrc⟩ := sum_complete (cs := cs') (l := terms) (vals := List.zipWith (· * ·) row vals)
    (by simp; omega) (by
      obtain ⟨i, hi, hiv⟩ := hvar
      exact ⟨terms[i], List.getElem_mem (by omega), by rw [hv i (by omega) hi, hiv]⟩) (fun hs i hi hi' => by
      rw [List.getElem_zipWith]
      exact hc hs i hi _ _)
  refine ⟨r, ?_, hrv, hrc⟩
  refine Eq.trans (congrArg (· >>= _) h1) ?_
  rw [ok_bind]
  dsimp only
  rw [hr]; rfl

theorem mixLayer_complete {cs0 : CS F} (ht : 0 < t) (hm : nmds = t * t) (m : Mat F t t nmds)
    {s : List (FpVar F)} {cs : CS F} {v : Vector F t} (h : Comp cs0 v s cs) :
    Sim (fun b a => Comp cs0 b a.1 a.2 ∧ a.2 = cs ∧ ∀ x ∈ a.1, x.isVar = true) (Poseidon.mixLayer m v)
      (mixLayer m s cs) := by
  have hv : Poseidon.mixLayer m v = .ok (Vector.ofFn ((m.toM hm).mulVec fun i => v[i])) := by
    rw [← mixLayer_eq ht hm, ofFn_get]
  rw [hv]
  intro b hb
  cases hb
  unfold mixLayer
  rw [iterRows_eq ht hm, ok_bind]
  have hrow : ∀ i : Fin t, ∃ r, mixRow (List.ofFn fun j => m.toM hm i j) s cs = .ok (r, cs) ∧ r.isVar = true ∧
      (cs.setup = false → Carries cs r ((m.toM hm).mulVec (fun i => v[i]) i)) := by
    intro i
    obtain ⟨r, h1, h2, h3⟩ := mixRow_complete (cs := cs) (row := List.ofFn fun j => m.toM hm i j) (s := s)
      (vals := List.ofFn fun i : Fin t => v[i]) (by simp [h.len]) (by simp [h.len]) h.hasVar (fun hs i hi hi' => by
        have := (h.carries hs).2 i hi (by simpa using hi')
        simpa using this)
    refine ⟨r, h1, h2, fun hs => ?_⟩
    have hd := dotProduct_ofFn (fun l => m.toM hm i l) fun i : Fin t => v[i]
    rw [dotProduct, if_neg (by simp), fsum_eq_sum] at hd
    have := h3 hs
    rw [Except.ok.inj hd] at this
    exact this
  obtain ⟨⟨new, cs'⟩, h1, h2⟩ := forList_spec (fun j (r : List (FpVar F) × CS F) => r.2 = cs ∧ r.1.length = j ∧
      (∀ i (hi : i < r.1.length), r.1[i].isVar = true) ∧
      (cs.setup = false → ∀ i (hi : i < r.1.length) (hi' : i < t),
        Carries cs r.1[i] ((m.toM hm).mulVec (fun i => v[i]) ⟨i, hi'⟩)))
    (body := fun row (r : List (FpVar F) × CS F) => do
        let (x, cs) ← mixRow row s r.2
        return (r.1 ++ [x], cs))
    (List.ofFn fun i : Fin t => List.ofFn fun j : Fin t => m.toM hm i j) 0 ([], cs)
    ⟨rfl, rfl, fun i hi => absurd hi (by simp), fun _ i hi => absurd hi (by simp)⟩ (by
      rintro j hj ⟨new, cs'⟩ ⟨rfl, hlen, hvv, hc⟩
      simp only [Nat.zero_add] at hlen hvv hc ⊢
      have hjt : j < t := by simpa using hj
      obtain ⟨x, hx1, hx2, hx3⟩ := hrow ⟨j, hjt⟩
      refine ⟨(new ++ [x], cs'), by rw [List.getElem_ofFn, hx1]; rfl, rfl, by simp [hlen], ?_, ?_⟩
      · intro i hi
        rw [List.getElem_append]
        split
        · next hlt => exact hvv i hlt
        · simpa using hx2
      · intro hs i hi hi'
        rw [List.getElem_append]
        split
        · next hlt => exact hc hs i hlt hi'
        · next hlt =>
          have : i = j := by simp at hi; omega
          subst this
          simpa using hx3 hs)
  obtain ⟨rfl, hlen, hvv, hc⟩ := h2
  simp only [Nat.zero_add, List.length_ofFn] at hlen hvv hc
  have hpos : 0 < new.length := lt_of_lt_of_eq ht hlen.symm
  refine ⟨_, h1, ⟨hlen, h.setup, ⟨0, hpos, hvv 0 hpos⟩, fun hs => ⟨(h.carries hs).1, ?_⟩⟩, rfl, ?_⟩
  · intro i hi hi'
    rw [Vector.getElem_ofFn]
    exact hc hs i hi hi'
  · intro x hx
    obtain ⟨i, hi, rfl⟩ := List.getElem_of_mem hx
    exact hvv i hi

theorem round_complete {cs0 : CS F} (p : Params F t tm1 nmds nhat rows cols nround npart) {e : Nat}
    (ha : p.alpha = .exponent e) (he : e < 2 ^ 64) (h0 : e ≠ 0) (ht : 0 < t) (hm : nmds = t * t) (full : Bool)
    (b : Vector F t × Nat) (a : List (FpVar F) × Nat × CS F) (h : Comp cs0 b.1 a.1 a.2.2 ∧ a.2.1 = b.2) :
    Sim (fun b a => Comp cs0 b.1 a.1 a.2.2 ∧ a.2.1 = b.2) (nativeRound p full b) (round p full a) := by
  obtain ⟨s, c, cs⟩ := a
  obtain ⟨v, c'⟩ := b
  obtain ⟨h, rfl⟩ := h
  unfold round nativeRound
  refine Sim.bind (addRoundConstants_complete p.arc h c) ?_
  rintro ⟨v, _⟩ ⟨s, c1⟩ ⟨h, rfl⟩
  dsimp only at h ⊢
  have tail : ∀ (b : Vector F t) (a : List (FpVar F) × CS F), Comp cs0 b a.1 a.2 →
      Sim (fun (b : Vector F t × Nat) (a : List (FpVar F) × Nat × CS F) => Comp cs0 b.1 a.1 a.2.2 ∧ a.2.1 = b.2)
        (do let s ← Poseidon.mixLayer p.mds b; return (s, c1))
        (do let r ← mixLayer p.mds a.1 a.2; return (r.1, c1, r.2)) := by
    intro b a h
    refine Sim.bind (mixLayer_complete ht hm p.mds h) ?_
    rintro v ⟨s, cs⟩ h
    exact Sim.ok ⟨h.1, rfl⟩
  cases full with
  | true => exact Sim.bind (by rw [ha]; exact fullSubWords_complete he h0 h) tail
  | false => exact Sim.bind (by rw [ha]; exact partialSubWords_complete he h0 ht h) tail

theorem permute_complete {cs0 : CS F} (p : Params F t tm1 nmds nhat rows cols nround npart) {e : Nat}
    (ha : p.alpha = .exponent e) (he : e < 2 ^ 64) (h0 : e ≠ 0) (ht : 0 < t) (hm : nmds = t * t)
    {s : List (FpVar F)} {cs : CS F} {v : Vector F t} (h : Comp cs0 v s cs) :
    Sim (fun b a => Comp cs0 b a.1 a.2) (unoptimizedPermute p v) (permute p s cs) := by
  have L : ∀ (full : Bool) (n : Nat) (b : Vector F t × Nat) (a : List (FpVar F) × Nat × CS F),
      (Comp cs0 b.1 a.1 a.2.2 ∧ a.2.1 = b.2) → Sim (fun b a => Comp cs0 b.1 a.1 a.2.2 ∧ a.2.1 = b.2)
      (forRange 0 n b fun _ st => nativeRound p full st) (forRange 0 n a fun _ st => round p full st) := by
    intro full n b a hab
    exact Sim.forRange (Rel := fun _ (b : Vector F t × Nat) (a : List (FpVar F) × Nat × CS F) =>
      Comp cs0 b.1 a.1 a.2.2 ∧ a.2.1 = b.2) (Nat.zero_le _) hab
      (fun k b a _ _ h => round_complete p ha he h0 ht hm full b a h)
  rw [unoptimizedPermute_rounds]
  unfold permute
  refine Sim.bind (L true _ _ _ ⟨h, rfl⟩) fun a b hab => ?_
  refine Sim.bind (L false _ _ _ hab) fun a b hab => ?_
  refine Sim.bind (L true _ _ _ hab) fun a b hab => ?_
  exact Sim.ok hab.1

end Poseidon.R1cs
