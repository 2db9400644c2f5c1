import Verif.Spec.CircuitState
import Verif.Proofs.Arith
import Verif.Proofs.R1csCount
import Verif.Proofs.R1csGrow
import Verif.Props.CircuitHash

/-!
# Lemmas about a hand-made `InstanceVar`: words beyond the state, too few words, constants only
-/

set_option linter.unusedSectionVars false

namespace Poseidon.R1cs

variable {F : Type} [Field F] [DecidableEq F]
variable {t tm1 nmds nhat rows cols nround npart : Nat}

/-! ### Words beyond the state -/

theorem loopN_map_inv {σ τ : Type} (f : τ → σ) (P : τ → Prop) {body : Nat → σ → R σ} {step : Nat → τ → R τ} :
    ∀ (n i : Nat) (x : τ), P x →
      (∀ j x, i ≤ j → j < i + n → P x → body j (f x) = step j x >>= (fun y => .ok (f y)) ∧ Ens P (step j x)) →
      loopN body n i (f x) = loopN step n i x >>= fun y => .ok (f y) := by
  intro n
  induction n with
  | zero => intro i x _ _; rfl
  | succ n ih =>
    intro i x hx h
    obtain ⟨h1, h2⟩ := h i x le_rfl (by omega) hx
    rw [loopN, loopN, h1]
    cases hs : step i x with
    | error e => rfl
    | ok y => exact ih (i + 1) y (h2 y hs) fun j x a b => h j x (by omega) (by omega)

theorem forRange_map_inv {σ τ : Type} (f : τ → σ) (P : τ → Prop) {body : Nat → σ → R σ} {step : Nat → τ → R τ} {n : Nat} {x : τ}
    (hx : P x) (h : ∀ j x, j < n → P x → body j (f x) = step j x >>= (fun y => .ok (f y)) ∧ Ens P (step j x)) :
    forRange 0 n (f x) body = forRange 0 n x step >>= fun y => .ok (f y) :=
  loopN_map_inv f P _ _ x hx fun j x _ hj => h j x (by omega)

theorem lget_append {α : Type} {s : List α} (e : List α) {i : Nat} (h : i < s.length) : lget (s ++ e) i = .ok s[i] := by
  rw [lget_lt _ (by simp; omega), List.getElem_append_left h]

theorem lset_append {α : Type} {s : List α} (e : List α) {i : Nat} (x : α) (h : i < s.length) :
    lset (s ++ e) i x = .ok (s.set i x ++ e) := by
  rw [lset_lt _ (by simp; omega), List.set_append_left _ _ h]

theorem addRoundConstants_append (arc : Mat F rows cols nround) {s : List (FpVar F)} (e : List (FpVar F)) (c : Nat)
    (hs : s.length = t) : addRoundConstants t arc (s ++ e) c =
      addRoundConstants t arc s c >>= fun r => .ok (r.1 ++ e, r.2) := by
  unfold addRoundConstants
  refine forRange_map_inv (fun r : List (FpVar F) × Nat => (r.1 ++ e, r.2)) (fun r => r.1.length = t) (x := (s, c)) hs ?_
  rintro j ⟨s, c⟩ hj hs
  dsimp only at hs ⊢
  rw [lget_append e (by omega), lget_lt s (by omega), ok_bind, ok_bind]
  cases hk : aget arc.elements c with
  | error e => exact ⟨rfl, Ens.error⟩
  | ok k =>
    rw [ok_bind, ok_bind, lset_append e _ (by omega), lset_lt _ (by omega)]
    exact ⟨rfl, Ens.ok (by simpa using hs)⟩

theorem subWord_append (ex : Nat) {s : List (FpVar F)} (e : List (FpVar F)) (cs : CS F) {j : Nat} (hj : j < s.length) :
    (do
      let x ← lget (s ++ e) j
      let (y, cs) ← x.powByConstant ex cs
      let s ← lset (s ++ e) j y
      return (s, cs)) = ((do
      let x ← lget s j
      let (y, cs) ← x.powByConstant ex cs
      let s ← lset s j y
      return (s, cs)) >>= fun r => .ok (r.1 ++ e, r.2)) ∧
    Ens (fun r : List (FpVar F) × CS F => r.1.length = s.length) (do
      let x ← lget s j
      let (y, cs) ← x.powByConstant ex cs
      let s ← lset s j y
      return (s, cs)) := by
  rw [lget_append e hj, lget_lt s hj, ok_bind, ok_bind]
  cases hp : s[j].powByConstant ex cs with
  | error e => exact ⟨rfl, Ens.error⟩
  | ok r =>
    rw [ok_bind, ok_bind]
    dsimp only
    rw [lset_append e _ hj, lset_lt _ hj]
    exact ⟨rfl, Ens.ok (by simp)⟩

theorem fullSubWords_append (alpha : Alpha) {s : List (FpVar F)} (e : List (FpVar F)) (cs : CS F) (hs : s.length = t) :
    fullSubWords t alpha (s ++ e) cs = fullSubWords t alpha s cs >>= fun r => .ok (r.1 ++ e, r.2) := by
  cases alpha with
  | inverse => rfl
  | exponent ex =>
    refine forRange_map_inv (fun r : List (FpVar F) × CS F => (r.1 ++ e, r.2)) (fun r => r.1.length = t) (x := (s, cs)) hs ?_
    rintro j ⟨s, cs⟩ hj hs
    dsimp only at hs
    obtain ⟨h1, h2⟩ := subWord_append ex e cs (s := s) (j := j) (by omega)
    exact ⟨h1, h2.mono fun r hr => hr.trans hs⟩

theorem partialSubWords_append (alpha : Alpha) {s : List (FpVar F)} (e : List (FpVar F)) (cs : CS F) (ht : 0 < t) (hs : s.length = t) :
    partialSubWords alpha (s ++ e) cs = partialSubWords alpha s cs >>= fun r => .ok (r.1 ++ e, r.2) := by
  cases alpha with
  | inverse => rfl
  | exponent ex => exact (subWord_append ex e cs (s := s) (j := 0) (by omega)).1

theorem zip_append_right {α β : Type} : ∀ (l : List α) (s e : List β), l.length ≤ s.length → l.zip (s ++ e) = l.zip s := by
  intro l
  induction l with
  | nil => intro s e _; rfl
  | cons x l ih =>
    intro s e h
    cases s with
    | nil => simp at h
    | cons y s =>
      simp only [List.cons_append, List.zip_cons_cons]
      rw [ih s e (by simpa using h)]

theorem mixLayer_append (ht : 0 < t) (hm : nmds = t * t) (m : Mat F t t nmds) {s : List (FpVar F)} (e : List (FpVar F)) (cs : CS F)
    (hs : s.length = t) : mixLayer m (s ++ e) cs = mixLayer m s cs := by
  unfold mixLayer
  rw [iterRows_eq ht hm, ok_bind, ok_bind]
  have key : ∀ (l : List (List F)) (st : List (FpVar F) × CS F), (∀ row ∈ l, row.length = t) →
      (forList l st fun row (r : List (FpVar F) × CS F) => do
        let (x, cs) ← mixRow row (s ++ e) r.2
        return (r.1 ++ [x], cs)) = forList l st fun row (r : List (FpVar F) × CS F) => do
        let (x, cs) ← mixRow row s r.2
        return (r.1 ++ [x], cs) := by
    intro l
    induction l with
    | nil => intro st _; rfl
    | cons row l ih =>
      intro st hl
      rw [forList, forList]
      have hrow : mixRow row (s ++ e) st.2 = mixRow row s st.2 := by
        unfold mixRow
        rw [zip_append_right row s e (by rw [hl row (by simp), hs])]
      rw [hrow]
      congr 1
      funext st
      exact ih st fun row h => hl row (by simp [h])
  refine key _ _ ?_
  intro row hrow
  obtain ⟨i, -, rfl⟩ := List.mem_ofFn.1 hrow
  simp

theorem round_append (p : Params F t tm1 nmds nhat rows cols nround npart) (ht : 0 < t) (hm : nmds = t * t) (full : Bool)
    {s : List (FpVar F)} (e : List (FpVar F)) (c : Nat) (cs : CS F) (hs : s.length = t) :
    round p full (s ++ e, c, cs) = round p full (s, c, cs) := by
  unfold round
  dsimp only
  rw [addRoundConstants_append p.arc e c hs, bind_assoc]
  have hl := addRoundConstants_count (t := t) p.arc s c
  cases ha : addRoundConstants t p.arc s c with
  | error e => rfl
  | ok r =>
    have hr : r.1.length = t := by
      have := congrArg List.length (hl r ha)
      simpa [hs] using this
    rw [ok_bind, ok_bind, ok_bind]
    dsimp only
    cases full with
    | true =>
      simp only [if_true]
      rw [fullSubWords_append p.alpha e cs hr, bind_assoc]
      cases hf : fullSubWords t p.alpha r.1 cs with
      | error e => rfl
      | ok q =>
        rw [ok_bind, ok_bind, ok_bind]
        dsimp only
        have hq : q.1.length = t := by
          revert hf
          cases p.alpha with
          | inverse => intro h; cases h
          | exponent ex =>
            intro h
            refine Ens.forRange (Inv := fun _ (r : List (FpVar F) × CS F) => r.1.length = t) (Nat.zero_le _) hr ?_ q h
            rintro k ⟨s, cs⟩ _ hk hs
            exact (subWord_append ex [] cs (s := s) (j := k) (by dsimp only at hs; omega)).2.mono fun r h => h.trans hs
        rw [mixLayer_append ht hm p.mds e q.2 hq]
    | false =>
      simp only [Bool.false_eq_true, if_false]
      rw [partialSubWords_append p.alpha e cs ht hr, bind_assoc]
      cases hf : partialSubWords p.alpha r.1 cs with
      | error e => rfl
      | ok q =>
        rw [ok_bind, ok_bind, ok_bind]
        dsimp only
        have hq : q.1.length = t := by
          revert hf
          cases p.alpha with
          | inverse => intro h; cases h
          | exponent ex =>
            intro h
            exact ((subWord_append ex [] cs (s := r.1) (j := 0) (by omega)).2 q h).trans hr
        rw [mixLayer_append ht hm p.mds e q.2 hq]

/-- With fewer words than the state has, a round panics. -/
theorem round_short (p : Params F t tm1 nmds nhat rows cols nround npart) (full : Bool) {s : List (FpVar F)} (c : Nat) (cs : CS F)
    (hs : s.length < t) : Ens (fun _ => False) (round p full (s, c, cs)) := by
  unfold round
  refine Ens.bind (Q := fun _ => False) ?_ fun _ h => h.elim
  have h : Ens (fun r : List (FpVar F) × Nat => r.1.length = s.length ∧ t ≤ s.length) (addRoundConstants t p.arc s c) := by
    refine Ens.forRange (Inv := fun k (r : List (FpVar F) × Nat) => r.1.length = s.length ∧ k ≤ s.length) (Nat.zero_le _)
      ⟨rfl, Nat.zero_le _⟩ ?_
    rintro k ⟨s', c⟩ _ _ ⟨h1, h2⟩
    dsimp only at h1 ⊢
    by_cases hk : k < s'.length
    · rw [lget_lt _ hk, ok_bind]
      refine Ens.bind (Q := fun _ => True) (fun _ _ => trivial) fun y _ => ?_
      rw [lset_lt _ hk, ok_bind]
      exact Ens.ok ⟨by simpa using h1, by omega⟩
    · rw [lget_ge _ (by omega)]
      exact Ens.error
  exact h.mono fun r hr => by omega

end Poseidon.R1cs

namespace Poseidon

open R1cs

variable {t tm1 nmds nhat rows cols nround npart : Nat}

/-! ### The permutation of a shipped rate on any words -/

theorem permute_first (i : Fin 7) (s : List (FpVar Fq)) (cs : CS Fq) :
    R1cs.permute (shippedParams i) s cs = R1cs.round (shippedParams i) true (s, 0, cs) >>= fun st => do
      let st ← forRange 1 4 st fun _ st => R1cs.round (shippedParams i) true st
      let st ← forRange 0 31 st fun _ st => R1cs.round (shippedParams i) false st
      let st ← forRange 0 4 st fun _ st => R1cs.round (shippedParams i) true st
      return (st.1, st.2.2) := by
  unfold R1cs.permute
  rw [shipped_rounds]
  show forRange 0 (3 + 1) _ _ >>= _ = _
  rw [forRange_zero_succ, bind_assoc]
  rfl

/-- Words beyond the state do not matter. -/
theorem permute_take (i : Fin 7) (s : List (FpVar Fq)) (cs : CS Fq) (hs : i.val + 2 ≤ s.length) :
    R1cs.permute (shippedParams i) s cs = R1cs.permute (shippedParams i) (s.take (i.val + 2)) cs := by
  rw [permute_first, permute_first]
  congr 1
  have := round_append (shippedParams i) (by omega) rfl true (s := s.take (i.val + 2)) (s.drop (i.val + 2)) 0 cs (by simp; omega)
  rwa [List.take_append_drop] at this

theorem permute_short (i : Fin 7) (s : List (FpVar Fq)) (cs : CS Fq) (hs : s.length < i.val + 2) :
    Ens (fun _ => False) (R1cs.permute (shippedParams i) s cs) := by
  rw [permute_first]
  exact Ens.bind (round_short (shippedParams i) true 0 cs hs) fun _ h => h.elim

theorem permute_const (i : Fin 7) (s : List (FpVar Fq)) (cs : CS Fq) (hs : s.length = i.val + 2) (hc : ∀ x ∈ s, x.isVar = false) :
    Ens (fun _ => False) (R1cs.permute (shippedParams i) s cs) := by
  rw [permute_first]
  exact Ens.bind (round_const (shippedParams i) (shipped_alpha i) (by norm_num) (by norm_num) (by omega) rfl true s 0 cs hs hc)
    fun _ h => h.elim

theorem all_of_numVar {s : List (FpVar Fq)} (h : numVar s = s.length) : s.map FpVar.isVar = List.replicate s.length true := by
  rw [List.eq_replicate_iff]
  refine ⟨by simp, fun b hb => ?_⟩
  obtain ⟨x, hx, rfl⟩ := List.mem_map.1 hb
  exact List.countP_eq_length.1 h x hx

/-- The words afterwards are as many as the state has, none is a constant. -/
theorem permute_flagsAfter (i : Fin 7) (s : List (FpVar Fq)) (cs : CS Fq) (hs : s.length = i.val + 2) :
    Ens (fun r => r.1.map FpVar.isVar = List.replicate (i.val + 2) true) (R1cs.permute (shippedParams i) s cs) := by
  have R := fun full n a => rounds_count (shippedParams i) (shipped_alpha i) (by norm_num) (by norm_num) (by omega) rfl full n a
  unfold R1cs.permute
  rw [shipped_rounds]
  have h1 : Ens (fun r => r.1.length = i.val + 2 ∧ numVar r.1 = i.val + 2)
      (forRange 0 4 (s, 0, cs) fun _ st => R1cs.round (shippedParams i) true st) := by
    rw [forRange_succ (Nat.zero_le 3)]
    refine Ens.bind (Q := fun r => r.1.length = i.val + 2) ?_ fun r hr => ?_
    · refine Ens.forRange (Inv := fun _ (r : List (FpVar Fq) × Nat × CS Fq) => r.1.length = i.val + 2) (Nat.zero_le _) hs ?_
      intro k r _ _ hr
      exact (round_count (shippedParams i) (shipped_alpha i) (by norm_num) (by norm_num) (by omega) rfl true r hr).mono fun _ h => h.1
    · exact (round_count (shippedParams i) (shipped_alpha i) (by norm_num) (by norm_num) (by omega) rfl true r hr).mono
        fun _ h => ⟨h.1, h.2.1⟩
  refine Ens.bind h1 fun r hr => ?_
  refine Ens.bind (R false _ r hr.1 hr.2) fun r hr => ?_
  refine Ens.bind (R true _ r hr.1 hr.2.1) fun r hr => ?_
  refine Ens.ok ?_
  have := all_of_numVar (s := r.1) (hr.2.1.trans hr.1.symm)
  rwa [hr.1] at this

theorem permute_adds (i : Fin 7) (s : List (FpVar Fq)) (cs : CS Fq) (hs : s.length = i.val + 2) :
    Ens (fun r => Adds (5 * (numVar s + 7 * (i.val + 2) + 31)) cs r.2) (R1cs.permute (shippedParams i) s cs) := by
  have h := permute_count (shippedParams i) (shipped_alpha i) (by norm_num) (by norm_num) (by omega) rfl (n := 3)
    (by simp [RoundNumbers.full, shipped_rounds]) s hs cs
  rw [sboxCost_17, shipped_rounds] at h
  exact h

theorem native_unoptimized (i : Fin 7) (x : Vector Fq (i.val + 2)) :
    unoptimizedPermute (shippedParams i) x = .ok (Vector.ofFn (perm377 i fun j => x[j])) := by
  have h := native_word i x
  rw [Instance.unoptimizedNTo1FixedHash, setState_eq, ok_bind] at h
  cases hp : unoptimizedPermute (Instance.new (shippedParams i)).parameters x with
  | error e => rw [hp] at h; cases h
  | ok v =>
    rw [hp, ok_bind] at h
    have hv : v = Vector.ofFn (perm377 i fun j => x[j]) := by
      cases ho : aget v 1 with
      | error e => rw [ho] at h; cases h
      | ok o =>
        rw [ho, ok_bind] at h
        exact congrArg (fun r => r.2.stateWords) (Except.ok.inj h)
    rw [← hv]
    exact hp

theorem nativePermute_eq (i : Fin 7) (x : Vector Fq (i.val + 2)) :
    nativePermute i x = .ok (Vector.ofFn (perm377 i fun j => x[j])) := by
  have h := nTo1_perm377 i (Vector.replicate _ 0) (fun j => x[j])
  have hx : Vector.ofFn (fun j : Fin (i.val + 2) => x[j]) = x := by ext; simp
  rw [hx] at h
  unfold nativePermute
  have h' : (Instance.new (shippedParams i)).nTo1FixedHash x = _ := h
  rw [h', ok_bind]
  rfl

/-! ### One step -/

theorem take_flags (t : Nat) (s : List (FpVar Fq)) : (s.map FpVar.isVar).take t = (s.take t).map FpVar.isVar := by simp

theorem getD_flag {s : List (FpVar Fq)} {k : Nat} (hk : k < s.length) : (s.map FpVar.isVar).getD k false = s[k].isVar := by
  simp [List.getD, hk]

theorem numVar_take (t : Nat) (s : List (FpVar Fq)) : ((s.map FpVar.isVar).take t).count true = numVar (s.take t) := by
  rw [take_flags, List.count, List.countP_map]
  unfold numVar
  congr 1
  funext x
  cases h : x.isVar <;> simp [h]

theorem lget_ok {α : Type} {l : List α} {k : Nat} {x : α} (h : lget l k = .ok x) : ∃ hk : k < l.length, l[k] = x := by
  by_cases hk : k < l.length
  · rw [lget_lt _ hk] at h
    exact ⟨hk, Except.ok.inj h⟩
  · rw [lget_ge _ (by omega)] at h; cases h

theorem lset_ok {α : Type} {l l' : List α} {k : Nat} {x : α} (h : lset l k x = .ok l') : k < l.length ∧ l' = l.set k x := by
  unfold lset at h
  split at h
  · next hk => exact ⟨hk, (Except.ok.inj h).symm⟩
  · cases h

theorem run_set_ok {p : Params Fq t tm1 nmds nhat rows cols nround npart} {s s' : List (FpVar Fq)} {cs cs' : CS Fq} {k : Nat} {x : FpVar Fq}
    (h : (WordCall.set k x).run p (s, cs) = .ok (s', cs')) : k < s.length ∧ s' = s.set k x ∧ cs' = cs := by
  unfold WordCall.run at h
  dsimp only at h
  cases hs : lset s k x with
  | error e => rw [hs] at h; cases h
  | ok l =>
    rw [hs] at h
    obtain ⟨h1, rfl⟩ := lset_ok hs
    cases h
    exact ⟨h1, rfl, rfl⟩

theorem run_arith_ok {p : Params Fq t tm1 nmds nhat rows cols nround npart} {s s' : List (FpVar Fq)} {cs cs' : CS Fq} {op : ArithOp} {k : Nat}
    {x : FpVar Fq} (h : (WordCall.arith op k x).run p (s, cs) = .ok (s', cs')) :
    ∃ (hk : k < s.length) (y : FpVar Fq), op.run s[k] x cs = .ok (y, cs') ∧ s' = s.set k y := by
  unfold WordCall.run at h
  dsimp only at h
  cases hs : lget s k with
  | error e => rw [hs] at h; cases h
  | ok a =>
    obtain ⟨hk, rfl⟩ := lget_ok hs
    rw [hs, ok_bind] at h
    cases ho : op.run s[k] x cs with
    | error e => rw [ho] at h; cases h
    | ok r =>
      rw [ho, ok_bind] at h
      rw [lset_lt _ hk] at h
      cases h
      exact ⟨hk, r.1, ho, rfl⟩

theorem run_combine_ok {p : Params Fq t tm1 nmds nhat rows cols nround npart} {s s' : List (FpVar Fq)} {cs cs' : CS Fq} {op : ArithOp} {k j : Nat}
    (h : (WordCall.combine op k j).run p (s, cs) = .ok (s', cs')) :
    ∃ (hk : k < s.length) (hj : j < s.length) (y : FpVar Fq), op.run s[k] s[j] cs = .ok (y, cs') ∧ s' = s.set k y := by
  unfold WordCall.run at h
  dsimp only at h
  cases hb : lget s j with
  | error e => rw [hb] at h; cases h
  | ok b =>
    obtain ⟨hj, rfl⟩ := lget_ok hb
    rw [hb, ok_bind] at h
    cases hs : lget s k with
    | error e => rw [hs] at h; cases h
    | ok a =>
      obtain ⟨hk, rfl⟩ := lget_ok hs
      rw [hs, ok_bind] at h
      cases ho : op.run s[k] s[j] cs with
      | error e => rw [ho] at h; cases h
      | ok r =>
        rw [ho, ok_bind] at h
        rw [lset_lt _ hk] at h
        cases h
        exact ⟨hk, hj, r.1, ho, rfl⟩

/-- A step that returns was allowed; which words are constants afterwards, and the size. -/
theorem step_flags (i : Fin 7) {c : WordCall (FpVar Fq)} {s s' : List (FpVar Fq)} {cs cs' : CS Fq}
    (h : c.run (shippedParams i) (s, cs) = .ok (s', cs')) :
    (c.map FpVar.isVar).Allowed (i.val + 2) (s.map FpVar.isVar) ∧
    s'.map FpVar.isVar = (c.map FpVar.isVar).flags (i.val + 2) (s.map FpVar.isVar) ∧
    Adds ((c.map FpVar.isVar).cost (i.val + 2) (s.map FpVar.isVar)) cs cs' := by
  cases c with
  | permute =>
    have h : R1cs.permute (shippedParams i) s cs = .ok (s', cs') := h
    by_cases hl : i.val + 2 ≤ s.length
    · rw [permute_take i s cs hl] at h
      have hl' : (s.take (i.val + 2)).length = i.val + 2 := by simp; omega
      refine ⟨⟨by simpa using hl, ?_⟩, permute_flagsAfter i _ cs hl' _ h, ?_⟩
      · rw [take_flags]
        by_contra hn
        refine permute_const i _ cs hl' (fun x hx => ?_) _ h
        by_contra hx'
        exact hn (List.mem_map.2 ⟨x, hx, by simpa using hx'⟩)
      · have := permute_adds i _ cs hl' _ h
        rw [← numVar_take] at this
        exact this
    · exact (permute_short i s cs (by omega) _ h).elim
  | assign l => cases h; exact ⟨trivial, rfl, Adds.refl _⟩
  | set k x =>
    obtain ⟨hk, rfl, rfl⟩ := run_set_ok h
    exact ⟨by simpa [WordCall.map, WordCall.Allowed] using hk, by simp [WordCall.map, WordCall.flags], Adds.refl _⟩
  | arith op k x =>
    obtain ⟨hk, y, h1, rfl⟩ := run_arith_ok h
    refine ⟨by simpa [WordCall.map, WordCall.Allowed] using hk, ?_, ?_⟩
    · simp only [WordCall.map, WordCall.flags]
      rw [getD_flag hk, ← arith_isVar h1, List.map_set]
    · simp only [WordCall.map, WordCall.cost]
      rw [getD_flag hk]
      exact arith_count h1
  | combine op k j =>
    obtain ⟨hk, hj, y, h1, rfl⟩ := run_combine_ok h
    refine ⟨by simpa [WordCall.map, WordCall.Allowed] using ⟨hk, hj⟩, ?_, ?_⟩
    · simp only [WordCall.map, WordCall.flags]
      rw [getD_flag hk, getD_flag hj, ← arith_isVar h1, List.map_set]
    · simp only [WordCall.map, WordCall.cost]
      rw [getD_flag hk, getD_flag hj]
      exact arith_count h1

theorem KnownAll.set {cs : CS Fq} {s : List (FpVar Fq)} (hs : KnownAll cs s) (k : Nat) {x : FpVar Fq} (hx : x.Known cs) :
    KnownAll cs (s.set k x) := by
  intro y hy
  rcases List.mem_or_eq_of_mem_set hy with h | h
  · exact hs y h
  · rw [h]; exact hx

theorem step_grows (i : Fin 7) {c : WordCall (FpVar Fq)} {s s' : List (FpVar Fq)} {cs cs' : CS Fq}
    (h : c.run (shippedParams i) (s, cs) = .ok (s', cs')) (hs : KnownAll cs s) (hc : KnownAll cs c.args) :
    Grows cs cs' ∧ KnownAll cs' s' := by
  cases c with
  | permute => exact permute_grows (shippedParams i) hs _ h
  | assign l => cases h; exact ⟨.refl, hc⟩
  | set k x =>
    obtain ⟨hk, rfl, rfl⟩ := run_set_ok h
    exact ⟨.refl, KnownAll.set hs k (hc x (by simp [WordCall.args]))⟩
  | arith op k x =>
    obtain ⟨hk, y, h1, rfl⟩ := run_arith_ok h
    obtain ⟨g1, g2⟩ := arith_grows (hs _ (List.getElem_mem hk)) (hc x (by simp [WordCall.args])) h1
    exact ⟨g1, KnownAll.set (hs.mono g1) k g2⟩
  | combine op k j =>
    obtain ⟨hk, hj, y, h1, rfl⟩ := run_combine_ok h
    obtain ⟨g1, g2⟩ := arith_grows (hs _ (List.getElem_mem hk)) (hs _ (List.getElem_mem hj)) h1
    exact ⟨g1, KnownAll.set (hs.mono g1) k g2⟩

theorem step_sound (i : Fin 7) {c : WordCall (FpVar Fq)} {s s' : List (FpVar Fq)} {cs cs' : CS Fq}
    (h : c.run (shippedParams i) (s, cs) = .ok (s', cs')) {σ : R1cs.Variable → Fq} (hσ : Satisfies σ cs') :
    (c.map (FpVar.eval σ)).native i (s.map (FpVar.eval σ)) = .ok (s'.map (FpVar.eval σ)) := by
  have hlen : ∀ {k}, k < s.length → k < (s.map (FpVar.eval σ)).length := fun h => by simpa using h
  cases c with
  | permute =>
    have hal := (step_flags i h).1.1
    have hal : i.val + 2 ≤ s.length := by simpa using hal
    have h : R1cs.permute (shippedParams i) s cs = .ok (s', cs') := h
    rw [permute_take i s cs hal] at h
    have hl' : (s.take (i.val + 2)).length = i.val + 2 := by simp; omega
    have h0 : Sound σ (s.take (i.val + 2)) cs (Vector.ofFn fun j : Fin (i.val + 2) => (s.map (FpVar.eval σ))[j.val]'(by simp; omega)) := by
      refine ⟨hl', fun _ j hj hj' => ?_⟩
      simp
    obtain ⟨b, hb, h1, h2⟩ := permute_sound σ (shippedParams i) (shipped_alpha i) (by norm_num) (by omega) rfl h0 _ h
    dsimp only at h1 h2
    rw [native_unoptimized] at hb
    simp only [WordCall.map, WordCall.native]
    rw [dif_pos (by simpa using hal), nativePermute_eq, hb, ok_bind]
    congr 1
    apply List.ext_getElem
    · simp [h1]
    · intro j hj hj'
      rw [List.getElem_map, h2 hσ j (by simpa using hj') (by simpa using hj)]
      simp
  | assign l => cases h; rfl
  | set k x =>
    obtain ⟨hk, rfl, rfl⟩ := run_set_ok h
    simp only [WordCall.map, WordCall.native]
    rw [lset_lt _ (hlen hk), List.map_set]
  | arith op k x =>
    obtain ⟨hk, y, h1, rfl⟩ := run_arith_ok h
    simp only [WordCall.map, WordCall.native]
    rw [lget_lt _ (hlen hk), ok_bind, lset_lt _ (hlen hk), List.getElem_map, ← arith_sound h1 hσ, List.map_set]
  | combine op k j =>
    obtain ⟨hk, hj, y, h1, rfl⟩ := run_combine_ok h
    simp only [WordCall.map, WordCall.native]
    rw [lget_lt _ (hlen hj), ok_bind, lget_lt _ (hlen hk), ok_bind, lset_lt _ (hlen hk), List.getElem_map, List.getElem_map,
      ← arith_sound h1 hσ, List.map_set]

theorem step_shape (i : Fin 7) {c : WordCall (FpVar Fq)} {s s' : List (FpVar Fq)} {cs cs' : CS Fq}
    (h : c.run (shippedParams i) (s, cs) = .ok (s', cs')) :
    (c.map FpVar.shape).run (shippedParams i) (s.map FpVar.shape, cs.shape) = .ok (s'.map FpVar.shape, cs'.shape) := by
  have hlen : ∀ {k}, k < s.length → k < (s.map FpVar.shape).length := fun h => by simpa using h
  cases c with
  | permute =>
    obtain ⟨r, h1, rfl⟩ := permute_shape (shippedParams i) s cs _ h
    exact h1
  | assign l => cases h; rfl
  | set k x =>
    obtain ⟨hk, rfl, rfl⟩ := run_set_ok h
    simp only [WordCall.map, WordCall.run]
    rw [lset_lt _ (hlen hk), ok_bind, List.map_set]
    rfl
  | arith op k x =>
    obtain ⟨hk, y, h1, rfl⟩ := run_arith_ok h
    simp only [WordCall.map, WordCall.run]
    rw [lget_lt _ (hlen hk), ok_bind, List.getElem_map, arith_shape h1, ok_bind]
    dsimp only
    rw [lset_lt _ (hlen hk), ok_bind, List.map_set]
    rfl
  | combine op k j =>
    obtain ⟨hk, hj, y, h1, rfl⟩ := run_combine_ok h
    simp only [WordCall.map, WordCall.run]
    rw [lget_lt _ (hlen hj), ok_bind, lget_lt _ (hlen hk), ok_bind, List.getElem_map, List.getElem_map, arith_shape h1, ok_bind]
    dsimp only
    rw [lset_lt _ (hlen hk), ok_bind, List.map_set]
    rfl

theorem Valued.ext {cs cs' : CS Fq} (h : Ext cs cs') {x : FpVar Fq} (hx : Valued cs x) : Valued cs' x :=
  hx.imp fun _ ha => ha.ext h

theorem valued_set {cs : CS Fq} {s : List (FpVar Fq)} (hs : ∀ x ∈ s, Valued cs x) (k : Nat) {x : FpVar Fq} (hx : Valued cs x) :
    ∀ y ∈ s.set k x, Valued cs y := by
  intro y hy
  rcases List.mem_or_eq_of_mem_set hy with h | h
  · exact hs y h
  · rw [h]; exact hx

theorem valued_arith {op : ArithOp} {a b : FpVar Fq} {cs : CS Fq}
    (h : cs.setup = false → Proving cs ∧ Valued cs a ∧ Valued cs b) :
    ∃ y cs', op.run a b cs = .ok (y, cs') ∧ cs'.setup = cs.setup ∧ (cs.setup = false → Ext cs cs' ∧ Valued cs' y) := by
  cases hset : cs.setup with
  | true =>
    obtain ⟨r, h1, h2, -, -⟩ := arith_complete op (cs := cs) (a := a) (b := b) (x := 0) (y := 0)
      fun hf => by rw [hset] at hf; cases hf
    exact ⟨r.1, r.2, h1, h2.trans hset, nofun⟩
  | false =>
    obtain ⟨hp, ⟨u, hu⟩, ⟨v, hv⟩⟩ := h hset
    obtain ⟨r, h1, h2, -, h3⟩ := arith_complete op (cs := cs) (a := a) (b := b) (x := u) (y := v) fun _ => ⟨hp, hu, hv⟩
    exact ⟨r.1, r.2, h1, h2.trans hset, fun _ => ⟨(h3 hset).1, _, (h3 hset).2⟩⟩

/-- An allowed step returns. -/
theorem step_complete (i : Fin 7) {c : WordCall (FpVar Fq)} {s : List (FpVar Fq)} {cs : CS Fq}
    (ha : (c.map FpVar.isVar).Allowed (i.val + 2) (s.map FpVar.isVar))
    (hv : cs.setup = false → Proving cs ∧ (∀ x ∈ s, Valued cs x) ∧ ∀ x ∈ c.args, Valued cs x) :
    ∃ s' cs', c.run (shippedParams i) (s, cs) = .ok (s', cs') ∧ cs'.setup = cs.setup ∧
      (cs.setup = false → Ext cs cs' ∧ ∀ x ∈ s', Valued cs' x) := by
  cases c with
  | permute =>
    obtain ⟨hl, hvar⟩ := ha
    have hl : i.val + 2 ≤ s.length := by simpa using hl
    have hl' : (s.take (i.val + 2)).length = i.val + 2 := by simp; omega
    rw [take_flags] at hvar
    obtain ⟨x, hx, hxv⟩ := List.mem_map.1 hvar
    obtain ⟨j, hj, rfl⟩ := List.getElem_of_mem hx
    obtain ⟨v, hcar⟩ : ∃ v : Vector Fq (i.val + 2), cs.setup = false → ∀ j (h : j < (s.take (i.val + 2)).length) (h' : j < i.val + 2),
        Carries cs (s.take (i.val + 2))[j] v[j] := by
      cases hset : cs.setup with
      | true => exact ⟨Vector.replicate _ 0, nofun⟩
      | false =>
        have hm := (hv hset).2.1
        have hval : ∀ j : Fin (i.val + 2), ∃ a, Carries cs ((s.take (i.val + 2))[j.val]'(by rw [hl']; exact j.isLt)) a :=
          fun j => hm _ (List.mem_of_mem_take (List.getElem_mem _))
        choose f hf using hval
        refine ⟨Vector.ofFn f, fun _ j h h' => ?_⟩
        have := hf ⟨j, h'⟩
        simpa using this
    have h0 : Comp cs v (s.take (i.val + 2)) cs := ⟨hl', rfl, ⟨j, hj, hxv⟩, fun hs => ⟨.refl (hv hs).1, hcar hs⟩⟩
    obtain ⟨⟨s', cs'⟩, h1, h2⟩ := permute_complete (shippedParams i) (shipped_alpha i) (by norm_num) (by norm_num) (by omega) rfl h0 _
      (native_unoptimized i v)
    refine ⟨s', cs', (permute_take i s cs hl).trans h1, h2.setup, fun hs => ?_⟩
    obtain ⟨e, hc⟩ := h2.carries (h2.setup.trans hs)
    refine ⟨e, fun x hx => ?_⟩
    obtain ⟨j, hj, rfl⟩ := List.getElem_of_mem hx
    exact ⟨_, hc j hj (by have := h2.len; dsimp only at this hj; omega)⟩
  | assign l => exact ⟨l, cs, rfl, rfl, fun hs => ⟨.refl (hv hs).1, (hv hs).2.2⟩⟩
  | set k x =>
    have hk : k < s.length := by simpa [WordCall.map, WordCall.Allowed] using ha
    refine ⟨s.set k x, cs, ?_, rfl, fun hs => ⟨.refl (hv hs).1, valued_set (hv hs).2.1 k ((hv hs).2.2 x (by simp [WordCall.args]))⟩⟩
    simp only [WordCall.run]
    rw [lset_lt _ hk]
    rfl
  | arith op k x =>
    have hk : k < s.length := by simpa [WordCall.map, WordCall.Allowed] using ha
    obtain ⟨y, cs', h1, h2, h3⟩ := valued_arith (op := op) (a := s[k]) (b := x) (cs := cs)
      fun hs => ⟨(hv hs).1, (hv hs).2.1 _ (List.getElem_mem hk), (hv hs).2.2 x (by simp [WordCall.args])⟩
    refine ⟨s.set k y, cs', ?_, h2, fun hs => ⟨(h3 hs).1, valued_set (fun x hx => ((hv hs).2.1 x hx).ext (h3 hs).1) k (h3 hs).2⟩⟩
    simp only [WordCall.run]
    rw [lget_lt _ hk, ok_bind, h1, ok_bind]
    dsimp only
    rw [lset_lt _ hk]
    rfl
  | combine op k j =>
    have hkj : k < s.length ∧ j < s.length := by simpa [WordCall.map, WordCall.Allowed] using ha
    obtain ⟨hk, hj⟩ := hkj
    obtain ⟨y, cs', h1, h2, h3⟩ := valued_arith (op := op) (a := s[k]) (b := s[j]) (cs := cs)
      fun hs => ⟨(hv hs).1, (hv hs).2.1 _ (List.getElem_mem hk), (hv hs).2.1 _ (List.getElem_mem hj)⟩
    refine ⟨s.set k y, cs', ?_, h2, fun hs => ⟨(h3 hs).1, valued_set (fun x hx => ((hv hs).2.1 x hx).ext (h3 hs).1) k (h3 hs).2⟩⟩
    simp only [WordCall.run]
    rw [lget_lt _ hj, ok_bind, lget_lt _ hk, ok_bind, h1, ok_bind]
    dsimp only
    rw [lset_lt _ hk]
    rfl

end Poseidon
