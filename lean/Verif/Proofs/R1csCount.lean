import Verif.Proofs.R1csComplete

/-! # The number of constraints and witnesses the gadget adds -/

set_option linter.unusedSectionVars false

namespace Poseidon.R1cs

variable {F : Type} [Field F] [DecidableEq F]
variable {t tm1 nmds nhat rows cols nround npart : Nat}

/-- `cs'` has `k` more constraints and `k` more witnesses than `cs`, and no new public input. -/
def Adds (k : Nat) (cs cs' : CS F) : Prop :=
  cs'.constraints.length = cs.constraints.length + k ∧ cs'.numWitness = cs.numWitness + k ∧
    cs'.numInstance = cs.numInstance

theorem Adds.refl (cs : CS F) : Adds 0 cs cs := ⟨rfl, rfl, rfl⟩

theorem Adds.trans {k k' : Nat} {a b c : CS F} (h : Adds k a b) (h' : Adds k' b c) : Adds (k + k') a c := by
  unfold Adds at *
  omega

theorem amul_count (a b : AllocatedFp F) (cs : CS F) : Ens (fun r => Adds 1 cs r.2) (a.mul b cs) := by
  unfold AllocatedFp.mul newWitness
  simp only
  split
  · exact Ens.ok ⟨by simp [enforce], rfl, rfl⟩
  · split
    · exact Ens.error
    · exact Ens.ok ⟨by simp [enforce], rfl, rfl⟩

theorem pow_loop_count (a v : AllocatedFp F) : ∀ (l : List Bool) (cs : CS F),
    Ens (fun r => r.1.isVar = true ∧ Adds (l.length + l.count true) cs r.2)
      (forList l (FpVar.var v, cs) fun bit (res, cs) => do
        let (res, cs) ← res.square cs
        if bit then res.mul (.var a) cs else return (res, cs)) := by
  intro l
  induction l generalizing v with
  | nil => intro cs; exact Ens.ok ⟨rfl, Adds.refl _⟩
  | cons b l ih =>
    intro cs
    refine Ens.bind (Q := fun r => ∃ w, r.1 = FpVar.var w ∧ Adds (1 + if b then 1 else 0) cs r.2) ?_ ?_
    · refine Ens.bind (Q := fun r => ∃ w, r.1 = FpVar.var w ∧ Adds 1 cs r.2) ?_ ?_
      · refine Ens.bind (amul_count v v cs) ?_
        rintro ⟨w, cs'⟩ h
        exact Ens.ok ⟨w, rfl, h⟩
      · rintro ⟨_, cs'⟩ ⟨w, rfl, h⟩
        cases b with
        | false => exact Ens.ok ⟨w, rfl, h⟩
        | true =>
          refine Ens.bind (amul_count w a cs') ?_
          rintro ⟨w, cs''⟩ h'
          exact Ens.ok ⟨w, rfl, h.trans h'⟩
    · rintro ⟨_, cs'⟩ ⟨w, rfl, h⟩
      refine (ih w cs').mono fun r hr => ⟨hr.1, ?_⟩
      have := h.trans hr.2
      cases b <;> simp only [List.length_cons, List.count_cons] at * <;> simp at * <;>
        convert this using 1 <;> omega

theorem pow_loop_const (a : F) : ∀ (l : List Bool) (c : F) (cs : CS F),
    Ens (fun r => r.1.isVar = false ∧ Adds 0 cs r.2)
      (forList l (FpVar.constant c, cs) fun bit (res, cs) => do
        let (res, cs) ← res.square cs
        if bit then res.mul (.constant a) cs else return (res, cs)) := by
  intro l
  induction l with
  | nil => intro c cs; exact Ens.ok ⟨rfl, Adds.refl _⟩
  | cons b l ih =>
    intro c cs
    cases b with
    | false => exact ih _ cs
    | true => exact ih _ cs

/-! ### The bits of the exponent -/

theorem bits_length (e : Nat) : (Nat.bits e).length = Nat.size e := (Nat.size_eq_bits_len e).symm ▸ rfl

/-- The binary digits of `e`, most significant first, with `true` at the head. -/
theorem bitsBE_eq {e : Nat} (he : e < 2 ^ 64) : bitsBE e = (Nat.bits e).reverse := by
  have h1 : bitsVal 0 (bitsBE e) = e := bitsVal_bitsBE he
  have inj : ∀ (l : List Bool), (∀ b ∈ l.head?, b = true) → (Nat.bits (bitsVal 0 l)).reverse = l := by
    intro l
    induction l using List.reverseRecOn with
    | nil => intro _; simp [bitsVal]
    | append_singleton l b ih =>
      intro h
      have hv : bitsVal 0 (l ++ [b]) = 2 * bitsVal 0 l + b.toNat := by simp [bitsVal]
      rw [hv]
      cases l with
      | nil =>
        have : b = true := h b (by simp)
        subst this
        simp [bitsVal]
      | cons c l =>
        have hc := h c (by simp)
        have ih' := ih (fun b hb => h b (by simpa using hb))
        have hne : bitsVal 0 (c :: l) ≠ 0 := by
          intro h0
          rw [h0] at ih'
          simp at ih'
        have hb : Nat.bits (2 * bitsVal 0 (c :: l) + b.toNat) = b :: Nat.bits (bitsVal 0 (c :: l)) := by
          have := Nat.bits_append_bit (bitsVal 0 (c :: l)) b (fun h => absurd h hne)
          rwa [Nat.bit_val] at this
        rw [hb, List.reverse_cons, ih']
  have h2 := inj (bitsBE e) (by
    intro b hb
    unfold bitsBE at hb
    by_contra hf
    have := List.head?_dropWhile_not (fun b => !b) ((List.range 64).reverse.map fun i => e.testBit i)
    rw [Option.mem_def] at hb
    rw [hb] at this
    simp at this
    exact hf this)
  rw [h1] at h2
  exact h2.symm

theorem bitsBE_cons {e : Nat} (he : e < 2 ^ 64) (h0 : e ≠ 0) :
    ∃ l, bitsBE e = true :: l ∧ l.length + l.count true = sboxCost e := by
  have hlen : (bitsBE e).length = Nat.size e := by rw [bitsBE_eq he, List.length_reverse, bits_length]
  have hcnt : (bitsBE e).count true = (Nat.bits e).count true := by rw [bitsBE_eq he, List.count_reverse]
  cases h : bitsBE e with
  | nil =>
    have := bitsVal_bitsBE he
    rw [h] at this
    exact absurd this.symm h0
  | cons b l =>
    have hb : b = true := by
      have h' := List.head?_dropWhile_not (fun b => !b) ((List.range 64).reverse.map fun i => e.testBit i)
      rw [show List.dropWhile _ _ = bitsBE e from rfl, h] at h'
      simpa using h'
    subst hb
    refine ⟨l, rfl, ?_⟩
    rw [h] at hlen hcnt
    simp at hlen hcnt
    unfold sboxCost
    rw [← hlen, ← hcnt]
    simp

theorem pow_count {e : Nat} (he : e < 2 ^ 64) (h0 : e ≠ 0) (a : FpVar F) (cs : CS F) :
    Ens (fun r => r.1.isVar = a.isVar ∧ Adds (if a.isVar then sboxCost e else 0) cs r.2) (a.powByConstant e cs) := by
  unfold FpVar.powByConstant
  cases a with
  | constant c => exact pow_loop_const c _ 1 cs
  | var v =>
    obtain ⟨l, hl, hc⟩ := bitsBE_cons he h0
    rw [hl]
    simp only [FpVar.isVar, if_true]
    rw [← hc]
    exact pow_loop_count v _ l cs

/-! ### Layers -/

/-- How many of the words are variables. -/
def numVar (s : List (FpVar F)) : Nat := s.countP FpVar.isVar

theorem addRoundConstants_count (arc : Mat F rows cols nround) (s : List (FpVar F)) (counter : Nat) :
    Ens (fun r => r.1.map FpVar.isVar = s.map FpVar.isVar) (addRoundConstants t arc s counter) := by
  unfold addRoundConstants
  refine Ens.forRange (Inv := fun _ (r : List (FpVar F) × Nat) => r.1.map FpVar.isVar = s.map FpVar.isVar)
    (Nat.zero_le _) rfl ?_
  rintro i ⟨s', c⟩ _ hi h
  by_cases hi' : i < s'.length
  · dsimp only
    rw [lget_lt _ hi', ok_bind]
    refine Ens.bind (Q := fun _ => True) (fun _ _ => trivial) fun k _ => ?_
    rw [lset_lt _ hi', ok_bind]
    refine Ens.ok ?_
    rw [← h]
    dsimp only
    rw [List.map_set, addConstant_isVar]
    apply List.ext_getElem
    · simp
    · intro j h1 h2
      rw [List.getElem_set]
      split
      · next heq => subst heq; simp
      · rfl
  · dsimp only
    rw [lget_ge _ (by omega)]
    exact Ens.error

theorem subWord_count {e : Nat} (he : e < 2 ^ 64) (h0 : e ≠ 0) (s : List (FpVar F)) (cs : CS F) (i : Nat) :
    Ens (fun r => r.1.map FpVar.isVar = s.map FpVar.isVar ∧
        ∃ h : i < s.length, Adds (if s[i].isVar then sboxCost e else 0) cs r.2) (do
      let x ← lget s i
      let (y, cs) ← x.powByConstant e cs
      let s ← lset s i y
      return (s, cs)) := by
  by_cases hi : i < s.length
  · rw [lget_lt _ hi, ok_bind]
    refine Ens.bind (pow_count he h0 s[i] cs) ?_
    rintro ⟨y, cs'⟩ ⟨h1, h2⟩
    dsimp only at h1 h2 ⊢
    rw [lset_lt _ hi, ok_bind]
    refine Ens.ok ⟨?_, hi, h2⟩
    dsimp only
    rw [List.map_set, h1]
    apply List.ext_getElem
    · simp
    · intro j h1 h2
      rw [List.getElem_set]
      split
      · next heq => subst heq; simp
      · rfl
  · rw [lget_ge _ (by omega)]
    exact Ens.error

theorem numVar_congr {s s' : List (FpVar F)} (h : s.map FpVar.isVar = s'.map FpVar.isVar) : numVar s = numVar s' := by
  have h1 : ∀ l : List (FpVar F), numVar l = (l.map FpVar.isVar).count true := by
    intro l
    rw [List.count, List.countP_map, numVar]
    congr 1
    funext x
    simp
  rw [h1, h1, h]

theorem fullSubWords_count {e : Nat} (he : e < 2 ^ 64) (h0 : e ≠ 0) (s : List (FpVar F)) (hs : s.length = t) (cs : CS F) :
    Ens (fun r => r.1.map FpVar.isVar = s.map FpVar.isVar ∧ Adds (sboxCost e * numVar s) cs r.2)
      (fullSubWords t (.exponent e) s cs) := by
  unfold fullSubWords
  have : Ens (fun r => r.1.map FpVar.isVar = s.map FpVar.isVar ∧ Adds (sboxCost e * numVar (s.take t)) cs r.2)
      (forRange 0 t (s, cs) fun i (s, cs) => do
        let x ← lget s i
        let (y, cs) ← x.powByConstant e cs
        let s ← lset s i y
        return (s, cs)) := by
    refine Ens.forRange (Inv := fun i (r : List (FpVar F) × CS F) => r.1.map FpVar.isVar = s.map FpVar.isVar ∧
      Adds (sboxCost e * numVar (s.take i)) cs r.2) (Nat.zero_le _) ⟨rfl, by simpa [numVar] using Adds.refl cs⟩ ?_
    rintro i ⟨s', cs'⟩ _ hi ⟨h1, h2⟩
    refine (subWord_count he h0 s' cs' i).mono ?_
    rintro ⟨s'', cs''⟩ ⟨h3, h4, h5⟩
    refine ⟨h3.trans h1, ?_⟩
    have := h2.trans h5
    have hv : s'[i].isVar = (s[i]'(by omega)).isVar := by
      have := congrArg (fun l => l[i]?) h1
      simpa [h4, show i < s.length by omega] using this
    rw [hv] at this
    convert this using 1
    rw [List.take_add_one, List.getElem?_eq_getElem (by omega), Option.toList_some]
    simp only [numVar]
    rw [List.countP_append, List.countP_singleton, mul_add]
    split <;> simp
  rwa [List.take_of_length_le (by omega)] at this

theorem sum_isVar (l : List (FpVar F)) : Ens (fun r => r.isVar = true) (FpVar.sum l) := by
  unfold FpVar.sum
  refine Ens.bind (Q := fun _ => True) (fun _ _ => trivial) fun v _ => Ens.ok rfl

theorem mixRow_count (row : List F) (s : List (FpVar F)) (cs : CS F) :
    Ens (fun r => r.1.isVar = true ∧ r.2 = cs) (mixRow row s cs) := by
  unfold mixRow
  refine Ens.bind (Q := fun r => r.2 = cs) ?_ ?_
  · refine Ens.forList (Inv := fun _ (r : List (FpVar F) × CS F) => r.2 = cs) _ 0 _ rfl ?_
    rintro j hj ⟨s', _⟩ rfl
    simp only [List.getElem_zip]
    cases s[j]'(by simp at hj; omega) with
    | constant c => exact Ens.ok rfl
    | var v => exact Ens.ok rfl
  · rintro ⟨terms, cs'⟩ h
    refine Ens.bind (sum_isVar terms) fun r hr => Ens.ok ⟨hr, h⟩

theorem mixLayer_count (ht : 0 < t) (hm : nmds = t * t) (m : Mat F t t nmds) (s : List (FpVar F)) (cs : CS F) :
    Ens (fun r => r.1.length = t ∧ numVar r.1 = t ∧ r.2 = cs) (mixLayer m s cs) := by
  unfold mixLayer
  rw [iterRows_eq ht hm, ok_bind]
  have := Ens.forList (Inv := fun i (r : List (FpVar F) × CS F) => r.1.length = i ∧ numVar r.1 = i ∧ r.2 = cs)
    (f := fun row (r : List (FpVar F) × CS F) => do
        let (x, cs) ← mixRow row s r.2
        return (r.1 ++ [x], cs))
    (List.ofFn fun i : Fin t => List.ofFn fun j : Fin t => m.toM hm i j) 0 ([], cs) ⟨rfl, rfl, rfl⟩ (by
      rintro j hj ⟨new, _⟩ ⟨h1, h2, rfl⟩
      refine Ens.bind (mixRow_count _ s _) ?_
      rintro ⟨x, _⟩ ⟨h3, rfl⟩
      refine Ens.ok ⟨by simp at h1 ⊢; omega, ?_, rfl⟩
      simp only [numVar] at h2 ⊢
      rw [List.countP_append, h2, List.countP_singleton]
      simp [h3])
  rw [List.length_ofFn, Nat.zero_add] at this
  exact this

theorem round_count (p : Params F t tm1 nmds nhat rows cols nround npart) {e : Nat}
    (ha : p.alpha = .exponent e) (he : e < 2 ^ 64) (h0 : e ≠ 0) (ht : 0 < t) (hm : nmds = t * t) (full : Bool)
    (a : List (FpVar F) × Nat × CS F) (hlen : a.1.length = t) :
    Ens (fun r => r.1.length = t ∧ numVar r.1 = t ∧
      Adds (sboxCost e * numVar (if full then a.1 else a.1.take 1)) a.2.2 r.2.2) (round p full a) := by
  obtain ⟨s, c, cs⟩ := a
  unfold round
  refine Ens.bind (addRoundConstants_count p.arc s c) ?_
  rintro ⟨s', c'⟩ h
  dsimp only at h hlen ⊢
  have hl' : s'.length = t := by
    have := congrArg List.length h
    simp at this; omega
  have tail : ∀ k (a : List (FpVar F) × CS F), Adds k cs a.2 →
      Ens (fun (r : List (FpVar F) × Nat × CS F) => r.1.length = t ∧ numVar r.1 = t ∧ Adds k cs r.2.2)
        (do let r ← mixLayer p.mds a.1 a.2; return (r.1, c', r.2)) := by
    rintro k ⟨s, cs⟩ h
    refine Ens.bind (mixLayer_count ht hm p.mds s cs) ?_
    rintro ⟨s, _⟩ ⟨h1, h2, rfl⟩
    exact Ens.ok ⟨h1, h2, h⟩
  cases full with
  | true =>
    refine Ens.bind (by rw [ha]; exact fullSubWords_count he h0 s' hl' cs) fun r hr => ?_
    have := tail _ r hr.2
    rwa [numVar_congr h] at this
  | false =>
    simp only [Bool.false_eq_true, if_false]
    refine Ens.bind (Q := fun r => Adds (sboxCost e * numVar (s.take 1)) cs r.2) ?_ fun r hr => tail _ r hr
    rw [ha]
    refine (subWord_count he h0 s' cs 0).mono ?_
    rintro ⟨s'', cs''⟩ ⟨-, h4, h5⟩
    have hv : s'[0].isVar = (s[0]'(by omega)).isVar := by
      have := congrArg (fun l => l[0]?) h
      simpa [h4, show 0 < s.length by omega] using this
    rw [hv] at h5
    convert h5 using 1
    cases s with
    | nil => simp at hlen; omega
    | cons x xs =>
      simp only [numVar, List.take_succ_cons, List.take_zero, List.countP_singleton, List.getElem_cons_zero]
      split <;> simp

/-- Rounds after the first mixing: all words are variables. -/
theorem rounds_count (p : Params F t tm1 nmds nhat rows cols nround npart) {e : Nat}
    (ha : p.alpha = .exponent e) (he : e < 2 ^ 64) (h0 : e ≠ 0) (ht : 0 < t) (hm : nmds = t * t) (full : Bool)
    (n : Nat) (a : List (FpVar F) × Nat × CS F) (hlen : a.1.length = t) (hv : numVar a.1 = t) :
    Ens (fun r => r.1.length = t ∧ numVar r.1 = t ∧
      Adds (sboxCost e * (n * if full then t else 1)) a.2.2 r.2.2) (forRange 0 n a fun _ st => round p full st) := by
  refine Ens.forRange (Inv := fun n (r : List (FpVar F) × Nat × CS F) => r.1.length = t ∧ numVar r.1 = t ∧
      Adds (sboxCost e * (n * if full then t else 1)) a.2.2 r.2.2) (Nat.zero_le _)
      ⟨hlen, hv, by simpa using Adds.refl a.2.2⟩ ?_
  rintro k r _ _ ⟨h1, h2, h3⟩
  refine (round_count p ha he h0 ht hm full r h1).mono ?_
  rintro r' ⟨h4, h5, h6⟩
  refine ⟨h4, h5, ?_⟩
  convert h3.trans h6 using 1
  cases full with
  | true => simp only [if_true, h2]; ring
  | false =>
    have : numVar (r.1.take 1) = 1 := by
      rcases r with ⟨s, c, cs⟩
      cases s with
      | nil => simp at h1; omega
      | cons x xs =>
        have h2 : List.countP FpVar.isVar (x :: xs) = t := h2
        have : x.isVar = true := by
          by_contra hx
          rw [List.countP_cons_of_neg hx] at h2
          have := List.countP_le_length (p := FpVar.isVar) (l := xs)
          simp at h1; omega
        simp [numVar, this]
    simp [this]; ring

/-- Number of S-boxes applied to variables in a run of the gadget. -/
theorem permute_count (p : Params F t tm1 nmds nhat rows cols nround npart) {e : Nat}
    (ha : p.alpha = .exponent e) (he : e < 2 ^ 64) (h0 : e ≠ 0) (ht : 0 < t) (hm : nmds = t * t)
    {n : Nat} (hn : p.rounds.full / 2 = n + 1) (s : List (FpVar F)) (hlen : s.length = t) (cs : CS F) :
    Ens (fun r => Adds (sboxCost e * (numVar s + (2 * n + 1) * t + p.rounds.partialRounds)) cs r.2) (permute p s cs) := by
  have first : Ens (fun r => r.1.length = t ∧ numVar r.1 = t ∧ Adds (sboxCost e * (numVar s + n * t)) cs r.2.2)
      (forRange 0 (n + 1) (s, 0, cs) fun _ st => round p true st) := by
    refine Ens.bind (round_count p ha he h0 ht hm true (s, 0, cs) hlen) ?_
    rintro r ⟨h1, h2, h3⟩
    have hr := rounds_count p ha he h0 ht hm true n r h1 h2
    intro r' hr'
    have hshift : ∀ (n i j : Nat) (a : List (FpVar F) × Nat × CS F),
        loopN (fun _ st => round p true st) n i a = loopN (fun _ st => round p true st) n j a := by
      intro n
      induction n with
      | zero => intro i j a; rfl
      | succ n ih =>
        intro i j a
        rw [loopN, loopN]
        congr 1
        funext b
        exact ih _ _ b
    obtain ⟨h4, h5, h6⟩ := hr r' (by
      rw [← hr']
      exact hshift _ _ _ _)
    refine ⟨h4, h5, ?_⟩
    convert h3.trans h6 using 1
    simp only [if_true]; ring
  unfold permute
  simp only
  rw [hn]
  refine Ens.bind first ?_
  rintro r ⟨h1, h2, h3⟩
  refine Ens.bind (rounds_count p ha he h0 ht hm false _ r h1 h2) ?_
  rintro r' ⟨h4, h5, h6⟩
  refine Ens.bind (rounds_count p ha he h0 ht hm true _ r' h4 h5) ?_
  rintro r'' ⟨h7, h8, h9⟩
  refine Ens.ok ?_
  convert (h3.trans h6).trans h9 using 1
  simp only [if_true, Bool.false_eq_true, if_false]; ring

end Poseidon.R1cs
