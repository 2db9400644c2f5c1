import Verif.Spec.R1cs
import Verif.Proofs.Sim
import Verif.Proofs.Layers

/-! # Every satisfying assignment of the gadget's constraints computes the permutation -/

set_option linter.unusedSectionVars false

namespace Poseidon.R1cs

variable {F : Type} [Field F] [DecidableEq F]
variable {t tm1 nmds nhat rows cols nround npart : Nat}

/-! ### Linear combinations -/

theorem LC.eval_nil (σ : Variable → F) : LC.eval σ [] = 0 := rfl

theorem LC.eval_append (σ : Variable → F) (a b : LC F) : LC.eval σ (a ++ b) = LC.eval σ a + LC.eval σ b := by
  simp [LC.eval]

theorem LC.eval_single (σ : Variable → F) (k : F) (v : Variable) : LC.eval σ [(k, v)] = k * σ v := by
  simp [LC.eval]

theorem LC.eval_scale (σ : Variable → F) (a : LC F) (c : F) :
    LC.eval σ (a.map fun x => (x.1 * c, x.2)) = LC.eval σ a * c := by
  simp only [LC.eval, List.map_map]
  rw [← List.sum_map_mul_right]
  congr 1
  apply List.map_congr_left
  intro x _
  simp only [Function.comp]
  ring

theorem addConstant_eval {σ : Variable → F} (h1 : σ .one = 1) (a : FpVar F) (c : F) :
    (a.addConstant c).eval σ = a.eval σ + c := by
  cases a with
  | constant x => rfl
  | var v =>
    simp only [FpVar.addConstant, FpVar.eval, AllocatedFp.addConstant]
    split
    · next h => rw [h, add_zero]
    · rw [LC.eval_append, LC.eval_single, h1, mul_one]

theorem mulConstant_eval (σ : Variable → F) (a : AllocatedFp F) (c : F) :
    LC.eval σ (a.mulConstant c).lc = LC.eval σ a.lc * c := by
  simp only [AllocatedFp.mulConstant]
  split
  · next h => rw [h, mul_one]
  · exact LC.eval_scale σ a.lc c

theorem sum_eval {σ : Variable → F} (h1 : σ .one = 1) (l : List (FpVar F)) :
    Ens (fun r => r.eval σ = (l.map (FpVar.eval σ)).sum) (FpVar.sum l) := by
  unfold FpVar.sum
  refine Ens.bind (Q := fun v => LC.eval σ v.lc = ((l.filterMap FpVar.var?).map
    fun v => LC.eval σ v.lc).sum) ?_ fun v hv => ?_
  · unfold AllocatedFp.addmany
    split
    · exact Ens.error
    · apply Ens.ok
      simp only
      generalize (l.filterMap FpVar.var?) = l'
      have : ∀ acc : LC F, LC.eval σ (l'.foldl (fun acc v => acc ++ v.lc) acc) =
          LC.eval σ acc + (l'.map fun v => LC.eval σ v.lc).sum := by
        induction l' with
        | nil => intro acc; simp
        | cons x xs ih => intro acc; rw [List.foldl_cons, ih, LC.eval_append, List.map_cons, List.sum_cons]; ring
      rw [this, LC.eval_nil, zero_add]
  · apply Ens.ok
    rw [addConstant_eval h1, FpVar.eval, hv, fsum_eq_sum]
    clear hv v
    induction l with
    | nil => simp
    | cons x xs ih =>
      cases x with
      | constant c =>
        simp only [List.filterMap_cons, FpVar.var?, FpVar.const?, List.map_cons, List.sum_cons, FpVar.eval]
        rw [← ih]; ring
      | var v =>
        simp only [List.filterMap_cons, FpVar.var?, FpVar.const?, List.map_cons, List.sum_cons, FpVar.eval]
        rw [← ih]; ring

/-! ### Products -/

theorem amul_sound (σ : Variable → F) (a b : AllocatedFp F) (cs : CS F) :
    Ens (fun r => Satisfies σ r.2 → Satisfies σ cs ∧ LC.eval σ r.1.lc = LC.eval σ a.lc * LC.eval σ b.lc)
      (a.mul b cs) := by
  unfold AllocatedFp.mul
  refine Ens.bind (Q := fun r => r.2.constraints = cs.constraints) ?_ fun r hr => ?_
  · unfold newWitness
    simp only
    split
    · exact Ens.ok rfl
    · split
      · exact Ens.error
      · exact Ens.ok rfl
  · apply Ens.ok
    rintro ⟨h1, h2⟩
    refine ⟨⟨h1, fun con hc => h2 con ?_⟩, ?_⟩
    · simp only [enforce, hr]; exact List.mem_append_left _ hc
    · have := h2 (a.lc, b.lc, r.1.lc) (by simp [enforce])
      exact this.symm

theorem mul_sound (σ : Variable → F) (a b : FpVar F) (cs : CS F) :
    Ens (fun r => Satisfies σ r.2 → Satisfies σ cs ∧ r.1.eval σ = a.eval σ * b.eval σ) (a.mul b cs) := by
  unfold FpVar.mul
  split
  · exact Ens.ok fun h => ⟨h, rfl⟩
  · exact Ens.ok fun h => ⟨h, by simp only [FpVar.eval]; rw [mulConstant_eval, mul_comm]⟩
  · exact Ens.ok fun h => ⟨h, by simp only [FpVar.eval]; rw [mulConstant_eval]⟩
  · next v w =>
    refine Ens.bind (amul_sound σ v w cs) fun r hr => ?_
    exact Ens.ok hr

theorem square_sound (σ : Variable → F) (a : FpVar F) (cs : CS F) :
    Ens (fun r => Satisfies σ r.2 → Satisfies σ cs ∧ r.1.eval σ = a.eval σ * a.eval σ) (a.square cs) := by
  unfold FpVar.square
  split
  · exact Ens.ok fun h => ⟨h, rfl⟩
  · next v =>
    refine Ens.bind (amul_sound σ v v cs) fun r hr => ?_
    exact Ens.ok hr

/-! ### Exponentiation -/

/-- Value of a list of bits, most significant first. -/
def bitsVal (a : Nat) (l : List Bool) : Nat := l.foldl (fun a b => 2 * a + b.toNat) a

theorem bitsVal_range (e : Nat) : ∀ n a, bitsVal a ((List.range n).reverse.map fun i => e.testBit i) =
    a * 2 ^ n + e % 2 ^ n := by
  intro n
  induction n with
  | zero => intro a; simp [bitsVal, Nat.mod_one]
  | succ n ih =>
    intro a
    rw [List.range_succ, List.reverse_append, List.reverse_singleton, List.singleton_append, List.map_cons,
      bitsVal, List.foldl_cons]
    have := ih (2 * a + (e.testBit n).toNat)
    rw [bitsVal] at this
    rw [this, Nat.mod_pow_succ, Nat.toNat_testBit]
    ring

theorem bitsVal_dropWhile (l : List Bool) : bitsVal 0 (l.dropWhile fun b => !b) = bitsVal 0 l := by
  induction l with
  | nil => rfl
  | cons b l ih =>
    cases b with
    | false => simpa [bitsVal] using ih
    | true => rfl

theorem bitsVal_bitsBE {e : Nat} (he : e < 2 ^ 64) : bitsVal 0 (bitsBE e) = e := by
  rw [bitsBE, bitsVal_dropWhile, bitsVal_range, Nat.mod_eq_of_lt he]; simp

theorem pow_sound (σ : Variable → F) (a : FpVar F) {e : Nat} (he : e < 2 ^ 64) (cs : CS F) :
    Ens (fun r => Satisfies σ r.2 → Satisfies σ cs ∧ r.1.eval σ = a.eval σ ^ e) (a.powByConstant e cs) := by
  have key : ∀ (l : List Bool) (m : Nat) (res : FpVar F) (cs : CS F), res.eval σ = a.eval σ ^ m ∨ True →
      Ens (fun r => Satisfies σ r.2 → Satisfies σ cs ∧
        (res.eval σ = a.eval σ ^ m → r.1.eval σ = a.eval σ ^ bitsVal m l))
      (forList l (res, cs) fun bit (res, cs) => do
        let (res, cs) ← res.square cs
        if bit then res.mul a cs else return (res, cs)) := by
    intro l
    induction l with
    | nil => intro m res cs _; exact Ens.ok fun h => ⟨h, fun h => h⟩
    | cons b l ih =>
      intro m res cs _
      refine Ens.bind (Q := fun r => Satisfies σ r.2 → Satisfies σ cs ∧
        (res.eval σ = a.eval σ ^ m → r.1.eval σ = a.eval σ ^ (2 * m + b.toNat))) ?_ fun r hr => ?_
      · refine Ens.bind (square_sound σ res cs) fun r hr => ?_
        cases b with
        | false =>
          refine Ens.ok fun h => ⟨(hr h).1, fun h2 => ?_⟩
          rw [(hr h).2, h2, Bool.toNat_false]; ring
        | true =>
          refine (mul_sound σ r.1 a r.2).mono fun r' hr' h => ?_
          obtain ⟨h3, h4⟩ := hr' h
          refine ⟨(hr h3).1, fun h2 => ?_⟩
          rw [h4, (hr h3).2, h2, Bool.toNat_true]; ring
      · refine (ih (2 * m + b.toNat) r.1 r.2 (Or.inr trivial)).mono fun r' hr' h => ?_
        obtain ⟨h3, h4⟩ := hr' h
        exact ⟨(hr h3).1, fun h2 => h4 ((hr h3).2 h2)⟩
  refine (key (bitsBE e) 0 (.constant 1) cs (Or.inr trivial)).mono fun r hr h => ?_
  obtain ⟨h1, h2⟩ := hr h
  refine ⟨h1, ?_⟩
  rw [h2 (by simp [FpVar.eval]), bitsVal_bitsBE he]

/-! ### Layers, related to the native layers -/

/-- The circuit state evaluates to the native state, as far as the constraints so far hold. -/
def Sound (σ : Variable → F) (s : List (FpVar F)) (cs : CS F) (v : Vector F t) : Prop :=
  s.length = t ∧ (Satisfies σ cs → ∀ i (h : i < s.length) (h' : i < t), s[i].eval σ = v[i])

theorem lset_lt {α : Type} {l : List α} {i : Nat} (x : α) (h : i < l.length) : lset l i x = .ok (l.set i x) := by
  rw [lset, if_pos h]

/-- Replacing one word on both sides. -/
theorem Sound.set {σ : Variable → F} {s : List (FpVar F)} {cs cs' : CS F} {v : Vector F t} (h : Sound σ s cs v)
    {i : Nat} (hi : i < t) {y : FpVar F} {z : F} (hcs : Satisfies σ cs' → Satisfies σ cs)
    (hy : Satisfies σ cs' → y.eval σ = z) : Sound σ (s.set i y) cs' (v.set i z) := by
  refine ⟨by simp [h.1], fun hs j hj hj' => ?_⟩
  rw [List.getElem_set, Vector.getElem_set]
  split
  · exact hy hs
  · exact h.2 (hcs hs) j (by simpa using hj) hj'

theorem addRoundConstants_sound (σ : Variable → F) (arc : Mat F rows cols nround) {s : List (FpVar F)} {cs : CS F}
    {v : Vector F t} (h : Sound σ s cs v) (counter : Nat) :
    Sim (fun a b => Sound σ a.1 cs b.1 ∧ a.2 = b.2) (addRoundConstants t arc s counter)
      (addLinear arc (v, counter)) := by
  unfold addRoundConstants addLinear
  refine Sim.forRange (Rel := fun _ (a : List (FpVar F) × Nat) (b : Vector F t × Nat) => Sound σ a.1 cs b.1 ∧ a.2 = b.2) (Nat.zero_le _) ⟨h, rfl⟩ ?_
  rintro i ⟨s, c⟩ ⟨v, c'⟩ _ hi ⟨hs, rfl⟩
  simp only at hs
  have hi' : i < s.length := by rw [hs.1]; exact hi
  dsimp only
  rw [lget_lt s hi', ok_bind, aget_lt v hi, ok_bind]
  refine Sim.bind (Q := fun x y => x = y) (fun a ha => ⟨a, ha, rfl⟩) ?_
  rintro k _ rfl
  rw [lset_lt _ hi', aset_lt _ _ hi, ok_bind, ok_bind]
  refine Sim.ok ⟨hs.set hi (fun h => h) fun hsat => ?_, rfl⟩
  rw [addConstant_eval hsat.1, hs.2 hsat i hi' hi]

theorem subWord_sound (σ : Variable → F) {e : Nat} (he : e < 2 ^ 64) {s : List (FpVar F)} {cs : CS F}
    {v : Vector F t} (h : Sound σ s cs v) {i : Nat} (hi : i < t) :
    Sim (fun a b => Sound σ a.1 a.2 b) (do
      let x ← lget s i
      let (y, cs) ← x.powByConstant e cs
      let s ← lset s i y
      return (s, cs)) (do
      let x ← aget v i
      let y ← sbox (.exponent e) x
      aset v i y) := by
  have hi' : i < s.length := by rw [h.1]; exact hi
  rw [lget_lt s hi', ok_bind, aget_lt v hi, ok_bind]
  refine Sim.bind (Q := fun x y => Satisfies σ x.2 → Satisfies σ cs ∧ x.1.eval σ = y) ?_ ?_
  · intro a ha
    refine ⟨_, rfl, fun hs => ?_⟩
    obtain ⟨h1, h2⟩ := pow_sound σ s[i] he cs a ha hs
    exact ⟨h1, by rw [h2, h.2 h1 i hi' hi]⟩
  · rintro ⟨y, cs'⟩ z hyz
    dsimp only
    rw [lset_lt _ hi', aset_lt _ _ hi, ok_bind]
    exact Sim.ok (h.set hi (fun hs => (hyz hs).1) fun hs => (hyz hs).2)

theorem partialSubWords_sound (σ : Variable → F) {e : Nat} (he : e < 2 ^ 64) (ht : 0 < t) {s : List (FpVar F)}
    {cs : CS F} {v : Vector F t} (h : Sound σ s cs v) :
    Sim (fun a b => Sound σ a.1 a.2 b) (partialSubWords (.exponent e) s cs)
      (Poseidon.partialSubWords (.exponent e) v) :=
  subWord_sound σ he h ht

theorem fullSubWords_sound (σ : Variable → F) {e : Nat} (he : e < 2 ^ 64) {s : List (FpVar F)}
    {cs : CS F} {v : Vector F t} (h : Sound σ s cs v) :
    Sim (fun a b => Sound σ a.1 a.2 b) (fullSubWords t (.exponent e) s cs)
      (Poseidon.fullSubWords (.exponent e) v) := by
  unfold fullSubWords Poseidon.fullSubWords
  refine Sim.forRange (Rel := fun _ (a : List (FpVar F) × CS F) (b : Vector F t) => Sound σ a.1 a.2 b) (Nat.zero_le _) h ?_
  rintro i ⟨s, cs⟩ v _ hi hs
  exact subWord_sound σ he hs hi

theorem mixRow_sound {σ : Variable → F} (row : List F) (s : List (FpVar F)) (cs : CS F) :
    Ens (fun r => r.2.constraints = cs.constraints ∧ (σ .one = 1 →
      r.1.eval σ = (List.zipWith (· * ·) row (s.map (FpVar.eval σ))).sum)) (mixRow row s cs) := by
  unfold mixRow
  refine Ens.bind (Q := fun r => r.2.constraints = cs.constraints ∧
    r.1.map (FpVar.eval σ) = List.zipWith (· * ·) row (s.map (FpVar.eval σ))) ?_ fun r hr => ?_
  · refine (Ens.forList (Inv := fun j (r : List (FpVar F) × CS F) => r.2.constraints = cs.constraints ∧
      r.1.map (FpVar.eval σ) = ((row.zip s).take j).map fun p => p.1 * p.2.eval σ)
      (row.zip s) 0 ([], cs) (by simp) ?_).mono ?_
    · rintro j hj ⟨terms, cs'⟩ ⟨h1, h2⟩
      simp only [Nat.zero_add] at h1 h2 ⊢
      have hm : ∀ (x : F) (y : FpVar F), Ens (fun r => r.2.constraints = cs'.constraints ∧
          r.1.eval σ = x * y.eval σ) ((FpVar.constant x).mul y cs') := by
        intro x y
        cases y with
        | constant c => exact Ens.ok ⟨rfl, rfl⟩
        | var v => exact Ens.ok ⟨rfl, by simp only [FpVar.eval]; rw [mulConstant_eval, mul_comm]⟩
      refine Ens.bind (hm _ _) fun r hr => ?_
      refine Ens.ok ⟨hr.1.trans h1, ?_⟩
      rw [List.take_add_one, List.map_append, List.map_append, h2, List.getElem?_eq_getElem hj]
      simp [hr.2]
    · rintro r ⟨h1, h2⟩
      refine ⟨h1, h2.trans ?_⟩
      rw [Nat.zero_add, List.take_length, List.zip, List.map_zipWith]
      clear h2
      induction row generalizing s with
      | nil => rfl
      | cons x xs ih =>
        cases s with
        | nil => rfl
        | cons y ys => simp [ih ys]
  · intro a ha
    by_cases h1 : σ .one = 1
    · exact (Ens.bind (sum_eval h1 r.1) fun x hx => Ens.ok (Q := fun a : FpVar F × CS F =>
        a.2.constraints = cs.constraints ∧ (σ .one = 1 → a.1.eval σ = _))
        ⟨hr.1, fun _ => by rw [hx, hr.2]⟩) a ha
    · exact (Ens.bind (Q := fun _ => True) (fun _ _ => trivial) fun x hx => Ens.ok (Q := fun a : FpVar F × CS F =>
        a.2.constraints = cs.constraints ∧ (σ .one = 1 → a.1.eval σ = _))
        ⟨hr.1, fun h => absurd h h1⟩) a ha

theorem mixLayer_sound (σ : Variable → F) (ht : 0 < t) (hm : nmds = t * t) (m : Mat F t t nmds)
    {s : List (FpVar F)} {cs : CS F} {v : Vector F t} (h : Sound σ s cs v) :
    Sim (fun a b => Sound σ a.1 a.2 b) (mixLayer m s cs) (Poseidon.mixLayer m v) := by
  have hv : Poseidon.mixLayer m v = .ok (Vector.ofFn ((m.toM hm).mulVec fun i => v[i])) := by
    rw [← mixLayer_eq ht hm, ofFn_get]
  rw [hv]
  intro a ha
  refine ⟨_, rfl, ?_⟩
  unfold mixLayer at ha
  rw [iterRows_eq ht hm, ok_bind] at ha
  have := Ens.forList (Inv := fun j (r : List (FpVar F) × CS F) => r.2.constraints = cs.constraints ∧
      r.1.length = j ∧ (σ .one = 1 → ∀ i (hi : i < r.1.length) (hi' : i < t), r.1[i].eval σ =
        (List.zipWith (· * ·) (List.ofFn fun l : Fin t => m.toM hm ⟨i, hi'⟩ l) (s.map (FpVar.eval σ))).sum))
      (f := fun row (new, cs) => do
        let (x, cs) ← mixRow row s cs
        return (new ++ [x], cs))
      (List.ofFn fun i : Fin t => List.ofFn fun j : Fin t => m.toM hm i j) 0 ([], cs)
      ⟨rfl, rfl, fun _ i hi => absurd hi (by simp)⟩ (by
        rintro j hj ⟨new, cs'⟩ ⟨h1, h2, h3⟩
        simp only [Nat.zero_add] at h1 h2 h3 ⊢
        refine Ens.bind (mixRow_sound (σ := σ) _ s cs') fun r hr => Ens.ok ⟨hr.1.trans h1, by simp [h2], ?_⟩
        intro h4 i hi hi'
        rw [List.getElem_append]
        split
        · next h5 => exact h3 h4 i h5 hi'
        · next h5 =>
          have : i = j := by simp at hi; omega
          subst this
          simp only [List.getElem_singleton]
          rw [hr.2 h4]
          simp) a ha
  obtain ⟨h1, h2, h3⟩ := this
  refine ⟨by simpa using h2, fun hs i hi hi' => ?_⟩
  rw [h3 hs.1 i hi hi', Vector.getElem_ofFn]
  have hs' : Satisfies σ cs := ⟨hs.1, by rw [← h1]; exact hs.2⟩
  have hx : s.map (FpVar.eval σ) = List.ofFn fun i : Fin t => v[i] := by
    apply List.ext_getElem
    · simp [h.1]
    · intro j hj hj'
      simp only [List.getElem_map, List.getElem_ofFn]
      exact h.2 hs' j (by simpa using hj) (by simpa using hj')
  rw [hx]
  have hd := dotProduct_ofFn (fun l => m.toM hm ⟨i, hi'⟩ l) fun i : Fin t => v[i]
  rw [dotProduct, if_neg (by simp), fsum_eq_sum] at hd
  exact Except.ok.inj hd

/-! ### The permutation -/

/-- A native round of `unoptimized_permute`. -/
def nativeRound (p : Params F t tm1 nmds nhat rows cols nround npart) (full : Bool) (st : Vector F t × Nat) :
    R (Vector F t × Nat) := do
  let (s, counter) ← addLinear p.arc st
  let s ← if full then Poseidon.fullSubWords p.alpha s else Poseidon.partialSubWords p.alpha s
  let s ← Poseidon.mixLayer p.mds s
  return (s, counter)

theorem unoptimizedPermute_rounds (p : Params F t tm1 nmds nhat rows cols nround npart) (s : Vector F t) :
    unoptimizedPermute p s = (do
      let st ← forRange 0 (p.rounds.full / 2) (s, 0) fun _ st => nativeRound p true st
      let st ← forRange 0 p.rounds.partialRounds st fun _ st => nativeRound p false st
      let st ← forRange 0 (p.rounds.full / 2) st fun _ st => nativeRound p true st
      return st.1) := rfl

theorem round_sound (σ : Variable → F) (p : Params F t tm1 nmds nhat rows cols nround npart) {e : Nat}
    (ha : p.alpha = .exponent e) (he : e < 2 ^ 64) (ht : 0 < t) (hm : nmds = t * t) (full : Bool)
    (a : List (FpVar F) × Nat × CS F) (b : Vector F t × Nat) (h : Sound σ a.1 a.2.2 b.1 ∧ a.2.1 = b.2) :
    Sim (fun a b => Sound σ a.1 a.2.2 b.1 ∧ a.2.1 = b.2) (round p full a) (nativeRound p full b) := by
  obtain ⟨s, c, cs⟩ := a
  obtain ⟨v, c'⟩ := b
  obtain ⟨h, rfl⟩ := h
  unfold round nativeRound
  refine Sim.bind (addRoundConstants_sound σ p.arc h c) ?_
  rintro ⟨s, c1⟩ ⟨v, _⟩ ⟨h, rfl⟩
  dsimp only at h ⊢
  have tail : ∀ (a : List (FpVar F) × CS F) (b : Vector F t), Sound σ a.1 a.2 b →
      Sim (fun (a : List (FpVar F) × Nat × CS F) (b : Vector F t × Nat) => Sound σ a.1 a.2.2 b.1 ∧ a.2.1 = b.2)
        (do let r ← mixLayer p.mds a.1 a.2; return (r.1, c1, r.2))
        (do let s ← Poseidon.mixLayer p.mds b; return (s, c1)) := by
    intro a b h
    refine Sim.bind (mixLayer_sound σ ht hm p.mds h) ?_
    rintro ⟨s, cs⟩ v h
    exact Sim.ok ⟨h, rfl⟩
  cases full with
  | true => exact Sim.bind (by rw [ha]; exact fullSubWords_sound σ he h) tail
  | false => exact Sim.bind (by rw [ha]; exact partialSubWords_sound σ he ht h) tail

theorem permute_sound (σ : Variable → F) (p : Params F t tm1 nmds nhat rows cols nround npart) {e : Nat}
    (ha : p.alpha = .exponent e) (he : e < 2 ^ 64) (ht : 0 < t) (hm : nmds = t * t) {s : List (FpVar F)} {cs : CS F}
    {v : Vector F t} (h : Sound σ s cs v) :
    Sim (fun a b => Sound σ a.1 a.2 b) (permute p s cs) (unoptimizedPermute p v) := by
  have L : ∀ (full : Bool) (n : Nat) (a : List (FpVar F) × Nat × CS F) (b : Vector F t × Nat),
      (Sound σ a.1 a.2.2 b.1 ∧ a.2.1 = b.2) → Sim (fun a b => Sound σ a.1 a.2.2 b.1 ∧ a.2.1 = b.2)
      (forRange 0 n a fun _ st => round p full st) (forRange 0 n b fun _ st => nativeRound p full st) := by
    intro full n a b hab
    exact Sim.forRange (Rel := fun _ a b => Sound σ a.1 a.2.2 b.1 ∧ a.2.1 = b.2) (Nat.zero_le _) hab
      (fun k a b _ _ h => round_sound σ p ha he ht hm full a b h)
  rw [unoptimizedPermute_rounds]
  unfold permute
  refine Sim.bind (L true _ _ _ ⟨h, rfl⟩) fun a b hab => ?_
  refine Sim.bind (L false _ _ _ hab) fun a b hab => ?_
  refine Sim.bind (L true _ _ _ hab) fun a b hab => ?_
  exact Sim.ok hab.1

end Poseidon.R1cs
