import Verif.Model.Machine
import Verif.Proofs.Panics

/-!
# Machine integers do not matter

`Agree x y`: the two computations return the same value, or both panic.
-/

set_option linter.unusedSectionVars false

namespace Poseidon

/-- Same value, or both panic. -/
def Agree {α : Type} (x y : R α) : Prop := x = y ∨ ((∃ e, x = .error e) ∧ ∃ e, y = .error e)

/-- What the arithmetic of debug and release builds have in common: exact if the result fits the word; below zero a subtraction
either panics or adds `W`. -/
structure Arith.Faithful (A : Arith) (W : Nat) : Prop where
  add : ∀ a b, a + b < W → A.add a b = .ok (a + b)
  mul : ∀ a b, a * b < W → A.mul a b = .ok (a * b)
  sub : ∀ a b, a < W → b ≤ a → A.sub a b = .ok (a - b)
  sub_neg : ∀ a b, a < b → b < W → A.sub a b = .ok (a + W - b) ∨ ∃ e, A.sub a b = .error e

theorem checked_faithful (W : Nat) : (Arith.checked W).Faithful W where
  add a b h := if_pos h
  mul a b h := if_pos h
  sub a b _ h := if_pos h
  sub_neg a b h _ := Or.inr ⟨.underflow, if_neg (by omega)⟩

theorem wrapping_faithful (W : Nat) : (Arith.wrapping W).Faithful W where
  add a b h := by simp only [Arith.wrapping]; rw [Nat.mod_eq_of_lt h]
  mul a b h := by simp only [Arith.wrapping]; rw [Nat.mod_eq_of_lt h]
  sub a b h h' := by
    simp only [Arith.wrapping]
    rw [show a + W - b = (a - b) + W by omega, Nat.add_mod_right, Nat.mod_eq_of_lt (by omega)]
  sub_neg a b h h' := by
    simp only [Arith.wrapping]
    rw [Nat.mod_eq_of_lt (by omega)]
    exact Or.inl rfl

section
variable {α β : Type}

theorem Agree.refl (x : R α) : Agree x x := Or.inl rfl

theorem Agree.errors {x y : R α} (h1 : ∃ e, x = .error e) (h2 : ∃ e, y = .error e) : Agree x y := Or.inr ⟨h1, h2⟩

theorem Agree.bind {x y : R α} {f g : α → R β} (h : Agree x y) (h' : ∀ a, y = .ok a → Agree (f a) (g a)) :
    Agree (x >>= f) (y >>= g) := by
  rcases h with rfl | ⟨⟨e, rfl⟩, ⟨e', rfl⟩⟩
  · cases x with
    | error e => exact Or.inl rfl
    | ok a => exact h' a rfl
  · exact Or.inr ⟨⟨e, rfl⟩, ⟨e', rfl⟩⟩

theorem Agree.loopN {Inv : Nat → α → Prop} {f g : Nat → α → R α} :
    ∀ (n i : Nat) (a : α), Inv i a →
      (∀ k a, i ≤ k → k < i + n → Inv k a → Agree (f k a) (g k a) ∧ Ens (Inv (k + 1)) (g k a)) →
      Agree (loopN f n i a) (loopN g n i a) := by
  intro n
  induction n with
  | zero => intro i a _ _; exact Agree.refl _
  | succ n ih =>
    intro i a h step
    obtain ⟨h1, h2⟩ := step i a le_rfl (by omega) h
    refine Agree.bind h1 fun a' ha' => ?_
    exact ih (i + 1) a' (h2 a' ha') (fun k a h1 h2 => step k a (by omega) (by omega))

theorem Agree.forRange {Inv : Nat → α → Prop} {f g : Nat → α → R α} {n : Nat} {a : α} (h : Inv 0 a)
    (step : ∀ k a, k < n → Inv k a → Agree (f k a) (g k a) ∧ Ens (Inv (k + 1)) (g k a)) :
    Agree (forRange 0 n a f) (forRange 0 n a g) :=
  Agree.loopN _ _ _ h (fun k a _ h2 => step k a (by omega))

theorem Agree.ok_iff {x y : R α} (h : Agree x y) (a : α) : x = .ok a ↔ y = .ok a := by
  rcases h with rfl | ⟨⟨e, rfl⟩, ⟨e', rfl⟩⟩
  · rfl
  · constructor <;> intro h <;> cases h

end

namespace Machine

variable {F : Type} [Field F] [DecidableEq F] {t k nmds nhat rows nround npart : Nat} {A : Arith} {W : Nat}

theorem get_eq (hA : A.Faithful W) {r c n : Nat} (m : Mat F r c n) {i j : Nat} (h : i * c + j < W) :
    get A m i j = m.get i j := by
  rw [get, hA.mul _ _ (by omega), ok_bind, hA.add _ _ h, ok_bind, Mat.get]

/-- Row at most `rows`: the first index out of range is `rows * t`, which does not overflow. -/
theorem addRow_agree (hA : A.Faithful W) (hW : nround < W) (ht : 0 < t) (h : nround = rows * t) (arc : Mat F rows t nround)
    {row : Nat} (hr : row ≤ rows) (s : Vector F t) : Agree (addRow A arc row s) (Poseidon.addRow arc row s) := by
  rcases Nat.lt_or_ge row rows with hlt | hge
  · refine Or.inl (forRange_congr fun i s _ hi => ?_)
    rw [get_eq hA]
    have : (row + 1) * t ≤ rows * t := Nat.mul_le_mul_right _ hlt
    rw [Nat.add_mul] at this
    omega
  · obtain rfl : row = rows := by omega
    refine Agree.errors ⟨.indexOOB, forRange_first ht ?_⟩ ⟨_, addRow_oob ht h arc le_rfl s⟩
    have hg : get A arc row 0 = arc.get row 0 := get_eq hA arc (by omega)
    rw [aget_lt _ ht, ok_bind, hg, Mat.get, aget_ge _ (by omega)]
    rfl

theorem sparse_eq (hA : A.Faithful W) (hW : k + 1 < W) (o : OptimizedMds F npart (k + 1) k nmds nhat) (r : Nat)
    (s : Vector F (k + 1)) : sparseMatMul A o r s = Poseidon.sparseMatMul o r s := by
  rw [sparseMatMul, Poseidon.sparseMatMul]
  congr 1
  funext v
  have hl : (forList v.elements.toList.zipIdx (Vector.replicate k (0 : F)) fun (x, i) acc => do
        let s0 ← aget s 0
        let i1 ← A.add i 1
        let si ← aget s i1
        aset acc i (x * s0 + si)) =
      (forList v.elements.toList.zipIdx (Vector.replicate k (0 : F)) fun (x, i) acc => do
        let s0 ← aget s 0
        let si ← aget s (i + 1)
        aset acc i (x * s0 + si)) := by
    have hmem : ∀ e ∈ v.elements.toList.zipIdx, e.2 < k := by
      intro e he
      have := List.snd_lt_of_mem_zipIdx he
      simpa using this
    generalize v.elements.toList.zipIdx = l at hmem
    generalize Vector.replicate k (0 : F) = acc
    induction l generalizing acc with
    | nil => rfl
    | cons e l ih =>
      have he := hmem e (by simp)
      rw [forList, forList]
      have hstep : ∀ acc : Vector F k, (do
            let s0 ← aget s 0
            let i1 ← A.add e.2 1
            let si ← aget s i1
            aset acc e.2 (e.1 * s0 + si)) = (do
            let s0 ← aget s 0
            let si ← aget s (e.2 + 1)
            aset acc e.2 (e.1 * s0 + si)) := by
        intro acc
        rw [hA.add _ _ (by omega)]
        rfl
      obtain ⟨x, i⟩ := e
      dsimp only at hstep ⊢
      rw [hstep]
      congr 1
      funext acc'
      exact ih (fun e he => hmem e (by simp [he])) acc'
  rw [hl]
  rw [hA.sub _ _ hW (by omega), usub, if_pos (by omega)]

theorem ens_true {α : Type} (x : R α) : Ens (fun _ => True) x := fun _ _ => trivial

theorem rows_le (ht : 0 < t) (h : nround = rows * t) : rows ≤ nround := by
  rw [h]; exact Nat.le_mul_of_pos_right _ ht

theorem permute_agree (hA : A.Faithful W) (p : Params F (k + 1) k nmds nhat rows (k + 1) nround npart)
    (ha : nround = rows * (k + 1)) (hW : nround < W) (hk : k + 1 < W) (hP : p.rounds.rP < W) (hN : npart < W)
    (s : Vector F (k + 1)) : Agree (permute A p s) (Poseidon.permute p s) := by
  have ht : 0 < k + 1 := by omega
  have hrows : rows < W := lt_of_le_of_lt (rows_le ht ha) hW
  rw [permute, Poseidon.permute]
  dsimp only [RoundNumbers.full, RoundNumbers.partialRounds]
  set rf := p.rounds.rF / 2 with hrf
  set rp := p.rounds.rP with hrp
  -- first full rounds
  refine Agree.bind (Agree.forRange (Inv := fun r _ => r ≤ rows) (Nat.zero_le _) ?_) fun s hs => ?_
  · intro r s _ hr
    refine ⟨Agree.bind (addRow_agree hA hW ht ha _ hr s) fun s _ => Agree.refl _, ?_⟩
    exact Ens.bind (addRow_ens ht ha _ _ _) fun s h => fun _ _ => h
  have hrfle : rf ≤ rows := by
    refine (Ens.forRange (Inv := fun r (_ : Vector F (k + 1)) => r ≤ rows) (Nat.zero_le _) (Nat.zero_le _) ?_) s hs
    intro r s _ _ _
    exact Ens.bind (addRow_ens ht ha _ _ _) fun s h => fun _ _ => h
  refine Agree.bind (addRow_agree hA hW ht ha _ hrfle s) fun s hs => ?_
  have hrflt : rf < rows := addRow_ens ht ha _ _ _ _ hs
  refine Agree.bind (Agree.refl _) fun s _ => ?_
  rcases Nat.eq_zero_or_pos rp with h0 | h0
  · -- no partial round
    have hu : usub rp 1 = .error .underflow := by rw [usub, if_neg (by omega)]
    refine Agree.errors ?_ ⟨.underflow, by rw [hu]; rfl⟩
    rcases hA.sub_neg rp 1 (by omega) (by omega) with h1 | ⟨e, h1⟩
    · rw [h1, ok_bind, h0]
      obtain ⟨m, hm⟩ : ∃ m, 0 + W - 1 = m + 1 := ⟨W - 2, by omega⟩
      rw [hm, forRange_zero_succ]
      dsimp only
      cases Poseidon.partialSubWords p.alpha s with
      | error e => exact ⟨e, rfl⟩
      | ok s =>
        rw [ok_bind, hA.add _ _ (by omega), ok_bind, aget_lt _ ht, ok_bind]
        cases get A p.optimizedArc (rf + 1) 0 with
        | error e => exact ⟨e, rfl⟩
        | ok x =>
          rw [ok_bind, aset_lt _ _ ht, ok_bind, hA.sub 0 0 (by omega) le_rfl, ok_bind]
          rcases hA.sub_neg 0 1 (by omega) (by omega) with h2 | ⟨e, h2⟩
          · rw [h2, ok_bind, sparse_eq hA hk, sparseMatMul_oob _ (by omega)]
            exact ⟨_, rfl⟩
          · rw [h2]
            exact ⟨_, rfl⟩
    · rw [h1]; exact ⟨e, rfl⟩
  rw [hA.sub rp 1 hP h0, ok_bind, usub, if_pos (show 1 ≤ rp from h0), ok_bind]
  -- partial rounds
  have hstep : ∀ r (st : Vector F (k + 1) × Nat), r < rp - 1 → (st.2 = rf + r ∧ rf + r < rows) →
      Ens (fun st => st.2 = rf + (r + 1) ∧ rf + (r + 1) < rows) (do
        let s ← Poseidon.partialSubWords p.alpha st.1
        let x ← aget s 0
        let k ← p.optimizedArc.get (st.2 + 1) 0
        let s ← aset s 0 (x + k)
        let idx ← usub rp r
        let idx ← usub idx 1
        let s ← Poseidon.sparseMatMul p.optimizedMds idx s
        return (s, st.2 + 1)) := by
    rintro r ⟨s, c⟩ hr ⟨hc, hlt⟩
    dsimp only at hc ⊢
    refine Ens.bind (ens_true _) fun s _ => Ens.bind (ens_true _) fun x _ => ?_
    rcases Nat.lt_or_ge (c + 1) rows with h1 | h1
    · refine Ens.bind (ens_true _) fun s _ => Ens.bind (ens_true _) fun x _ => Ens.bind (ens_true _) fun x _ => ?_
      refine Ens.bind (ens_true _) fun s _ => Ens.bind (ens_true _) fun x _ => Ens.ok ?_
      dsimp only; omega
    · rw [get_col0_oob ha _ h1]; exact Ens.error
  refine Agree.bind (Agree.forRange (Inv := fun r st => st.2 = rf + r ∧ rf + r < rows) ⟨rfl, hrflt⟩ ?_) fun st hst => ?_
  · rintro r ⟨s, c⟩ hr ⟨hc, hlt⟩
    refine ⟨?_, hstep r (s, c) hr ⟨hc, hlt⟩⟩
    dsimp only at hc ⊢
    refine Agree.bind (Agree.refl _) fun s _ => ?_
    have hidx : (c + 1) * (k + 1) + 0 < W := by
      have : (c + 1) * (k + 1) ≤ rows * (k + 1) := Nat.mul_le_mul_right _ (by omega)
      omega
    rw [hA.add _ _ (by omega), ok_bind, get_eq hA _ hidx]
    refine Agree.bind (Agree.refl _) fun x _ => Agree.bind (Agree.refl _) fun y _ => Agree.bind (Agree.refl _) fun s _ => ?_
    rw [hA.sub rp r hP (by omega), ok_bind, usub, if_pos (show r ≤ rp by omega), ok_bind,
      hA.sub (rp - r) 1 (by omega) (by omega), ok_bind, usub, if_pos (show 1 ≤ rp - r by omega), ok_bind, sparse_eq hA hk]
    exact Agree.refl _
  obtain ⟨hc, hlt⟩ := (Ens.forRange (Inv := fun r (st : Vector F (k + 1) × Nat) => st.2 = rf + r ∧ rf + r < rows) (Nat.zero_le _)
    ⟨rfl, hrflt⟩ fun r st _ h2 => hstep r st h2) st hst
  obtain ⟨s, c⟩ := st
  dsimp only at hc ⊢
  refine Agree.bind (Agree.refl _) fun s _ => ?_
  rw [sparse_eq hA hk]
  refine Agree.bind (Agree.refl _) fun s _ => ?_
  rw [hA.add _ _ (by omega), ok_bind]
  -- final full rounds
  refine Agree.bind (Agree.forRange (Inv := fun r st => st.2 ≤ rows) (show c + 1 ≤ rows by omega) ?_) fun st _ => Agree.refl _
  rintro r ⟨s, c⟩ _ hc
  dsimp only at hc ⊢
  constructor
  · refine Agree.bind (addRow_agree hA hW ht ha _ hc s) fun s hs => ?_
    have hclt : c < rows := addRow_ens ht ha _ _ _ _ hs
    refine Agree.bind (Agree.refl _) fun s _ => Agree.bind (Agree.refl _) fun s _ => ?_
    rw [hA.add _ _ (by omega)]
    exact Agree.refl _
  · refine Ens.bind (addRow_ens ht ha _ _ _) fun s h => ?_
    exact Ens.bind (ens_true _) fun s _ => Ens.bind (ens_true _) fun s _ => Ens.ok h

/-! ## The counter of the unoptimized permutation and of the circuit -/

/-- Equal, and a value satisfies `Q`. -/
def Same {α : Type} (Q : α → Prop) (x y : R α) : Prop := x = y ∧ Ens Q y

theorem Same.bind {α β : Type} {Q : α → Prop} {Q' : β → Prop} {x y : R α} {f g : α → R β} (h : Same Q x y)
    (h' : ∀ a, Q a → Same Q' (f a) (g a)) : Same Q' (x >>= f) (y >>= g) := by
  obtain ⟨rfl, h2⟩ := h
  cases x with
  | error e => exact ⟨rfl, Ens.error⟩
  | ok a => exact h' a (h2 a rfl)

theorem Same.refl {α : Type} (x : R α) : Same (fun _ => True) x x := ⟨rfl, ens_true x⟩

theorem Same.ok {α : Type} {Q : α → Prop} {a : α} (h : Q a) : Same Q (.ok a) (.ok a) := ⟨rfl, Ens.ok h⟩

theorem Same.forRange {α : Type} {Q : α → Prop} {f g : Nat → α → R α} {n : Nat} {a : α} (h : Q a)
    (step : ∀ k a, k < n → Q a → Same Q (f k a) (g k a)) : Same Q (forRange 0 n a f) (forRange 0 n a g) := by
  rw [Poseidon.forRange, Poseidon.forRange]
  have key : ∀ m i a, Q a → i + m ≤ n → Same Q (loopN f m i a) (loopN g m i a) := by
    intro m
    induction m with
    | zero => intro i a h _; exact Same.ok h
    | succ m ih => intro i a h hi; exact Same.bind (step i a (by omega) h) fun a h => ih (i + 1) a h (by omega)
  exact key _ _ _ h (by omega)

/-- A table that fits the word: reading an entry and incrementing the counter. -/
theorem read_same (hA : A.Faithful W) (hW : nround < W) (v : Vector F nround) {c : Nat} {β : Type} {Q : β → Prop}
    {f : F → R Nat → R β} {g : F → R β} (h : ∀ k, c + 1 ≤ nround → Same Q (f k (.ok (c + 1))) (g k)) :
    Same Q (aget v c >>= fun k => f k (A.add c 1)) (aget v c >>= g) := by
  rcases Nat.lt_or_ge c nround with hc | hc
  · rw [aget_lt _ hc, ok_bind, ok_bind, hA.add _ _ (by omega)]
    exact h _ (by omega)
  · rw [aget_ge _ hc]; exact ⟨rfl, Ens.error⟩

theorem addLinear_same (hA : A.Faithful W) (hW : nround < W) (arc : Mat F rows t nround) {st : Vector F t × Nat}
    (h : st.2 ≤ nround) :
    Same (fun st => st.2 ≤ nround) (addLinear A arc st) (Poseidon.addLinear arc st) := by
  refine Same.forRange h ?_
  rintro i ⟨s, c⟩ _ hc
  dsimp only at hc ⊢
  refine Same.bind (Same.refl _) fun x _ => ?_
  refine read_same hA hW _ (f := fun k y => do
    let s ← aset s i (x + k)
    let counter ← y
    return (s, counter)) fun k hk => ?_
  exact Same.bind (Same.refl _) fun s _ => Same.ok hk

theorem unoptimizedPermute_eq (hA : A.Faithful W) (hW : nround < W) (p : Params F t k nmds nhat rows t nround npart)
    (s : Vector F t) : unoptimizedPermute A p s = Poseidon.unoptimizedPermute p s := by
  have key : ∀ (n : Nat) (sub : Vector F t → R (Vector F t)) (st : Vector F t × Nat), st.2 ≤ nround →
      Same (fun st => st.2 ≤ nround)
        (forRange 0 n st fun _ st => do
          let (s, counter) ← addLinear A p.arc st
          let s ← sub s
          let s ← mixLayer p.mds s
          return (s, counter))
        (forRange 0 n st fun _ st => do
          let (s, counter) ← Poseidon.addLinear p.arc st
          let s ← sub s
          let s ← mixLayer p.mds s
          return (s, counter)) := by
    intro n sub st hst
    refine Same.forRange hst fun _ st _ hst => ?_
    refine Same.bind (addLinear_same hA hW p.arc hst) fun st hst => ?_
    exact Same.bind (Same.refl _) fun s _ => Same.bind (Same.refl _) fun s _ => Same.ok hst
  refine (Same.bind (Q' := fun _ => True) (key _ _ (s, 0) (Nat.zero_le _)) fun st h => ?_).1
  refine Same.bind (key _ _ st h) fun st h => ?_
  exact Same.bind (key _ _ st h) fun st h => Same.refl _

open R1cs in
theorem addRoundConstants_same (hA : A.Faithful W) (hW : nround < W) (arc : Mat F rows t nround) (s : List (FpVar F)) {c : Nat}
    (h : c ≤ nround) :
    Same (fun st => st.2 ≤ nround) (addRoundConstants A t arc s c) (R1cs.addRoundConstants t arc s c) := by
  refine Same.forRange (Q := fun st : List (FpVar F) × Nat => st.2 ≤ nround) h ?_
  rintro i ⟨s, c⟩ _ hc
  dsimp only at hc ⊢
  refine Same.bind (Same.refl _) fun x _ => ?_
  refine read_same hA hW _ (f := fun k y => do
    let s ← lset s i (x.addConstant k)
    let counter ← y
    return (s, counter)) fun k hk => ?_
  exact Same.bind (Same.refl _) fun s _ => Same.ok hk

open R1cs in
theorem circuitRound_same (hA : A.Faithful W) (hW : nround < W) (p : Params F t k nmds nhat rows t nround npart) (full : Bool)
    {st : List (FpVar F) × Nat × CS F} (hst : st.2.1 ≤ nround) :
    Same (fun st => st.2.1 ≤ nround) (circuitRound A p full st) (R1cs.round p full st) := by
  obtain ⟨s, c, cs⟩ := st
  rw [circuitRound, R1cs.round]
  dsimp only at hst ⊢
  refine Same.bind (addRoundConstants_same hA hW p.arc s hst) fun st h => ?_
  obtain ⟨s, c⟩ := st
  cases full
  · exact Same.bind (Same.refl (R1cs.partialSubWords p.alpha s cs)) fun s _ =>
      Same.bind (Same.refl (R1cs.mixLayer p.mds s.1 s.2)) fun s _ => Same.ok h
  · exact Same.bind (Same.refl (R1cs.fullSubWords t p.alpha s cs)) fun s _ =>
      Same.bind (Same.refl (R1cs.mixLayer p.mds s.1 s.2)) fun s _ => Same.ok h

open R1cs in
theorem circuitHash_eq (hA : A.Faithful W) (hW : nround < W) (p : Params F t k nmds nhat rows t nround npart)
    (inputs : Vector (FpVar F) t) (cs : CS F) : circuitHash A p inputs cs = R1cs.nTo1FixedHash p inputs cs := by
  have key : ∀ (n : Nat) (full : Bool) (st : List (FpVar F) × Nat × CS F), st.2.1 ≤ nround →
      Same (fun st => st.2.1 ≤ nround) (forRange 0 n st fun _ st => circuitRound A p full st)
        (forRange 0 n st fun _ st => R1cs.round p full st) := by
    intro n full st hst
    exact Same.forRange hst fun _ st _ hst => circuitRound_same hA hW p full hst
  have h : circuitPermute A p inputs.toList cs = R1cs.permute p inputs.toList cs := by
    refine (Same.bind (Q' := fun _ => True) (key _ _ (inputs.toList, 0, cs) (Nat.zero_le _)) fun st h => ?_).1
    refine Same.bind (key _ _ st h) fun st h => ?_
    exact Same.bind (key _ _ st h) fun st h => Same.refl _
  rw [circuitHash, R1cs.nTo1FixedHash, h]

end Machine

end Poseidon
