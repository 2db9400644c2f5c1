import Verif.Proofs.Optimized
import Verif.Proofs.Sim
import Verif.Model.R1cs

/-!
# Which panics are possible

`Tri x Q E`: if `x` succeeds its value satisfies `Q`, if it panics the panic satisfies `E`.
-/

set_option linter.unusedSectionVars false

namespace Poseidon

universe u

/-- The outcome of `x` satisfies `Q` (success) or `E` (panic). -/
def Tri {α : Type u} (x : R α) (Q : α → Prop) (E : Panic → Prop) : Prop :=
  match x with
  | .ok a => Q a
  | .error e => E e

section
variable {α β : Type u} {Q : α → Prop} {E : Panic → Prop}

theorem Tri.of_eq_ok {x : R α} {a : α} (h : x = .ok a) (hQ : Q a) : Tri x Q E := by rw [h]; exact hQ

theorem Tri.bind {Q' : β → Prop} {x : R α} {f : α → R β} (h : Tri x Q E) (h' : ∀ a, Q a → Tri (f a) Q' E) :
    Tri (x >>= f) Q' E := by
  cases x with
  | error e => exact h
  | ok a => exact h' a h

theorem Tri.mono {Q' : α → Prop} {x : R α} (h : Tri x Q E) (h' : ∀ a, Q a → Q' a) : Tri x Q' E := by
  cases x with
  | error e => exact h
  | ok a => exact h' a h

theorem Tri.loopN {Inv : Nat → α → Prop} {f : Nat → α → R α} :
    ∀ (n i : Nat) (a : α), Inv i a → (∀ k a, i ≤ k → k < i + n → Inv k a → Tri (f k a) (Inv (k + 1)) E) →
      Tri (loopN f n i a) (Inv (i + n)) E := by
  intro n
  induction n with
  | zero => intro i a h _; exact h
  | succ n ih =>
    intro i a h step
    refine Tri.bind (step i a le_rfl (by omega) h) fun a' h' => ?_
    have := ih (i + 1) a' h' (fun k a h1 h2 => step k a (by omega) (by omega))
    rwa [show i + 1 + n = i + (n + 1) by omega] at this

theorem Tri.forRange {Inv : Nat → α → Prop} {f : Nat → α → R α} {lo hi : Nat} (hle : lo ≤ hi) {a : α}
    (h : Inv lo a) (step : ∀ k a, lo ≤ k → k < hi → Inv k a → Tri (f k a) (Inv (k + 1)) E) :
    Tri (forRange lo hi a f) (Inv hi) E := by
  have := Tri.loopN (Inv := Inv) (f := f) (hi - lo) lo a h (fun k a h1 h2 => step k a h1 (by omega))
  rwa [show lo + (hi - lo) = hi by omega] at this

end

variable {F : Type} [Field F] [DecidableEq F] {t k nmds nhat rows nround npart : Nat}

/-- The only panic left once the indices are in range. -/
def OnlyDivZero (a : Alpha) (e : Panic) : Prop := a = .inverse ∧ e = .divZero

theorem partialSubWords_tri (ht : 0 < t) (a : Alpha) (s : Vector F t) :
    Tri (partialSubWords a s) (fun _ => True) (OnlyDivZero a) := by
  rw [← ofFn_get s, partialSubWords_eq ht]
  split
  · trivial
  · next h =>
    cases a with
    | inverse => exact ⟨rfl, rfl⟩
    | exponent e => exact absurd trivial h

theorem fullSubWords_tri (a : Alpha) (s : Vector F t) :
    Tri (fullSubWords a s) (fun _ => True) (OnlyDivZero a) := by
  rw [← ofFn_get s, fullSubWords_eq]
  split
  · trivial
  · next h =>
    cases a with
    | inverse => exact ⟨rfl, rfl⟩
    | exponent e => exact absurd (fun _ => trivial) h

theorem mixLayer_tri {E : Panic → Prop} (ht : 0 < t) (h : nmds = t * t) (m : Mat F t t nmds) (s : Vector F t) :
    Tri (mixLayer m s) (fun _ => True) E := by
  rw [← ofFn_get s, mixLayer_eq ht h]; trivial

theorem addRow_tri {E : Panic → Prop} (h : nround = rows * t) (arc : Mat F rows t nround) {row : Nat} (hr : row < rows)
    (s : Vector F t) : Tri (addRow arc row s) (fun _ => True) E := by
  rw [← ofFn_get s, addRow_eq h arc hr]; trivial

theorem forRange_first {σ : Type _} {e : Panic} {n : Nat} (hn : 0 < n) {s : σ} {body : Nat → σ → R σ}
    (h : body 0 s = .error e) : forRange 0 n s body = .error e := by
  obtain ⟨m, rfl⟩ := Nat.exists_eq_succ_of_ne_zero hn.ne'
  rw [forRange_zero_succ, h]; rfl

theorem addRow_oob (ht : 0 < t) (h : nround = rows * t) (arc : Mat F rows t nround) {row : Nat} (hr : rows ≤ row)
    (s : Vector F t) : addRow arc row s = .error .indexOOB := by
  refine forRange_first ht ?_
  rw [aget_lt _ ht, ok_bind, Mat.get, aget_ge _ (by rw [h]; exact Nat.le_add_right_of_le (Nat.mul_le_mul_right _ hr))]
  rfl

theorem addRow_ens (ht : 0 < t) (h : nround = rows * t) (arc : Mat F rows t nround) (row : Nat) (s : Vector F t) :
    Ens (fun _ => row < rows) (addRow arc row s) := by
  intro a ha
  by_contra hc
  rw [addRow_oob ht h arc (by omega)] at ha
  cases ha

theorem get_col0 (ht : 0 < t) (h : nround = rows * t) (arc : Mat F rows t nround) {row : Nat} (hr : row < rows) :
    ∃ x, arc.get row 0 = .ok x := ⟨_, Mat.get_eq h arc hr ht⟩

theorem get_col0_oob (h : nround = rows * t) (arc : Mat F rows t nround) {row : Nat} (hr : rows ≤ row) :
    arc.get row 0 = .error .indexOOB := by
  rw [Mat.get, aget_ge _ (by rw [h]; exact Nat.le_add_right_of_le (Nat.mul_le_mul_right _ hr))]

theorem sparseMatMul_tri {E : Panic → Prop} (o : OptimizedMds F npart (k + 1) k nmds nhat) {r : Nat} (hr : r < npart)
    (s : Vector F (k + 1)) : Tri (sparseMatMul o r s) (fun _ => True) E := by
  rw [← ofFn_get s, sparseMatMul_eq o hr]; trivial

theorem sparseMatMul_oob (o : OptimizedMds F npart t k nmds nhat) {r : Nat} (hr : npart ≤ r) (s : Vector F t) :
    sparseMatMul o r s = .error .indexOOB := by
  rw [sparseMatMul, aget_ge _ hr]; rfl

theorem sparseMatMul_ens (o : OptimizedMds F npart t k nmds nhat) (r : Nat) (s : Vector F t) :
    Ens (fun _ => r < npart) (sparseMatMul o r s) := by
  intro a ha
  by_contra hc
  rw [sparseMatMul_oob o (by omega)] at ha
  cases ha

/-- Indices in range: only a division by zero is left. -/
theorem permute_tri (p : Params F (k + 1) k nmds nhat rows (k + 1) nround npart) (hm : nmds = (k + 1) * (k + 1))
    (ha : nround = rows * (k + 1)) (h1 : 1 ≤ p.rounds.rP) (h2 : p.rounds.rP ≤ npart)
    (h3 : 2 * (p.rounds.rF / 2) + p.rounds.rP ≤ rows) (s : Vector F (k + 1)) :
    Tri (permute p s) (fun _ => True) (OnlyDivZero p.alpha) := by
  have ht : 0 < k + 1 := by omega
  rw [permute]
  dsimp only [RoundNumbers.full, RoundNumbers.partialRounds]
  have hlim : usub p.rounds.rP 1 = .ok (p.rounds.rP - 1) := by rw [usub, if_pos h1]
  refine Tri.bind (Tri.forRange (Inv := fun _ _ => True) (Nat.zero_le _) trivial ?_) fun s _ => ?_
  · intro r s _ hr _
    refine Tri.bind (addRow_tri ha _ (by omega) s) fun s _ => ?_
    exact Tri.bind (fullSubWords_tri _ s) fun s _ => mixLayer_tri ht hm _ s
  refine Tri.bind (addRow_tri ha _ (by omega) s) fun s _ => ?_
  refine Tri.bind (mixLayer_tri ht hm _ s) fun s _ => ?_
  rw [hlim, ok_bind]
  refine Tri.bind (Tri.forRange (Inv := fun r st => st.2 = p.rounds.rF / 2 + r) (Nat.zero_le _) rfl ?_) fun st hst => ?_
  · rintro r ⟨s, c⟩ _ hr hc
    dsimp only at hc ⊢
    refine Tri.bind (partialSubWords_tri ht _ s) fun s _ => ?_
    rw [aget_lt _ ht, ok_bind]
    obtain ⟨x, hx⟩ := get_col0 ht ha p.optimizedArc (row := c + 1) (by omega)
    rw [hx, ok_bind, aset_lt _ _ ht, ok_bind, usub, if_pos (by omega), ok_bind, usub, if_pos (by omega), ok_bind]
    refine Tri.bind (sparseMatMul_tri _ (by omega) _) fun s _ => ?_
    show c + 1 = _
    omega
  obtain ⟨s, c⟩ := st
  dsimp only at hst ⊢
  refine Tri.bind (partialSubWords_tri ht _ s) fun s _ => ?_
  refine Tri.bind (sparseMatMul_tri _ (by omega) s) fun s _ => ?_
  refine Tri.bind (Tri.forRange (Inv := fun r st => st.2 = p.rounds.rF / 2 + p.rounds.rP + r) (Nat.zero_le _) ?_ ?_)
    fun st _ => trivial
  · show c + 1 = _
    omega
  · rintro r ⟨s, c⟩ _ hr hc
    dsimp only at hc ⊢
    refine Tri.bind (addRow_tri ha _ (by omega) s) fun s _ => ?_
    refine Tri.bind (fullSubWords_tri _ s) fun s _ => Tri.bind (mixLayer_tri ht hm _ s) fun s _ => ?_
    show c + 1 = _
    omega

/-- Success implies that the indices were in range. -/
theorem permute_ens (p : Params F (k + 1) k nmds nhat rows (k + 1) nround npart)
    (ha : nround = rows * (k + 1)) (s : Vector F (k + 1)) :
    Ens (fun _ => 1 ≤ p.rounds.rP ∧ p.rounds.rP ≤ npart ∧ 2 * (p.rounds.rF / 2) + p.rounds.rP ≤ rows) (permute p s) := by
  have ht : 0 < k + 1 := by omega
  have top : ∀ {α : Type} (x : R α), Ens (fun _ => True) x := fun x _ _ => trivial
  rw [permute]
  dsimp only [RoundNumbers.full, RoundNumbers.partialRounds]
  refine Ens.bind (top _) fun s _ => ?_
  refine Ens.bind (addRow_ens ht ha _ _ s) fun s hrf => ?_
  refine Ens.bind (top _) fun s _ => ?_
  rw [usub]
  split
  swap
  · exact Ens.error
  next h1 =>
  rw [ok_bind]
  refine Ens.bind (Ens.forRange (Inv := fun r st => st.2 = p.rounds.rF / 2 + r ∧
      (0 < r → p.rounds.rF / 2 + r < rows ∧ p.rounds.rP ≤ npart)) (Nat.zero_le _) ⟨rfl, fun h => by omega⟩ ?_) fun st hst => ?_
  · rintro r ⟨s, c⟩ _ hr ⟨hc, hi⟩
    dsimp only at hc ⊢
    refine Ens.bind (top _) fun s _ => ?_
    rw [aget_lt _ ht, ok_bind]
    by_cases hrow : c + 1 < rows
    swap
    · rw [get_col0_oob ha _ (by omega)]; exact Ens.error
    obtain ⟨x, hx⟩ := get_col0 ht ha p.optimizedArc hrow
    rw [hx, ok_bind, aset_lt _ _ ht, ok_bind, usub, if_pos (by omega), ok_bind, usub, if_pos (by omega), ok_bind]
    refine Ens.bind (sparseMatMul_ens _ _ _) fun s hsp => Ens.ok ⟨by dsimp only; omega, fun _ => ⟨by omega, ?_⟩⟩
    rcases Nat.eq_zero_or_pos r with h0 | h0
    · omega
    · exact (hi h0).2
  obtain ⟨s, c⟩ := st
  dsimp only at hst ⊢
  refine Ens.bind (top _) fun s _ => ?_
  refine Ens.bind (sparseMatMul_ens _ _ s) fun s h0 => ?_
  refine Ens.bind (Ens.forRange (Inv := fun r st => st.2 = p.rounds.rF / 2 + p.rounds.rP + r ∧
      (0 < r → p.rounds.rF / 2 + p.rounds.rP + r ≤ rows)) (Nat.zero_le _) ⟨?_, fun h => by omega⟩ ?_) fun st hfin => Ens.ok ?_
  · dsimp only; omega
  · rintro r ⟨s, c⟩ _ hr ⟨hc, hi⟩
    dsimp only at hc ⊢
    refine Ens.bind (addRow_ens ht ha _ _ s) fun s hrow => ?_
    refine Ens.bind (top _) fun s _ => Ens.bind (top _) fun s _ => Ens.ok ⟨?_, fun _ => ?_⟩
    · dsimp only; omega
    · omega
  · obtain ⟨-, hf⟩ := hfin
    obtain ⟨-, hl⟩ := hst
    refine ⟨h1, ?_, ?_⟩
    · by_cases h : 0 < p.rounds.rP - 1
      · exact (hl h).2
      · omega
    · by_cases h : 0 < p.rounds.rF / 2
      · have := hf h; omega
      · by_cases h' : 0 < p.rounds.rP - 1
        · have := (hl h').1; omega
        · omega

/-! ### The unoptimized permutation -/

theorem addLinear_tri {E : Panic → Prop} (h : nround = rows * t) (arc : Mat F rows t nround) {row : Nat} (hr : row < rows)
    (s : Vector F t) : Tri (addLinear arc (s, row * t)) (fun st => st.2 = (row + 1) * t) E := by
  have := addLinear_eq h arc hr (fun i : Fin t => s[i])
  rw [ofFn_get] at this
  rw [this]
  rfl

theorem addLinear_oob (ht : 0 < t) (h : nround = rows * t) (arc : Mat F rows t nround) {row : Nat} (hr : rows ≤ row)
    (s : Vector F t) : addLinear arc (s, row * t) = .error .indexOOB := by
  refine forRange_first ht ?_
  dsimp only
  rw [aget_lt _ ht, ok_bind, aget_ge _ (by rw [h]; exact Nat.mul_le_mul_right _ hr)]
  rfl

/-- A round of the unoptimized permutation; `sub` is the S-box layer. -/
def unoptRound (p : Params F t k nmds nhat rows t nround npart) (sub : Vector F t → R (Vector F t))
    (st : Vector F t × Nat) : R (Vector F t × Nat) := do
  let (s, counter) ← addLinear p.arc st
  let s ← sub s
  let s ← mixLayer p.mds s
  return (s, counter)

theorem unoptRound_tri (p : Params F t k nmds nhat rows t nround npart) (ht : 0 < t) (hm : nmds = t * t)
    (ha : nround = rows * t) {sub : Vector F t → R (Vector F t)} {E : Panic → Prop}
    (hsub : ∀ s, Tri (sub s) (fun _ => True) E) {row : Nat} (hr : row < rows) {st : Vector F t × Nat} (hst : st.2 = row * t) :
    Tri (unoptRound p sub st) (fun st => st.2 = (row + 1) * t) E := by
  obtain ⟨s, c⟩ := st
  obtain rfl : c = row * t := hst
  refine Tri.bind (addLinear_tri ha p.arc hr s) fun st h => ?_
  exact Tri.bind (hsub _) fun s _ => Tri.bind (mixLayer_tri ht hm _ s) fun s _ => h

theorem unoptRound_ens (p : Params F t k nmds nhat rows t nround npart) (ht : 0 < t)
    (ha : nround = rows * t) (sub : Vector F t → R (Vector F t))
    {row : Nat} {st : Vector F t × Nat} (hst : st.2 = row * t) :
    Ens (fun st => st.2 = (row + 1) * t ∧ row < rows) (unoptRound p sub st) := by
  obtain ⟨s, c⟩ := st
  obtain rfl : c = row * t := hst
  have top : ∀ {α : Type} (x : R α), Ens (fun _ => True) x := fun x _ _ => trivial
  rw [unoptRound]
  by_cases hr : row < rows
  · have h := addLinear_eq ha p.arc hr (fun i : Fin t => s[i])
    rw [ofFn_get] at h
    rw [h, ok_bind]
    exact Ens.bind (top _) fun s _ => Ens.bind (top _) fun s _ => Ens.ok ⟨rfl, hr⟩
  · rw [addLinear_oob ht ha p.arc (by omega)]
    exact Ens.error

theorem unoptimizedPermute_tri (p : Params F t k nmds nhat rows t nround npart) (ht : 0 < t) (hm : nmds = t * t)
    (ha : nround = rows * t) (h3 : 2 * (p.rounds.rF / 2) + p.rounds.rP ≤ rows) (s : Vector F t) :
    Tri (unoptimizedPermute p s) (fun _ => True) (OnlyDivZero p.alpha) := by
  rw [unoptimizedPermute]
  dsimp only [RoundNumbers.full, RoundNumbers.partialRounds]
  set rf := p.rounds.rF / 2 with hrf
  set rp := p.rounds.rP with hrp
  refine Tri.bind (Tri.forRange (Inv := fun r st => st.2 = r * t) (Nat.zero_le _) (by simp) ?_) fun st h1 => ?_
  · intro r st _ hr hst
    exact unoptRound_tri p ht hm ha (fullSubWords_tri _) (by omega) hst
  refine Tri.bind (Tri.forRange (Inv := fun r st => st.2 = (rf + r) * t) (Nat.zero_le _) h1 ?_) fun st h2 => ?_
  · intro r st _ hr hst
    exact unoptRound_tri p ht hm ha (partialSubWords_tri ht _) (row := rf + r) (by omega) hst
  refine Tri.bind (Tri.forRange (Inv := fun r st => st.2 = (rf + rp + r) * t) (Nat.zero_le _) h2 ?_) fun st h2 => trivial
  intro r st _ hr hst
  exact unoptRound_tri p ht hm ha (fullSubWords_tri _) (row := rf + rp + r) (by omega) hst

theorem unoptimizedPermute_ens (p : Params F t k nmds nhat rows t nround npart) (ht : 0 < t)
    (ha : nround = rows * t) (s : Vector F t) :
    Ens (fun _ => 2 * (p.rounds.rF / 2) + p.rounds.rP ≤ rows) (unoptimizedPermute p s) := by
  rw [unoptimizedPermute]
  dsimp only [RoundNumbers.full, RoundNumbers.partialRounds]
  set rf := p.rounds.rF / 2 with hrf
  set rp := p.rounds.rP with hrp
  refine Ens.bind (Ens.forRange (Inv := fun r st => st.2 = r * t ∧ r ≤ rows) (Nat.zero_le _) (by simp) ?_) fun st h1 => ?_
  · intro r st _ hr hst
    exact (unoptRound_ens p ht ha _ (row := r) hst.1).mono fun st h => ⟨h.1, by omega⟩
  refine Ens.bind (Ens.forRange (Inv := fun r st => st.2 = (rf + r) * t ∧ rf + r ≤ rows) (Nat.zero_le _) h1 ?_) fun st h2 => ?_
  · intro r st _ hr hst
    exact (unoptRound_ens p ht ha _ (row := rf + r) hst.1).mono fun st h => ⟨h.1, by omega⟩
  refine Ens.bind (Ens.forRange (Inv := fun r st => st.2 = (rf + rp + r) * t ∧ rf + rp + r ≤ rows) (Nat.zero_le _) h2 ?_)
    fun st h3 => Ens.ok (by omega)
  intro r st _ hr hst
  exact (unoptRound_ens p ht ha _ (row := rf + rp + r) hst.1).mono fun st h => ⟨h.1, by omega⟩

/-! ### The circuit -/

open R1cs in
theorem addRoundConstants_ens (ht : 0 < t) (h : nround = rows * t) (arc : Mat F rows t nround) (row : Nat)
    (s : List (FpVar F)) :
    Ens (fun st => st.2 = (row + 1) * t ∧ row < rows) (addRoundConstants t arc s (row * t)) := by
  have hrow : Ens (fun _ => row < rows) (addRoundConstants t arc s (row * t)) := by
    by_cases hr : row < rows
    · exact fun _ _ => hr
    · cases hs : lget s 0 with
      | error e =>
        rw [addRoundConstants, forRange_first ht (e := e) (by dsimp only; rw [hs]; rfl)]; exact Ens.error
      | ok x =>
        rw [addRoundConstants, forRange_first ht (e := .indexOOB) (by
          dsimp only
          rw [hs, ok_bind, aget_ge _ (by rw [h]; exact Nat.mul_le_mul_right _ (by omega))]; rfl)]
        exact Ens.error
  have hcount : Ens (fun st => st.2 = row * t + t) (addRoundConstants t arc s (row * t)) := by
    have top : ∀ {α : Type} (x : R α), Ens (fun _ => True) x := fun x _ _ => trivial
    refine Ens.forRange (Inv := fun i (st : List (FpVar F) × Nat) => st.2 = row * t + i) (Nat.zero_le _) rfl ?_
    rintro i ⟨s, c⟩ _ _ hc
    dsimp only at hc ⊢
    refine Ens.bind (top _) fun _ _ => Ens.bind (top _) fun _ _ => Ens.bind (top _) fun _ _ => Ens.ok ?_
    dsimp only; omega
  intro st hst
  exact ⟨by rw [hcount st hst, Nat.add_mul, Nat.one_mul], hrow st hst⟩

open R1cs in
theorem circuitRound_ens (p : Params F t k nmds nhat rows t nround npart) (ht : 0 < t) (ha : nround = rows * t) (full : Bool)
    {row : Nat} {st : List (FpVar F) × Nat × CS F} (hst : st.2.1 = row * t) :
    Ens (fun st => st.2.1 = (row + 1) * t ∧ row < rows ∧ p.alpha ≠ .inverse) (R1cs.round p full st) := by
  obtain ⟨s, c, cs⟩ := st
  obtain rfl : c = row * t := hst
  have top : ∀ {α : Type} (x : R α), Ens (fun _ => True) x := fun x _ _ => trivial
  rw [R1cs.round]
  dsimp only
  refine Ens.bind (addRoundConstants_ens ht ha p.arc row s) fun st h => ?_
  obtain ⟨s, c⟩ := st
  dsimp only
  by_cases hi : p.alpha = .inverse
  · rw [hi]
    cases full
    · exact Ens.error
    · exact Ens.error
  · cases full
    · exact Ens.bind (top (R1cs.partialSubWords p.alpha s cs)) fun s _ => Ens.bind (top (R1cs.mixLayer p.mds s.1 s.2)) fun s _ =>
        Ens.ok ⟨h.1, h.2, hi⟩
    · exact Ens.bind (top (R1cs.fullSubWords t p.alpha s cs)) fun s _ => Ens.bind (top (R1cs.mixLayer p.mds s.1 s.2)) fun s _ =>
        Ens.ok ⟨h.1, h.2, hi⟩

open R1cs in
theorem circuitPermute_ens (p : Params F t k nmds nhat rows t nround npart) (ht : 0 < t) (ha : nround = rows * t)
    (s : List (FpVar F)) (cs : CS F) :
    Ens (fun _ => 2 * (p.rounds.rF / 2) + p.rounds.rP ≤ rows ∧
      (p.alpha = .inverse → 2 * (p.rounds.rF / 2) + p.rounds.rP = 0)) (R1cs.permute p s cs) := by
  rw [R1cs.permute]
  dsimp only [RoundNumbers.full, RoundNumbers.partialRounds]
  set rf := p.rounds.rF / 2 with hrf
  set rp := p.rounds.rP with hrp
  refine Ens.bind (Ens.forRange (Inv := fun r st => st.2.1 = r * t ∧ r ≤ rows ∧ (p.alpha = .inverse → r = 0)) (Nat.zero_le _)
    (by simp) ?_) fun st h1 => ?_
  · intro r st _ hr hst
    exact (circuitRound_ens p ht ha _ (row := r) hst.1).mono fun st h => ⟨h.1, by omega, fun h' => absurd h' h.2.2⟩
  refine Ens.bind (Ens.forRange (Inv := fun r st => st.2.1 = (rf + r) * t ∧ rf + r ≤ rows ∧ (p.alpha = .inverse → rf + r = 0))
    (Nat.zero_le _) h1 ?_) fun st h2 => ?_
  · intro r st _ hr hst
    exact (circuitRound_ens p ht ha _ (row := rf + r) hst.1).mono fun st h => ⟨h.1, by omega, fun h' => absurd h' h.2.2⟩
  refine Ens.bind (Ens.forRange (Inv := fun r st => st.2.1 = (rf + rp + r) * t ∧ rf + rp + r ≤ rows ∧
      (p.alpha = .inverse → rf + rp + r = 0)) (Nat.zero_le _) h2 ?_)
    fun st h3 => Ens.ok ⟨by omega, fun h => by have := h3.2.2 h; omega⟩
  intro r st _ hr hst
  exact (circuitRound_ens p ht ha _ (row := rf + rp + r) hst.1).mono fun st h => ⟨h.1, by omega, fun h' => absurd h' h.2.2⟩

end Poseidon
