import Verif.Model.Permutation
import Verif.Spec.Poseidon
import Verif.Proofs.Matrix

/-! # Closed forms of the permutation layers -/

set_option linter.unusedSectionVars false

namespace Poseidon

open Matrix

variable {F : Type _} [Field F] [DecidableEq F]
variable {t tm1 nmds nhat rows cols nround npart : Nat}

theorem loopN_map' {σ τ : Type _} (f : Nat → τ → σ) (body : Nat → σ → R σ) (step : Nat → τ → R τ) :
    ∀ (n i : Nat) (x : τ),
      (∀ j x, i ≤ j → j < i + n → body j (f j x) = f (j + 1) <$> step j x) →
      loopN body n i (f i x) = f (i + n) <$> loopN step n i x := by
  intro n
  induction n with
  | zero => intro i x _; rfl
  | succ n ih =>
    intro i x h
    rw [loopN, loopN, h i x le_rfl (by omega)]
    cases step i x with
    | error e => rfl
    | ok y =>
      show loopN body n (i + 1) (f (i + 1) y) = f (i + (n + 1)) <$> loopN step n (i + 1) y
      rw [ih _ _ (fun j x h1 h2 => h j x (by omega) (by omega)), show i + 1 + n = i + (n + 1) by omega]

theorem loopN_shift {σ : Type _} (body : Nat → σ → R σ) : ∀ (n i d : Nat) (s : σ),
    loopN (fun j => body (j + d)) n i s = loopN body n (i + d) s := by
  intro n
  induction n with
  | zero => intros; rfl
  | succ n ih =>
    intro i d s
    rw [loopN, loopN]
    congr 1
    funext s
    rw [ih, show i + 1 + d = i + d + 1 by omega]

theorem ofFn_get (s : Vector F t) : Vector.ofFn (fun i : Fin t => s[i]) = s := by
  ext i hi; simp

theorem aget_ofFn (x : Fin t → F) {i : Nat} (hi : i < t) : aget (Vector.ofFn x) i = .ok (x ⟨i, hi⟩) := by
  rw [aget_lt _ hi]; simp

theorem aset_ofFn (x : Fin t → F) {i : Nat} (hi : i < t) (y : F) :
    aset (Vector.ofFn x) i y = .ok (Vector.ofFn (Function.update x ⟨i, hi⟩ y)) := by
  rw [aset_lt _ _ hi]
  congr 1
  ext j hj
  rw [Vector.getElem_set, Vector.getElem_ofFn, Vector.getElem_ofFn, Function.update_apply]
  by_cases h : i = j
  · subst h; simp
  · simp [h, Fin.ext_iff, Ne.symm h]

theorem sbox_eq (a : Alpha) (x : F) :
    sbox a x = if a.Defined x then .ok (a.val x) else .error .divZero := by
  cases a with
  | exponent e => simp [sbox, Alpha.Defined, Alpha.val]
  | inverse =>
    simp only [sbox, fdiv, Alpha.Defined, Alpha.val, one_mul]
    by_cases h : x = 0 <;> simp [h]

theorem partialSubWords_eq (ht : 0 < t) (a : Alpha) (x : Fin t → F) :
    partialSubWords a (Vector.ofFn x) = if a.Defined (x ⟨0, ht⟩) then
      .ok (Vector.ofFn (Function.update x ⟨0, ht⟩ (a.val (x ⟨0, ht⟩)))) else .error .divZero := by
  rw [partialSubWords, aget_ofFn x ht, ok_bind, sbox_eq]
  split
  · rw [ok_bind, aset_ofFn x ht]
  · rfl

theorem fullSubWords_eq (a : Alpha) (x : Fin t → F) :
    fullSubWords a (Vector.ofFn x) = if ∀ i, a.Defined (x i) then
      .ok (Vector.ofFn fun i => a.val (x i)) else .error .divZero := by
  have aux : ∀ q, q ≤ t → (forRange 0 q (Vector.ofFn x) fun i s => do
      let y ← aget s i
      let z ← sbox a y
      aset s i z) = if ∀ i : Fin t, i.val < q → a.Defined (x i) then
        .ok (Vector.ofFn fun i => if i.val < q then a.val (x i) else x i) else .error .divZero := by
    intro q
    induction q with
    | zero => intro _; simp [forRange_self]
    | succ q ih =>
      intro hq
      rw [forRange_succ (Nat.zero_le _), ih (by omega)]
      by_cases h1 : ∀ i : Fin t, i.val < q → a.Defined (x i)
      · rw [if_pos h1, ok_bind, aget_ofFn _ (by omega : q < t), ok_bind, if_neg (by simp), sbox_eq]
        by_cases h2 : a.Defined (x ⟨q, by omega⟩)
        · rw [if_pos h2, ok_bind, aset_ofFn _ (by omega : q < t), if_pos]
          · congr 2
            funext i
            rw [Function.update_apply]
            by_cases h3 : i.val = q
            · have : i = ⟨q, by omega⟩ := Fin.ext h3
              rw [this]; simp
            · have h4 : i ≠ ⟨q, by omega⟩ := fun h => h3 (congrArg Fin.val h)
              rw [if_neg h4]
              congr 1
              simp only [eq_iff_iff]; omega
          · intro i hi
            by_cases h3 : i.val = q
            · have : i = ⟨q, by omega⟩ := Fin.ext h3
              rw [this]; exact h2
            · exact h1 i (by omega)
        · rw [if_neg h2, if_neg]
          · rfl
          · intro h; exact h2 (h ⟨q, by omega⟩ (by simp))
      · rw [if_neg h1, if_neg]
        · rfl
        · intro h; exact h1 (fun i hi => h i (by omega))
  rw [fullSubWords, aux t le_rfl]
  simp

theorem mixLayer_eq (ht : 0 < t) (h : nmds = t * t) (m : Mat F t t nmds) (x : Fin t → F) :
    mixLayer m (Vector.ofFn x) = .ok (Vector.ofFn ((m.toM h).mulVec x)) := by
  rw [mixLayer, iterRows_eq ht h, ok_bind]
  obtain ⟨s, h1, h2⟩ := forList_spec (fun q (new : Vector F t) => ∀ p (hp : p < t), p < q →
      new[p] = (m.toM h).mulVec x ⟨p, hp⟩)
    (body := fun (e : List F × Nat) new =>
      aset new e.2 (fsum (List.zipWith (· * ·) e.1 (Vector.ofFn x).toList)))
    (List.ofFn fun i : Fin t => List.ofFn fun j : Fin t => m.toM h i j).zipIdx 0
    (Vector.replicate t 0) (fun _ _ hh => by omega) (by
      intro j hj new hinv
      have hj' : j < t := by simpa using hj
      refine ⟨new.set j ((m.toM h).mulVec x ⟨j, hj'⟩) hj', ?_, ?_⟩
      · have hd := dotProduct_ofFn (fun l => m.toM h ⟨j, hj'⟩ l) x
        rw [dotProduct, if_neg (by simp)] at hd
        injection hd with hd
        rw [List.getElem_zipIdx]
        simp only [Nat.zero_add, List.getElem_ofFn, Vector.toList_ofFn, hd]
        rw [aset_lt _ _ hj']; rfl
      · intro p hp hp'
        rw [Vector.getElem_set]
        split
        · next heq => subst heq; rfl
        · next hne => exact hinv p hp (by omega))
  rw [h1]
  congr 1
  ext p hp
  rw [h2 p hp (by simpa using hp), Vector.getElem_ofFn]

/-- An elementwise loop that adds one known value per word. -/
theorem addLoop (x c : Fin t → F) (k : Nat → R F) (hk : ∀ i (hi : i < t), k i = .ok (c ⟨i, hi⟩)) :
    (forRange 0 t (Vector.ofFn x) fun i s => do
      let y ← aget s i
      let z ← k i
      aset s i (y + z)) = .ok (Vector.ofFn (x + c)) := by
  obtain ⟨s, h1, h2⟩ := forRange_spec (fun q (s : Vector F t) =>
      s = Vector.ofFn fun i => if i.val < q then x i + c i else x i)
    (body := fun i s => do
      let y ← aget s i
      let z ← k i
      aset s i (y + z)) (lo := 0) (hi := t) (Nat.zero_le _) (s := Vector.ofFn x) (by simp) (by
      intro q s _ hq hs
      refine ⟨_, ?_, rfl⟩
      rw [hs, aget_ofFn _ hq, ok_bind, hk q hq, ok_bind, aset_ofFn _ hq, if_neg (by simp)]
      congr 2
      funext i
      rw [Function.update_apply]
      by_cases h3 : i = ⟨q, hq⟩
      · subst h3; simp
      · have : i.val ≠ q := fun h => h3 (Fin.ext h)
        rw [if_neg h3]
        congr 1
        simp only [eq_iff_iff]; omega)
  rw [h1, h2]
  congr 2
  funext i
  simp

theorem addRow_eq (h : nround = rows * t) (arc : Mat F rows t nround) {row : Nat} (hr : row < rows)
    (x : Fin t → F) :
    addRow arc row (Vector.ofFn x) = .ok (Vector.ofFn (x + arc.toM h ⟨row, hr⟩)) := by
  rw [addRow]
  exact addLoop x _ (fun i => arc.get row i) (fun i hi => Mat.get_eq h arc hr hi)

theorem addLinear_eq (h : nround = rows * t) (arc : Mat F rows t nround) {row : Nat} (hr : row < rows)
    (x : Fin t → F) :
    addLinear arc (Vector.ofFn x, row * t) =
      .ok (Vector.ofFn (x + arc.toM h ⟨row, hr⟩), (row + 1) * t) := by
  rw [addLinear]
  have := loopN_map' (fun j (s : Vector F t) => (s, row * t + j))
    (fun i (x : Vector F t × Nat) => do
      let y ← aget x.1 i
      let k ← aget arc.elements x.2
      let s ← aset x.1 i (y + k)
      return (s, x.2 + 1))
    (fun i s => do
      let y ← aget s i
      let z ← arc.get row i
      aset s i (y + z)) t 0 (Vector.ofFn x) (by
        intro j s _ hj
        simp only [Mat.get]
        cases aget s j with
        | error e => rfl
        | ok y =>
          cases aget arc.elements (row * t + j) with
          | error e => rfl
          | ok z =>
            simp only [ok_bind]
            cases aset s j (y + z) <;> rfl)
  have h2 := addLoop x (arc.toM h ⟨row, hr⟩) (fun i => arc.get row i) (fun i hi => Mat.get_eq h arc hr hi)
  rw [forRange, Nat.sub_zero] at h2
  rw [h2] at this
  rw [forRange, Nat.sub_zero]
  refine this.trans ?_
  rw [map_ok, Nat.succ_mul, Nat.zero_add]

/-! ### One textbook round, as the code performs it -/

/-- `textbookRound` in the panic monad. -/
def roundR (a : Alpha) (M : Matrix (Fin t) (Fin t) F) (full : Bool) (c x : Fin t → F) :
    R (Fin t → F) :=
  if ∀ i, Active full i → a.Defined (x i + c i) then
    .ok (M.mulVec fun i => if Active full i then a.val (x i + c i) else x i + c i)
  else .error .divZero

theorem roundR_full (ht : 0 < t) (h : nmds = t * t) (a : Alpha) (m : Mat F t t nmds) (c x : Fin t → F) :
    (do let s ← fullSubWords a (Vector.ofFn (x + c))
        mixLayer m s) = Vector.ofFn <$> roundR a (m.toM h) true c x := by
  rw [fullSubWords_eq, roundR]
  simp only [Active, true_or, forall_true_left, if_true, Pi.add_apply]
  by_cases h1 : ∀ i, a.Defined (x i + c i)
  · rw [if_pos h1, if_pos h1, ok_bind, mixLayer_eq ht h, map_ok]
  · rw [if_neg h1, if_neg h1]; rfl

theorem roundR_partial (ht : 0 < t) (h : nmds = t * t) (a : Alpha) (m : Mat F t t nmds) (c x : Fin t → F) :
    (do let s ← partialSubWords a (Vector.ofFn (x + c))
        mixLayer m s) = Vector.ofFn <$> roundR a (m.toM h) false c x := by
  rw [partialSubWords_eq ht, roundR]
  have h0 : (∀ i : Fin t, Active false i → a.Defined (x i + c i)) ↔ a.Defined ((x + c) ⟨0, ht⟩) := by
    constructor
    · intro hh; exact hh ⟨0, ht⟩ (Or.inr rfl)
    · intro hh i hi
      have : i = ⟨0, ht⟩ := by
        rcases hi with hi | hi
        · cases hi
        · exact Fin.ext hi
      subst this; exact hh
  by_cases h1 : a.Defined ((x + c) ⟨0, ht⟩)
  · rw [if_pos h1, if_pos (h0.2 h1), ok_bind, mixLayer_eq ht h, map_ok]
    congr 4
    funext i
    rw [Function.update_apply]
    by_cases h2 : i = ⟨0, ht⟩
    · subst h2; simp [Active]
    · have : ¬ Active false i := by
        rintro (hh | hh)
        · cases hh
        · exact h2 (Fin.ext hh)
      rw [if_neg h2, if_neg this]; rfl
  · rw [if_neg h1, if_neg (fun hh => h1 (h0.1 hh))]; rfl

/-- Spec fold = loop in the panic monad. -/
theorem foldlM_eq_loopN : ∀ (n : Nat) (g : Fin n → (Fin t → F) → Option (Fin t → F)) (i : Nat)
    (step : Nat → (Fin t → F) → R (Fin t → F)) (x : Fin t → F),
    (∀ (j : Fin n) x, Vector.ofFn <$> step (i + j.val) x = reported (g j x)) →
    Vector.ofFn <$> loopN step n i x = reported ((List.finRange n).foldlM (fun x r => g r x) x) := by
  intro n
  induction n with
  | zero => intro g i step x _; rfl
  | succ n ih =>
    intro g i step x h
    rw [List.finRange_succ, List.foldlM_cons, loopN]
    have h0 := h 0 x
    rw [Fin.val_zero, Nat.add_zero] at h0
    cases hg : g 0 x with
    | none =>
      rw [hg] at h0
      cases hs : step i x with
      | ok y => rw [hs] at h0; simp [reported] at h0
      | error e => rw [hs] at h0; simpa using h0
    | some y =>
      rw [hg] at h0
      cases hs : step i x with
      | error e => rw [hs] at h0; simp [reported] at h0
      | ok z =>
        rw [hs] at h0
        have hz : z = y := by
          have h0' : Vector.ofFn z = Vector.ofFn y := by simpa [reported] using h0
          funext j
          have := congrArg (fun v : Vector F t => v[j]) h0'
          simpa using this
        subst hz
        show Vector.ofFn <$> loopN step n (i + 1) z = _
        rw [ih (fun j => g j.succ) (i + 1) step z]
        · show _ = reported (List.foldlM (fun x r => g r x) z (List.map Fin.succ (List.finRange n)))
          rw [List.foldlM_map]
        · intro j x
          have := h j.succ x
          rwa [Fin.val_succ, show i + (j.val + 1) = i + 1 + j.val by omega] at this

theorem roundR_eq (a : Alpha) (M : Matrix (Fin t) (Fin t) F) (full : Bool) (c x : Fin t → F) :
    Vector.ofFn <$> roundR a M full c x = reported (textbookRound a M full c x) := by
  rw [roundR, textbookRound]
  split <;> rfl

/-- The textbook permutation as three loops over represented states; `C` is indexed by naturals and
only its values below `rf + rp + rf` matter. -/
theorem textbook_eq_loops (a : Alpha) (M : Matrix (Fin t) (Fin t) F) (rf rp : Nat)
    (C : Fin (rf + rp + rf) → Fin t → F) (C' : Nat → Fin t → F) (hC : ∀ r, C' r.val = C r)
    (x : Fin t → F) :
    reported (textbook a M rf rp C x) = Vector.ofFn <$> (do
      let x ← loopN (fun r => roundR a M true (C' r)) rf 0 x
      let x ← loopN (fun r => roundR a M false (C' r)) rp rf x
      loopN (fun r => roundR a M true (C' r)) rf (rf + rp) x) := by
  rw [textbook, ← foldlM_eq_loopN (rf + rp + rf)
    (fun r x => textbookRound a M (decide (r.val < rf ∨ rf + rp ≤ r.val)) (C r) x) 0
    (fun r x => roundR a M (decide (r < rf ∨ rf + rp ≤ r)) (C' r) x)]
  · congr 1
    rw [loopN_add, loopN_add, bind_assoc]
    simp only [Nat.zero_add]
    have e1 : loopN (fun r x => roundR a M (decide (r < rf ∨ rf + rp ≤ r)) (C' r) x) rf 0 x
        = loopN (fun r => roundR a M true (C' r)) rf 0 x := by
      apply loopN_congr
      intro j s _ hj
      rw [show decide (j < rf ∨ rf + rp ≤ j) = true by simp; omega]
    have e2 : ∀ x, loopN (fun r x => roundR a M (decide (r < rf ∨ rf + rp ≤ r)) (C' r) x) rp rf x
        = loopN (fun r => roundR a M false (C' r)) rp rf x := by
      intro x
      apply loopN_congr
      intro j s _ hj
      rw [show decide (j < rf ∨ rf + rp ≤ j) = false by simp; omega]
    have e3 : ∀ x, loopN (fun r x => roundR a M (decide (r < rf ∨ rf + rp ≤ r)) (C' r) x) rf (rf + rp) x
        = loopN (fun r => roundR a M true (C' r)) rf (rf + rp) x := by
      intro x
      apply loopN_congr
      intro j s _ hj
      rw [show decide (j < rf ∨ rf + rp ≤ j) = true by simp; omega]
    rw [e1]
    congr 1
    funext y
    rw [e2]
    congr 1
    funext z
    rw [e3]
  · intro j x
    rw [Nat.zero_add, hC, roundR_eq]

/-- `unoptimized_permute` computes the textbook permutation, for every set of parameters whose
dimensions fit. -/
theorem unoptimizedPermute_eq (p : Params F t tm1 nmds nhat rows t nround npart) (ht : 0 < t)
    (hm : nmds = t * t) (ha : nround = rows * t)
    (hrows : p.rounds.rF / 2 + p.rounds.rP + p.rounds.rF / 2 ≤ rows) (x : Fin t → F) :
    unoptimizedPermute p (Vector.ofFn x) = reported (textbook p.alpha (p.mds.toM hm) (p.rounds.rF / 2)
      p.rounds.rP (fun r => p.arc.toM ha ⟨r.val, lt_of_lt_of_le r.isLt hrows⟩) x) := by
  set C' : Nat → Fin t → F := fun r => if h : r < rows then p.arc.toM ha ⟨r, h⟩ else 0 with hC'
  have hC'' : ∀ r (h : r < rows), C' r = p.arc.toM ha ⟨r, h⟩ := fun r h => by rw [hC']; simp [h]
  rw [textbook_eq_loops _ _ _ _ _ C' (fun r => hC'' _ _)]
  -- bodies
  let fullBody : Nat → Vector F t × Nat → R (Vector F t × Nat) := fun _ st => do
    let (s, counter) ← addLinear p.arc st
    let s ← fullSubWords p.alpha s
    let s ← mixLayer p.mds s
    return (s, counter)
  let partBody : Nat → Vector F t × Nat → R (Vector F t × Nat) := fun _ st => do
    let (s, counter) ← addLinear p.arc st
    let s ← partialSubWords p.alpha s
    let s ← mixLayer p.mds s
    return (s, counter)
  have full : ∀ i, i < rows → ∀ x : Fin t → F, fullBody i (Vector.ofFn x, i * t) =
      (fun x => (Vector.ofFn x, (i + 1) * t)) <$> roundR p.alpha (p.mds.toM hm) true (C' i) x := by
    intro i hi x
    simp only [fullBody]
    rw [addLinear_eq ha p.arc hi, ok_bind, hC'' i hi]
    have := roundR_full ht hm p.alpha p.mds (p.arc.toM ha ⟨i, hi⟩) x
    show (do let s ← fullSubWords p.alpha _; let s ← mixLayer p.mds s; return (s, _)) = _
    rw [← bind_assoc, this]
    cases roundR p.alpha (p.mds.toM hm) true (p.arc.toM ha ⟨i, hi⟩) x <;> rfl
  have part : ∀ i, i < rows → ∀ x : Fin t → F, partBody i (Vector.ofFn x, i * t) =
      (fun x => (Vector.ofFn x, (i + 1) * t)) <$> roundR p.alpha (p.mds.toM hm) false (C' i) x := by
    intro i hi x
    simp only [partBody]
    rw [addLinear_eq ha p.arc hi, ok_bind, hC'' i hi]
    have := roundR_partial ht hm p.alpha p.mds (p.arc.toM ha ⟨i, hi⟩) x
    show (do let s ← partialSubWords p.alpha _; let s ← mixLayer p.mds s; return (s, _)) = _
    rw [← bind_assoc, this]
    cases roundR p.alpha (p.mds.toM hm) false (p.arc.toM ha ⟨i, hi⟩) x <;> rfl
  set rf := p.rounds.rF / 2 with hrf
  set rp := p.rounds.rP with hrp
  have L : ∀ (body : Nat → Vector F t × Nat → R (Vector F t × Nat)) (full : Bool) (m lo : Nat),
      (∀ i j s, body i s = body j s) → lo + m ≤ rows →
      (∀ i, i < rows → ∀ x : Fin t → F, body i (Vector.ofFn x, i * t) =
      (fun x => (Vector.ofFn x, (i + 1) * t)) <$> roundR p.alpha (p.mds.toM hm) full (C' i) x) →
      ∀ x : Fin t → F, forRange 0 m (Vector.ofFn x, lo * t) body =
        (fun x => (Vector.ofFn x, (lo + m) * t)) <$>
        loopN (fun r => roundR p.alpha (p.mds.toM hm) full (C' r)) m lo x := by
    intro body full m lo hb hle hbody x
    have := loopN_map' (fun j (x : Fin t → F) => (Vector.ofFn x, j * t)) body
      (fun r => roundR p.alpha (p.mds.toM hm) full (C' r)) m lo x
      (fun j x _ hj => hbody j (by omega) x)
    have sh := loopN_shift body m 0 lo (Vector.ofFn x, lo * t)
    rw [Nat.zero_add] at sh
    rw [forRange, Nat.sub_zero, ← this, ← sh]
    exact loopN_congr _ _ _ (fun j s _ _ => hb _ _ _)
  have L1 := L fullBody true rf 0 (fun _ _ _ => rfl) (by omega) full
  have L2 := L partBody false rp rf (fun _ _ _ => rfl) (by omega) part
  have L3 := L fullBody true rf (rf + rp) (fun _ _ _ => rfl) (by omega) full
  rw [Nat.zero_mul] at L1
  rw [unoptimizedPermute]
  show (forRange 0 rf (Vector.ofFn x, 0) fullBody >>= fun st => forRange 0 rp st partBody >>= fun st =>
    forRange 0 rf st fullBody >>= fun st => pure st.1) = _
  rw [L1]
  cases loopN (fun r => roundR p.alpha (p.mds.toM hm) true (C' r)) rf 0 x with
  | error e => rfl
  | ok y =>
    rw [map_ok, ok_bind, ok_bind, Nat.zero_add, L2]
    cases loopN (fun r => roundR p.alpha (p.mds.toM hm) false (C' r)) rp rf y with
    | error e => rfl
    | ok z =>
      rw [map_ok, ok_bind, ok_bind, L3]
      cases loopN (fun r => roundR p.alpha (p.mds.toM hm) true (C' r)) rf (rf + rp) z <;> rfl

end Poseidon
