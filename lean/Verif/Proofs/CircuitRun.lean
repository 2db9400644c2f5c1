import Verif.Proofs.R1csRows
import Verif.Proofs.R1csGrow
import Verif.Proofs.Hash

/-!
# Runs of the circuit under assignments that satisfy all rows, or all rows but one

`round_explicit` gives the words after a round as linear combinations of what the S-boxes return, for any assignment.  `rounds_good` and
`rounds_fault` follow a list of rounds when all new rows hold, and when one of them need not hold.
-/

set_option linter.unusedSectionVars false

namespace Poseidon.R1cs

open Matrix

variable {F : Type} [Field F] [DecidableEq F]
variable {t tm1 nmds nhat rows cols nround npart : Nat}

theorem FpVar.hev_eval {σ : Variable → F} (h : σ .one = 1) (x : FpVar F) : x.hev σ = x.eval σ := by
  cases x with
  | constant c => simp [FpVar.hev, FpVar.eval, h]
  | var v => rfl

theorem Ens.and {α : Type} {P Q : α → Prop} {x : R α} (h : Ens P x) (h' : Ens Q x) : Ens (fun a => P a ∧ Q a) x :=
  fun a ha => ⟨h a ha, h' a ha⟩

theorem run_bind_ok {α β : Type} {x : R α} {f : α → R β} {y : β} (h : (x >>= f) = .ok y) : ∃ a, x = .ok a ∧ f a = .ok y := by
  cases x with
  | error e => cases h
  | ok a => exact ⟨a, rfl, h⟩

/-! ### One S-box -/

/-- The row holds under the assignment. -/
def RowHolds (σ : Variable → F) (con : LC F × LC F × LC F) : Prop :=
  LC.eval σ con.1 * LC.eval σ con.2.1 = LC.eval σ con.2.2

/-- What the S-box returns on `x` when its row `b` is missing and the witness of that row is `u`. -/
def boxMap (b : Nat) (x u : F) : F := if b = 4 then u else u ^ (2 ^ (3 - b)) * x

/-- The honest power in row `b` of an S-box. -/
def boxPow (b : Nat) : Nat := if b = 4 then 17 else 2 ^ (b + 1)

theorem sboxRows_holds {σ : Variable → F} {a : LC F} {n : Nat} {b0 : Nat}
    (h : ∀ b con, b ≠ b0 → (sboxRows a n)[b]? = some con → RowHolds σ con) :
    (0 ≠ b0 → LC.eval σ a * LC.eval σ a = σ (.witness n)) ∧
    (1 ≠ b0 → σ (.witness n) * σ (.witness n) = σ (.witness (n + 1))) ∧
    (2 ≠ b0 → σ (.witness (n + 1)) * σ (.witness (n + 1)) = σ (.witness (n + 2))) ∧
    (3 ≠ b0 → σ (.witness (n + 2)) * σ (.witness (n + 2)) = σ (.witness (n + 3))) ∧
    (4 ≠ b0 → σ (.witness (n + 3)) * LC.eval σ a = σ (.witness (n + 4))) := by
  refine ⟨fun hb => ?_, fun hb => ?_, fun hb => ?_, fun hb => ?_, fun hb => ?_⟩
  · have := h 0 _ hb rfl; simpa only [RowHolds, wit_eval] using this
  · have := h 1 _ hb rfl; simpa only [RowHolds, wit_eval] using this
  · have := h 2 _ hb rfl; simpa only [RowHolds, wit_eval] using this
  · have := h 3 _ hb rfl; simpa only [RowHolds, wit_eval] using this
  · have := h 4 _ hb rfl; simpa only [RowHolds, wit_eval] using this

theorem box_good {σ : Variable → F} {a : LC F} {n : Nat} (h : ∀ (b : Nat) con, (sboxRows a n)[b]? = some con → RowHolds σ con) :
    ∀ b, b < 5 → σ (.witness (n + b)) = LC.eval σ a ^ boxPow b := by
  obtain ⟨e0, e1, e2, e3, e4⟩ := sboxRows_holds (b0 := 5) (fun b con _ => h b con)
  have e0 := e0 (by decide)
  have e1 := e1 (by decide)
  have e2 := e2 (by decide)
  have e3 := e3 (by decide)
  have e4 := e4 (by decide)
  intro b hb
  interval_cases b
  · rw [show boxPow 0 = 2 from rfl, Nat.add_zero, ← e0]; ring
  · rw [show boxPow 1 = 4 from rfl, ← e1, ← e0]; ring
  · rw [show boxPow 2 = 8 from rfl, ← e2, ← e1, ← e0]; ring
  · rw [show boxPow 3 = 16 from rfl, ← e3, ← e2, ← e1, ← e0]; ring
  · rw [show boxPow 4 = 17 from rfl, ← e4, ← e3, ← e2, ← e1, ← e0]; ring

theorem box_fault {σ : Variable → F} {a : LC F} {n b0 : Nat} (hb : b0 < 5)
    (h : ∀ b con, b ≠ b0 → (sboxRows a n)[b]? = some con → RowHolds σ con) :
    σ (.witness (n + 4)) = boxMap b0 (LC.eval σ a) (σ (.witness (n + b0))) := by
  obtain ⟨e0, e1, e2, e3, e4⟩ := sboxRows_holds h
  interval_cases b0
  · rw [← e4 (by decide), ← e3 (by decide), ← e2 (by decide), ← e1 (by decide)]; rw [boxMap, if_neg (by decide)]; simp only [Nat.add_zero]; ring_nf
  · rw [← e4 (by decide), ← e3 (by decide), ← e2 (by decide)]; rw [boxMap, if_neg (by decide)]; ring_nf
  · rw [← e4 (by decide), ← e3 (by decide)]; rw [boxMap, if_neg (by decide)]; ring_nf
  · rw [← e4 (by decide)]; rw [boxMap, if_neg (by decide)]; ring_nf
  · simp [boxMap]

theorem sboxRows_length (a : LC F) (n : Nat) : (sboxRows a n).length = 5 := rfl

theorem rowsOf_length (as : List (LC F)) : ∀ n, (rowsOf n as).length = 5 * as.length := by
  induction as with
  | nil => intro n; rfl
  | cons a as ih => intro n; rw [rowsOf, List.length_append, ih, sboxRows_length, List.length_cons]; ring

theorem rowsOf_get (as : List (LC F)) : ∀ (n m b : Nat) (hm : m < as.length), b < 5 →
    (rowsOf n as)[5 * m + b]? = (sboxRows as[m] (n + 5 * m))[b]? := by
  induction as with
  | nil => intro n m b hm; exact absurd hm (by simp)
  | cons a as ih =>
    intro n m b hm hb
    rw [rowsOf]
    cases m with
    | zero =>
      rw [List.getElem?_append_left (by rw [sboxRows_length]; omega)]
      simp
    | succ m =>
      rw [List.getElem?_append_right (by rw [sboxRows_length]; omega), sboxRows_length,
        show 5 * (m + 1) + b - 5 = 5 * m + b by omega, ih (n + 5) m b (by simpa using hm) hb, List.getElem_cons_succ,
        show n + 5 + 5 * m = n + 5 * (m + 1) by ring]

/-! ### One round, for any assignment -/

theorem pow17_const_eval (c : F) (cs : CS F) :
    Ens (fun r => ∀ σ : Variable → F, r.1.eval σ = c ^ 17) ((FpVar.constant c).powByConstant 17 cs) := by
  unfold FpVar.powByConstant
  rw [bits17]
  refine Ens.ok fun σ => ?_
  simp only [FpVar.eval]
  ring

theorem addRoundConstants_eval (arc : Mat F rows cols nround) (s : List (FpVar F)) (counter : Nat) :
    Ens (fun r => r.2 = counter + t ∧ r.1.length = s.length ∧ ∀ i (h : i < s.length) (h' : i < r.1.length), r.1[i].isVar = s[i].isVar ∧
      (i < t → ∀ k, arc.elements[counter + i]? = some k → ∀ σ : Variable → F, σ .one = 1 → r.1[i].eval σ = s[i].eval σ + k))
      (addRoundConstants t arc s counter) := by
  unfold addRoundConstants
  refine (Ens.forRange (Inv := fun j (r : List (FpVar F) × Nat) => r.2 = counter + j ∧ r.1.length = s.length ∧
    ∀ i (h : i < s.length) (h' : i < r.1.length), r.1[i].isVar = s[i].isVar ∧
      (j ≤ i → r.1[i] = s[i]) ∧
      (i < j → ∀ k, arc.elements[counter + i]? = some k → ∀ σ : Variable → F, σ .one = 1 → r.1[i].eval σ = s[i].eval σ + k))
    (Nat.zero_le _) ⟨rfl, rfl, fun i _ _ => ⟨rfl, fun _ => rfl, fun h => absurd h (by omega)⟩⟩ ?_).mono ?_
  · rintro i ⟨s', c⟩ _ hi ⟨h0, h1, h2⟩
    dsimp only at h0 h1 h2 ⊢
    subst h0
    by_cases hi' : i < s'.length
    · rw [lget_lt _ hi', ok_bind]
      refine Ens.bind (Q := fun k => arc.elements[counter + i]? = some k) ?_ fun k hk => ?_
      · intro k hk
        unfold aget at hk
        split at hk
        · next hlt => cases hk; exact Vector.getElem?_eq_getElem hlt
        · cases hk
      rw [lset_lt _ hi', ok_bind]
      refine Ens.ok ⟨by simp only [Nat.add_assoc], by simp [h1], fun j hj hj' => ?_⟩
      dsimp only
      rw [List.getElem_set]
      split
      · next e =>
        subst e
        obtain ⟨h3, h4, -⟩ := h2 i hj hi'
        refine ⟨by rw [addConstant_isVar, h3], fun h => absurd h (by omega), fun _ k' hk' σ hσ => ?_⟩
        rw [hk] at hk'
        cases hk'
        rw [addConstant_eval hσ, h4 le_rfl]
      · next e =>
        obtain ⟨h3, h4, h5⟩ := h2 j hj (by simpa using hj')
        exact ⟨h3, fun h => h4 (by omega), fun h => h5 (by omega)⟩
    · rw [lget_ge _ (by omega)]
      exact Ens.error
  · rintro ⟨s', c⟩ ⟨h0, h1, h2⟩
    exact ⟨h0, h1, fun i h h' => ⟨(h2 i h h').1, (h2 i h h').2.2⟩⟩

theorem subWord_eval (s : List (FpVar F)) (cs : CS F) (i : Nat) :
    Ens (fun r => ∃ (h : i < s.length) (y : FpVar F), r.1 = s.set i y ∧
      (s[i].isVar = false → ∀ σ : Variable → F, y.eval σ = s[i].eval σ ^ 17)) (do
      let x ← lget s i
      let (y, cs) ← x.powByConstant 17 cs
      let s ← lset s i y
      return (s, cs)) := by
  by_cases hi : i < s.length
  · rw [lget_lt _ hi, ok_bind]
    refine Ens.bind (Q := fun r => s[i].isVar = false → ∀ σ : Variable → F, r.1.eval σ = s[i].eval σ ^ 17) ?_ ?_
    · generalize s[i] = x
      cases x with
      | constant c => exact (pow17_const_eval c cs).mono fun r h _ σ => h σ
      | var v => exact fun _ _ h => by cases h
    rintro ⟨y, cs'⟩ h
    dsimp only at h ⊢
    rw [lset_lt _ hi, ok_bind]
    exact Ens.ok ⟨hi, y, rfl, h⟩
  · rw [lget_ge _ (by omega)]
    exact Ens.error

theorem fullSubWords_consts (s : List (FpVar F)) (hs : s.length = t) (cs : CS F) :
    Ens (fun r => r.1.length = t ∧ ∀ i (hi : i < r.1.length) (h : i < s.length), s[i].isVar = false →
      ∀ σ : Variable → F, r.1[i].eval σ = s[i].eval σ ^ 17) (fullSubWords t (.exponent 17) s cs) := by
  unfold fullSubWords
  refine (Ens.forRange (Inv := fun j (r : List (FpVar F) × CS F) => r.1.length = t ∧ ∀ i (hi : i < r.1.length) (h : i < s.length),
      (j ≤ i → r.1[i] = s[i]) ∧ (i < j → s[i].isVar = false → ∀ σ : Variable → F, r.1[i].eval σ = s[i].eval σ ^ 17))
      (Nat.zero_le _) ⟨hs, fun i _ _ => ⟨fun _ => rfl, fun h => absurd h (by omega)⟩⟩ ?_).mono ?_
  · rintro j ⟨s', cs'⟩ _ hj ⟨h1, h2⟩
    dsimp only at h1 h2 ⊢
    refine (subWord_eval s' cs' j).mono ?_
    rintro ⟨_, cs''⟩ ⟨hjl, y, rfl, k1⟩
    dsimp only at k1 ⊢
    refine ⟨by simp [h1], fun i hi h => ?_⟩
    rw [List.getElem_set]
    split
    · next e =>
      subst e
      refine ⟨fun h => absurd h (by omega), fun _ hv σ => ?_⟩
      have := (h2 j hjl h).1 le_rfl
      rw [this] at k1
      exact k1 hv σ
    · next e =>
      obtain ⟨q1, q2⟩ := h2 i (by simpa using hi) h
      exact ⟨fun h => q1 (by omega), fun h => q2 (by omega)⟩
  · rintro ⟨s', cs'⟩ ⟨h1, h2⟩
    exact ⟨h1, fun i hi h => (h2 i hi h).2 (by omega)⟩

/-- A round under any assignment: inputs of the S-boxes and new words. -/
theorem round_explicit (p : Params F t tm1 nmds nhat rows cols nround npart) (ha : p.alpha = .exponent 17) (ht : 0 < t)
    (hm : nmds = t * t) (full : Bool) (s : List (FpVar F)) (counter : Nat) (cs : CS F) (hs : s.length = t) {c : Nat}
    (hv : ∀ i (hi : i < s.length), s[i].isVar = decide (c ≤ i)) (hf : full = false → c = 0) :
    Ens (fun r => ∃ as, Boxes as cs r.2.2 ∧ as.length = (if full then t - c else 1) ∧ r.2.1 = counter + t ∧ r.1.length = t ∧
      (∀ i (hi : i < r.1.length), r.1[i].isVar = true) ∧
      ∀ kc : Fin t → F, (∀ j : Fin t, p.arc.elements[counter + j.val]? = some (kc j)) → ∀ σ : Variable → F, σ .one = 1 →
        (∀ j : Fin t, Active full j → c ≤ j.val → ∃ h : j.val - c < as.length, LC.eval σ as[j.val - c] = (s[j.val]'(by omega)).eval σ + kc j) ∧
        ∀ i (hi : i < r.1.length) (hi' : i < t), r.1[i].eval σ = ∑ j : Fin t, p.mds.toM hm ⟨i, hi'⟩ j *
          (if Active full j then (if c ≤ j.val then σ (.witness (cs.numWitness + 5 * (j.val - c) + 4))
              else ((s[j.val]'(by omega)).eval σ + kc j) ^ 17)
            else (s[j.val]'(by omega)).eval σ + kc j))
      (round p full (s, counter, cs)) := by
  unfold round
  dsimp only
  refine Ens.bind (addRoundConstants_eval (t := t) p.arc s counter) ?_
  rintro ⟨s1, counter'⟩ ⟨h0, h1, h2⟩
  dsimp only at h0 h1 h2 ⊢
  subst h0
  have hv1 : ∀ i (hi : i < s1.length), s1[i].isVar = decide (c ≤ i) := fun i hi => by
    rw [(h2 i (by omega) hi).1, hv]
  cases full with
  | true =>
    simp only [if_true]
    rw [ha]
    refine Ens.bind (Ens.and (fullSubWords_rows s1 (h1.trans hs) cs hv1) (fullSubWords_consts s1 (h1.trans hs) cs)) ?_
    rintro ⟨s2, cs2⟩ ⟨⟨k1, k2, k3⟩, -, k4⟩
    dsimp only at k1 k2 k3 k4 ⊢
    refine Ens.bind (mixLayer_hev ht hm p.mds k2 cs2) ?_
    rintro ⟨s3, cs3⟩ ⟨rfl, m1, m2, m3⟩
    refine Ens.ok ⟨_, k1, by simp [h1, hs], rfl, m1, m2, fun kc hk σ hσ => ⟨?_, fun i hi hi' => ?_⟩⟩
    · intro j _ hcj
      have hjl : j.val < s1.length := by omega
      refine ⟨by simp; omega, ?_⟩
      simp only [List.getElem_map, List.getElem_drop]
      have e : c + (j.val - c) = j.val := by omega
      simp only [e]
      rw [← FpVar.hev_lcD (by rw [hv1 _ hjl]; simpa using hcj), FpVar.hev_eval hσ, (h2 j.val (by omega) hjl).2 j.isLt _ (hk j) σ hσ]
    · dsimp only
      rw [← FpVar.hev_eval hσ, m3 σ i hi hi']
      refine Finset.sum_congr rfl fun j _ => ?_
      obtain ⟨q1, q2⟩ := k3 j.val (by omega)
      rw [if_pos (show Active true j from Or.inl rfl)]
      congr 1
      have hjl : j.val < s1.length := by omega
      by_cases hcj : c ≤ j.val
      · rw [if_pos hcj, FpVar.hev_lcD (by rw [q1, decide_eq_true hcj]), q2 hcj, wit_eval]
      · rw [if_neg hcj, FpVar.hev_eval hσ, k4 j.val (by omega) hjl (by rw [hv1 _ hjl, decide_eq_false hcj]),
          (h2 j.val (by omega) hjl).2 j.isLt _ (hk j) σ hσ]
  | false =>
    obtain rfl := hf rfl
    simp only [Bool.false_eq_true, if_false]
    rw [ha]
    refine Ens.bind (Q := _) (subWord_rows s1 cs 0) ?_
    rintro ⟨_, cs2⟩ ⟨k0, y, rfl, k1, -, k3⟩
    dsimp only at k1 k3 ⊢
    have hv0 : s1[0].isVar = true := by rw [hv1 0 k0]; rfl
    obtain ⟨k4, k5⟩ := k3 hv0
    refine Ens.bind (mixLayer_hev ht hm p.mds (s := s1.set 0 y) (by simp [h1, hs]) cs2) ?_
    rintro ⟨s3, cs3⟩ ⟨rfl, m1, m2, m3⟩
    refine Ens.ok ⟨_, k5, rfl, rfl, m1, m2, fun kc hk σ hσ => ⟨?_, fun i hi hi' => ?_⟩⟩
    · intro j hj _
      have hj0 : j.val = 0 := by
        rcases hj with h | h
        · cases h
        · exact h
      refine ⟨by simp [hj0], ?_⟩
      have hjl : j.val < s1.length := by omega
      have := (h2 j.val (by omega) hjl).2 j.isLt _ (hk j) σ hσ
      rw [← this]
      simp only [hj0, List.getElem_cons_zero, Nat.sub_zero]
      rw [← FpVar.hev_lcD hv0, FpVar.hev_eval hσ]
    · dsimp only
      rw [← FpVar.hev_eval hσ, m3 σ i hi hi']
      refine Finset.sum_congr rfl fun j _ => ?_
      congr 1
      simp only [List.getElem_set]
      have hact : Active false j ↔ j.val = 0 := ⟨fun h => h.resolve_left (by simp), Or.inr⟩
      by_cases hj : j.val = 0
      · rw [if_pos (hact.2 hj), if_pos (Nat.zero_le _)]
        simp only [hj, if_true]
        rw [FpVar.hev_lcD (k1.trans hv0), k4, wit_eval]
      · rw [if_neg (Ne.symm hj), if_neg (fun h => hj (hact.1 h)), FpVar.hev_eval hσ,
          (h2 j.val (by omega) (by omega)).2 j.isLt _ (hk j) σ hσ]

/-! ### Lists of rounds -/

/-- Rounds numbered from `r` on -/
def foldRounds (M : Matrix (Fin t) (Fin t) F) (C : Nat → Fin t → F) (r : Nat) (l : List Bool) (x : Fin t → F) : Fin t → F :=
  (l.zipIdx r).foldl (fun x p => roundE 17 M p.1 (C p.2) x) x

theorem foldRounds_nil (M : Matrix (Fin t) (Fin t) F) (C : Nat → Fin t → F) (r : Nat) (x : Fin t → F) : foldRounds M C r [] x = x := rfl

theorem foldRounds_cons (M : Matrix (Fin t) (Fin t) F) (C : Nat → Fin t → F) (r : Nat) (b : Bool) (l : List Bool) (x : Fin t → F) :
    foldRounds M C r (b :: l) x = foldRounds M C (r + 1) l (roundE 17 M b (C r) x) := rfl

/-- The values of the words of a state -/
def wordsOf (σ : Variable → F) (s : List (FpVar F)) (hs : s.length = t) : Fin t → F := fun j => (s[j.val]'(by omega)).eval σ

/-- Row number `k` of the system holds (if there is one). -/
def RowOk (σ : Variable → F) (cs : CS F) (k : Nat) : Prop := ∀ con, cs.constraints[k]? = some con → RowHolds σ con

theorem RowOk.of_append {σ : Variable → F} {cs cs' : CS F} {ext : List (LC F × LC F × LC F)} (h : cs'.constraints = cs.constraints ++ ext)
    {k : Nat} (hk : k < cs.constraints.length) : RowOk σ cs' k ↔ RowOk σ cs k := by
  unfold RowOk
  rw [h, List.getElem?_append_left hk]

theorem Boxes.length {as : List (LC F)} {cs cs' : CS F} (h : Boxes as cs cs') :
    cs'.constraints.length = cs.constraints.length + 5 * as.length := by rw [h.1, List.length_append, rowsOf_length]

/-- The rows of one S-box among the rows of the system. -/
theorem Boxes.row {as : List (LC F)} {cs cs' : CS F} (h : Boxes as cs cs') {m : Nat} (hm : m < as.length) {b : Nat} (hb : b < 5) :
    cs'.constraints[cs.constraints.length + 5 * m + b]? = (sboxRows as[m] (cs.numWitness + 5 * m))[b]? := by
  rw [h.1, List.getElem?_append_right (by omega), ← rowsOf_get as cs.numWitness m b hm hb]
  congr 1; omega

theorem Boxes.sbox_rows {as : List (LC F)} {cs cs' : CS F} (h : Boxes as cs cs') {m : Nat} (hm : m < as.length) {σ : Variable → F}
    {P : Nat → Prop} (hr : ∀ b, b < 5 → P b → RowOk σ cs' (cs.constraints.length + 5 * m + b)) :
    ∀ b con, P b → (sboxRows as[m] (cs.numWitness + 5 * m))[b]? = some con → RowHolds σ con := by
  intro b con hP hcon
  have hb : b < 5 := by
    by_contra hb
    rw [List.getElem?_eq_none (by rw [sboxRows_length]; omega)] at hcon
    cases hcon
  exact hr b hb hP con (by rw [h.row hm hb]; exact hcon)

section
variable (p : Params F t tm1 nmds nhat rows cols nround npart) (ha : p.alpha = .exponent 17) (ht : 0 < t) (hm : nmds = t * t)
  {C : Nat → Fin t → F} {N : Nat} (hC : ∀ r, r < N → ∀ j : Fin t, p.arc.elements[r * t + j.val]? = some (C r j))

/-- The layer of S-boxes with the word `j` replaced by `y`. -/
def layerWith (full : Bool) (c x : Fin t → F) (j : Fin t) (y : F) : Fin t → F :=
  Function.update (fun i => if Active full i then (x i + c i) ^ 17 else x i + c i) j y

include ha ht hC in
/-- One round: when all its rows hold, and when all but one hold. -/
theorem round_run (full : Bool) {s : List (FpVar F)} {r : Nat} (hr : r < N) {cs : CS F} (hs : s.length = t) {c : Nat}
    (hv : ∀ i (hi : i < s.length), s[i].isVar = decide (c ≤ i)) (hf : full = false → c = 0) (hct : c < t)
    {st : List (FpVar F) × Nat × CS F} (hst : round p full (s, r * t, cs) = .ok st) :
    ∃ (hs' : st.1.length = t) (ext : List (LC F × LC F × LC F)), st.2.1 = (r + 1) * t ∧
      st.2.2.constraints = cs.constraints ++ ext ∧ st.2.2.numWitness = cs.numWitness + ext.length ∧
      (∀ i (hi : i < st.1.length), st.1[i].isVar = true) ∧
      (∀ σ : Variable → F, σ .one = 1 → (∀ k, cs.constraints.length ≤ k → RowOk σ st.2.2 k) →
        wordsOf σ st.1 hs' = roundE 17 (p.mds.toM hm) full (C r) (wordsOf σ s hs)) ∧
      ∀ k, cs.constraints.length ≤ k → k < st.2.2.constraints.length → ∃ (j : Fin t) (b : Nat), b < 5 ∧ Active full j ∧ c ≤ j.val ∧
        ∀ σ : Variable → F, σ .one = 1 → (∀ i, cs.constraints.length ≤ i → i ≠ k → RowOk σ st.2.2 i) →
          wordsOf σ st.1 hs' = (p.mds.toM hm).mulVec (layerWith full (C r) (wordsOf σ s hs) j
            (boxMap b (wordsOf σ s hs j + C r j) (σ (.witness (cs.numWitness + (k - cs.constraints.length)))))) ∧
          (RowOk σ st.2.2 k → σ (.witness (cs.numWitness + (k - cs.constraints.length))) = (wordsOf σ s hs j + C r j) ^ boxPow b) := by
  obtain ⟨as, h1, h2, h3, h4, h5, h6⟩ := round_explicit p ha ht hm full s (r * t) cs hs hv hf st hst
  replace h6 := h6 (C r) (hC r hr)
  have hw : ∀ (σ : Variable → F) (g : Fin t → F), (∀ i : Fin t, (st.1[i.val]'(by omega)).eval σ = ∑ j : Fin t, p.mds.toM hm i j * g j) →
      wordsOf σ st.1 h4 = (p.mds.toM hm).mulVec g := fun σ g h => funext fun i => h i
  refine ⟨h4, _, by rw [h3]; ring, h1.1, by rw [h1.2, rowsOf_length], h5, fun σ hσ hok => ?_, fun k hk hk' => ?_⟩
  · obtain ⟨e1, e2⟩ := h6 σ hσ
    refine hw σ _ fun i => ?_
    rw [e2 i.val (by omega) i.isLt]
    refine Finset.sum_congr rfl fun j _ => ?_
    congr 1
    by_cases hact : Active full j
    · rw [if_pos hact, if_pos hact]
      by_cases hcj : c ≤ j.val
      · obtain ⟨hlt, e3⟩ := e1 j hact hcj
        rw [if_pos hcj]
        have := box_good (h1.sbox_rows hlt (σ := σ) (P := fun _ => True) (fun b _ _ => hok _ (by omega)) · · trivial) 4 (by decide)
        rw [this, e3]
        rfl
      · rw [if_neg hcj]; rfl
    · rw [if_neg hact, if_neg hact]; rfl
  · rw [h1.length] at hk'
    obtain ⟨m, b, hb, hkm⟩ : ∃ m b, b < 5 ∧ k = cs.constraints.length + 5 * m + b :=
      ⟨(k - cs.constraints.length) / 5, (k - cs.constraints.length) % 5, Nat.mod_lt _ (by decide), by omega⟩
    have hml : m < as.length := by omega
    have hj : ∃ j : Fin t, Active full j ∧ c ≤ j.val ∧ j.val - c = m := by
      cases full with
      | true =>
        simp only [if_true] at h2
        exact ⟨⟨m + c, by omega⟩, Or.inl rfl, by simp, by simp⟩
      | false =>
        simp only [Bool.false_eq_true, if_false] at h2
        have := hf rfl
        exact ⟨⟨0, ht⟩, Or.inr rfl, by simp [this], by simp; omega⟩
    obtain ⟨j, hact, hcj, hjm⟩ := hj
    subst hjm
    refine ⟨j, b, hb, hact, hcj, fun σ hσ hok => ?_⟩
    obtain ⟨e1, e2⟩ := h6 σ hσ
    have hidx : cs.numWitness + (k - cs.constraints.length) = cs.numWitness + 5 * (j.val - c) + b := by omega
    rw [hidx]
    obtain ⟨hlt, e3⟩ := e1 j hact hcj
    refine ⟨hw σ _ fun i => ?_, fun hokk => ?_⟩
    · rw [e2 i.val (by omega) i.isLt]
      refine Finset.sum_congr rfl fun j' _ => ?_
      congr 1
      rw [layerWith, Function.update_apply]
      by_cases hjj : j' = j
      · subst hjj
        rw [if_pos hact, if_pos hcj, if_pos rfl]
        have := box_fault hb (h1.sbox_rows hlt (σ := σ) (P := fun b' => b' ≠ b) (fun b' _ hne => hok _ (by omega) (by omega)))
        rw [this, e3]
        rfl
      · rw [if_neg hjj]
        by_cases hact' : Active full j'
        · rw [if_pos hact', if_pos hact']
          by_cases hcj' : c ≤ j'.val
          · obtain ⟨hlt', e3'⟩ := e1 j' hact' hcj'
            rw [if_pos hcj']
            have hne : j'.val ≠ j.val := fun h => hjj (Fin.ext h)
            have := box_good (h1.sbox_rows hlt' (σ := σ) (P := fun _ => True) (fun b' _ _ => hok _ (by omega) (by omega)) · · trivial) 4
              (by decide)
            rw [this, e3']
            rfl
          · rw [if_neg hcj']; rfl
        · rw [if_neg hact', if_neg hact']; rfl
    · have := box_good (h1.sbox_rows hlt (σ := σ) (P := fun _ => True) (fun b' _ _ => by
        by_cases hbb : b' = b
        · subst hbb
          rw [← hkm]; exact hokk
        · exact hok _ (by omega) (by omega)) · · trivial) b hb
      rw [this, e3]
      rfl

include ha ht hC in
/-- Rounds of which all rows hold. -/
theorem rounds_good : ∀ (l : List Bool) (s : List (FpVar F)) (r : Nat) (cs : CS F) (hs : s.length = t) (c : Nat), r + l.length ≤ N →
    (∀ i (hi : i < s.length), s[i].isVar = decide (c ≤ i)) → (∀ b, l.head? = some b → b = false → c = 0) → c < t →
    ∀ st, forList l (s, r * t, cs) (fun full st => round p full st) = .ok st →
    ∃ (hs' : st.1.length = t) (ext : List (LC F × LC F × LC F)),
      st.2.2.constraints = cs.constraints ++ ext ∧ st.2.2.numWitness = cs.numWitness + ext.length ∧
      ∀ σ : Variable → F, σ .one = 1 → (∀ k, cs.constraints.length ≤ k → RowOk σ st.2.2 k) →
        wordsOf σ st.1 hs' = foldRounds (p.mds.toM hm) C r l (wordsOf σ s hs) := by
  intro l
  induction l with
  | nil =>
    intro s r cs hs c _ _ _ _ st hst
    cases hst
    exact ⟨hs, [], by simp, by simp, fun σ _ _ => rfl⟩
  | cons full l ih =>
    intro s r cs hs c hN hv hf hct st hst
    rw [List.length_cons] at hN
    rw [forList] at hst
    obtain ⟨st1, hst1, hst2⟩ := run_bind_ok hst
    obtain ⟨k1, ext1, k2, k3, k4, k5, k6, -⟩ := round_run p ha ht hm hC full (r := r) (by omega) hs hv (hf full rfl) hct hst1
    obtain ⟨s1, counter1, cs1⟩ := st1
    dsimp only at k1 k2 k3 k4 k5 k6
    subst k2
    obtain ⟨m1, ext2, m2, m3, m4⟩ := ih s1 (r + 1) cs1 k1 0 (by omega) (fun i hi => by rw [k5 i hi]; simp) (fun _ _ _ => rfl) ht st hst2
    have hlen : cs1.constraints.length = cs.constraints.length + ext1.length := by rw [k3, List.length_append]
    refine ⟨m1, ext1 ++ ext2, by rw [m2, k3, List.append_assoc], by rw [m3, k4, List.length_append]; ring, fun σ hσ hok => ?_⟩
    rw [m4 σ hσ (fun k hk => hok k (by omega)), foldRounds_cons, k6 σ hσ fun k hk => ?_]
    by_cases hkk : k < cs1.constraints.length
    · exact (RowOk.of_append m2 hkk).1 (hok k hk)
    · intro con hcon
      rw [List.getElem?_eq_none (by omega)] at hcon
      cases hcon

include ha ht hC in
/-- Rounds of which all rows but one hold. -/
theorem rounds_fault : ∀ (l : List Bool) (s : List (FpVar F)) (r : Nat) (cs : CS F) (hs : s.length = t) (c : Nat), r + l.length ≤ N →
    (∀ i (hi : i < s.length), s[i].isVar = decide (c ≤ i)) → (∀ b, l.head? = some b → b = false → c = 0) → c < t →
    ∀ st, forList l (s, r * t, cs) (fun full st => round p full st) = .ok st →
    ∃ hs' : st.1.length = t, ∀ k, cs.constraints.length ≤ k → k < st.2.2.constraints.length →
      ∃ (n : Nat) (hn : n < l.length) (j : Fin t) (b : Nat), b < 5 ∧ Active l[n] j ∧ (n = 0 → c ≤ j.val) ∧
        ∀ σ : Variable → F, σ .one = 1 → (∀ i, cs.constraints.length ≤ i → i ≠ k → RowOk σ st.2.2 i) →
          ∃ z : Fin t → F, z = foldRounds (p.mds.toM hm) C r (l.take n) (wordsOf σ s hs) ∧
          wordsOf σ st.1 hs' = foldRounds (p.mds.toM hm) C (r + n + 1) (l.drop (n + 1))
            ((p.mds.toM hm).mulVec (layerWith l[n] (C (r + n)) z j
              (boxMap b (z j + C (r + n) j) (σ (.witness (cs.numWitness + (k - cs.constraints.length))))))) ∧
          (RowOk σ st.2.2 k → σ (.witness (cs.numWitness + (k - cs.constraints.length))) = (z j + C (r + n) j) ^ boxPow b) := by
  intro l
  induction l with
  | nil =>
    intro s r cs hs c _ _ _ _ st hst
    cases hst
    exact ⟨hs, fun k h1 h2 => absurd h2 (by dsimp only; omega)⟩
  | cons full l ih =>
    intro s r cs hs c hN hv hf hct st hst
    rw [List.length_cons] at hN
    rw [forList] at hst
    obtain ⟨st1, hst1, hst2⟩ := run_bind_ok hst
    obtain ⟨k1, ext1, k2, k3, k4, k5, k6, k7⟩ := round_run p ha ht hm hC full (r := r) (by omega) hs hv (hf full rfl) hct hst1
    obtain ⟨s1, counter1, cs1⟩ := st1
    dsimp only at k1 k2 k3 k4 k5 k6 k7
    subst k2
    have hv1 : ∀ i (hi : i < s1.length), s1[i].isVar = decide (0 ≤ i) := fun i hi => by rw [k5 i hi]; simp
    obtain ⟨m1, ext2, m2, m3, m4⟩ := rounds_good p ha ht hm hC l s1 (r + 1) cs1 k1 0 (by omega) hv1 (fun _ _ _ => rfl) ht st hst2
    obtain ⟨_, hq⟩ := ih s1 (r + 1) cs1 k1 0 (by omega) hv1 (fun _ _ _ => rfl) ht st hst2
    have hlen : cs1.constraints.length = cs.constraints.length + ext1.length := by rw [k3, List.length_append]
    have down : ∀ {σ : Variable → F} {k : Nat}, RowOk σ st.2.2 k → RowOk σ cs1 k := by
      intro σ k hok
      by_cases hkk : k < cs1.constraints.length
      · exact (RowOk.of_append m2 hkk).1 hok
      · intro con hcon
        rw [List.getElem?_eq_none (by omega)] at hcon
        cases hcon
    refine ⟨m1, fun k hk hk' => ?_⟩
    by_cases hk1 : k < cs1.constraints.length
    · obtain ⟨j, b, hb, hact, hcj, h⟩ := k7 k hk hk1
      refine ⟨0, by simp, j, b, hb, hact, fun _ => hcj, fun σ hσ hok => ⟨_, rfl, ?_, ?_⟩⟩
      · rw [m4 σ hσ (fun i hi => hok i (by omega) (by omega)), (h σ hσ fun i hi hne => down (hok i hi hne)).1]
        rfl
      · intro hokk
        exact (h σ hσ fun i hi hne => down (hok i hi hne)).2 (down hokk)
    · obtain ⟨n, hn, j, b, hb, hact, -, h⟩ := hq k (by omega) hk'
      refine ⟨n + 1, by simpa using hn, j, b, hb, hact, fun h => absurd h (by omega), fun σ hσ hok => ?_⟩
      obtain ⟨z, hz, h8, h9⟩ := h σ hσ fun i hi hne => hok i (by omega) hne
      have hidx : cs1.numWitness + (k - cs1.constraints.length) = cs.numWitness + (k - cs.constraints.length) := by omega
      rw [hidx] at h8 h9
      have e : r + 1 + n = r + (n + 1) := by ring
      rw [e] at h8 h9
      refine ⟨z, ?_, h8, h9⟩
      rw [hz, List.take_succ_cons, foldRounds_cons, k6 σ hσ fun i hi => ?_]
      by_cases hii : i < cs1.constraints.length
      · exact down (hok i hi (by omega))
      · intro con hcon
        rw [List.getElem?_eq_none (by omega)] at hcon
        cases hcon

end

end Poseidon.R1cs
