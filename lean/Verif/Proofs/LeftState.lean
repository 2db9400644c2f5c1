import Verif.Proofs.InPlace
import Verif.Spec.LeftState

/-!
# What a caught panic leaves behind
-/

set_option linter.unusedSectionVars false

namespace Poseidon

variable {F : Type} [Field F] [DecidableEq F] {t tm1 nmds nhat rows cols nround npart : Nat}

/-- All rounds in order are the permutation. -/
theorem textbookBefore_all (a : Alpha) (M : Matrix (Fin t) (Fin t) F) (rf rp : Nat) (C : Fin (rf + rp + rf) → Fin t → F) (x : Fin t → F) :
    textbookBefore a M rf rp C x (rf + rp + rf) = textbook a M rf rp C x := by
  rw [textbook]
  have key : ∀ n (hn : n ≤ rf + rp + rf), textbookBefore a M rf rp C x n =
      (List.finRange n).foldlM (fun x r => textbookRound a M (decide (r.val < rf ∨ rf + rp ≤ r.val)) (C (Fin.castLE hn r)) x) x := by
    intro n
    induction n with
    | zero => intro _; rfl
    | succ n ih =>
      intro hn
      rw [textbookBefore, dif_pos (by omega), ih (by omega), List.finRange_succ_last, List.foldlM_append, List.foldlM_map]
      show Option.bind _ _ = Option.bind _ _
      congr 1
      funext y
      simp [Fin.castLE]
  exact key _ le_rfl

namespace Prog

instance : LawfulMonad (Prog F) := LawfulMonad.mk'
  (id_map := by
    intro α P
    show P.bind _ = P
    induction P with
    | ret a => rfl
    | panic e => rfl
    | rd i k ih => simp only [bind, ih]
    | wr i x k ih => simp only [bind, ih])
  (pure_bind := fun _ _ => rfl)
  (bind_assoc := by
    intro α β γ P f g
    show (P.bind f).bind g = P.bind fun a => (f a).bind g
    induction P with
    | ret a => rfl
    | panic e => rfl
    | rd i k ih => simp only [bind, ih]
    | wr i x k ih => simp only [bind, ih])

theorem run_of_exec {α : Type} {P : Prog F α} {s s' : Vector F t} {a : α} (h : P.exec s = .ok (a, s')) : P.run s = (.ok a, s') := by
  rw [exec] at h
  rcases hr : P.run s with ⟨_ | b, s1⟩
  · rw [hr] at h; cases h
  · rw [hr] at h; cases h; rfl

theorem run_bind_of_exec {α β : Type} {P : Prog F α} {f : α → Prog F β} {s s' : Vector F t} {a : α} (h : P.exec s = .ok (a, s')) :
    (P >>= f).run s = (f a).run s' := by
  rw [run_bind, run_of_exec h]

theorem run_bind_of_error {α β : Type} {P : Prog F α} {f : α → Prog F β} {s s' : Vector F t} {e : Panic} (h : P.run s = (.error e, s')) :
    (P >>= f).run s = (.error e, s') := by
  rw [run_bind, h]

theorem run_read_bind {β : Type} {f : F → Prog F β} (z : Fin t → F) {i : Nat} (hi : i < t) :
    (read i >>= f).run (Vector.ofFn z) = (f (z ⟨i, hi⟩)).run (Vector.ofFn z) :=
  run_bind_of_exec (by rw [exec_read, aget_ofFn _ hi, ok_bind])

theorem run_write_bind {β : Type} {f : Unit → Prog F β} (z : Fin t → F) {i : Nat} (hi : i < t) (x : F) :
    (write i x >>= f).run (Vector.ofFn z) = (f ()).run (Vector.ofFn (Function.update z ⟨i, hi⟩ x)) :=
  run_bind_of_exec (by rw [exec_write, aset_ofFn _ hi, ok_bind])

theorem run_lift_bind {α β : Type} {f : α → Prog F β} (a : α) (s : Vector F t) : (lift (.ok a) >>= f).run s = (f a).run s := rfl

theorem run_lift_error {α β : Type} {f : α → Prog F β} (e : Panic) (s : Vector F t) : (lift (.error e) >>= f).run s = (.error e, s) := rfl

theorem run_fullSubWords_zero (z : Fin t → F) (i : Fin t) (hi : z i = 0) (hj : ∀ j < i, z j ≠ 0) :
    (fullSubWords t .inverse).run (Vector.ofFn z) = (.error .divZero, Vector.ofFn fun j => if j < i then (z j)⁻¹ else z j) := by
  rw [fullSubWords, forRange, Nat.sub_zero]
  have key : ∀ n k (w : Fin t → F), k + n = t → k ≤ i.val → (w = fun j => if j.val < k then (z j)⁻¹ else z j) →
      (loopN (fun i _ => (do
        let x ← read i
        let y ← lift (sbox .inverse x)
        write i y : Prog F Unit)) n k ()).run (Vector.ofFn w) =
        (.error .divZero, Vector.ofFn fun j => if j < i then (z j)⁻¹ else z j) := by
    intro n
    induction n with
    | zero => intro k w h1 h2; have := i.isLt; omega
    | succ n ih =>
      intro k w h1 h2 hw
      have hk : k < t := by omega
      have hwk : w ⟨k, hk⟩ = z ⟨k, hk⟩ := by rw [hw]; simp
      rw [loopN, run_bind, run_read_bind _ hk, hwk, sbox_eq]
      by_cases h3 : k = i.val
      · have h4 : (⟨k, hk⟩ : Fin t) = i := Fin.ext h3
        rw [h4, hi, if_neg (by simp [Alpha.Defined]), run_lift_error]
        subst h3
        rw [hw]
        rfl
      · have h4 : z ⟨k, hk⟩ ≠ 0 := hj ⟨k, hk⟩ (Fin.lt_def.2 (show k < i.val by omega))
        rw [if_pos (by simpa [Alpha.Defined] using h4), run_lift_bind]
        rw [run_of_exec (s' := Vector.ofFn (Function.update w ⟨k, hk⟩ (z ⟨k, hk⟩)⁻¹)) (a := ())
          (by rw [exec_write, aset_ofFn _ hk, ok_bind]; rfl)]
        refine ih (k + 1) _ (by omega) (by omega) ?_
        rw [hw]
        funext j
        rw [Function.update_apply]
        by_cases h5 : j = ⟨k, hk⟩
        · subst h5; simp
        · have : j.val ≠ k := fun h => h5 (Fin.ext h)
          rw [if_neg h5]
          simp only [show j.val < k + 1 ↔ j.val < k by omega]
  exact key t 0 z (by omega) (by omega) (by simp)

theorem run_partialSubWords_zero (z : Fin t → F) (ht : 0 < t) (hi : z ⟨0, ht⟩ = 0) :
    (partialSubWords .inverse).run (Vector.ofFn z) = (.error .divZero, Vector.ofFn z) := by
  rw [partialSubWords, run_read_bind _ ht, hi, sbox_eq, if_neg (by simp [Alpha.Defined]), run_lift_error]

/-- The S-box layer of a round. -/
def subWords (t : Nat) (alpha : Alpha) (full : Bool) : Prog F Unit := if full then fullSubWords t alpha else partialSubWords alpha

/-- The body of the rounds of `unoptimized_permute`. -/
def round (p : Params F t tm1 nmds nhat rows cols nround npart) (full : Bool) (counter : Nat) : Prog F Nat := do
  let counter ← addLinear t p.arc counter
  subWords t p.alpha full
  mixLayer p.mds
  return counter

/-- The outcome of the first `r` rounds. -/
def Outcome (M : Matrix (Fin t) (Fin t) F) (rf rp : Nat) (C : Fin (rf + rp + rf) → Fin t → F) (x : Fin t → F) (r : Nat)
    (o : R Nat × Vector F t) : Prop :=
  (∃ y, textbookBefore .inverse M rf rp C x r = some y ∧ o = (.ok (r * t), Vector.ofFn y)) ∨
  (∃ w, Interrupted M rf rp C x w ∧ o = (.error .divZero, Vector.ofFn w))

section
variable (p : Params F t tm1 nmds nhat rows t nround npart) (ht : 0 < t) (hm : nmds = t * t) (ha : nround = rows * t)
    (hal : p.alpha = .inverse) {rf rp : Nat} (hrows : rf + rp + rf ≤ rows) (x : Fin t → F)

include ht hm ha hal hrows

theorem outcome_round (r : Nat) (hr : r < rf + rp + rf) (o : R Nat × Vector F t)
    (ho : Outcome (p.mds.toM hm) rf rp (fun r => p.arc.toM ha ⟨r.val, lt_of_lt_of_le r.isLt hrows⟩) x r o) (Q : Prog F Nat)
    (s : Vector F t) (hQ : Q.run s = o) :
    Outcome (p.mds.toM hm) rf rp (fun r => p.arc.toM ha ⟨r.val, lt_of_lt_of_le r.isLt hrows⟩) x (r + 1)
      ((Q >>= fun counter => round p (decide (r < rf ∨ rf + rp ≤ r)) counter).run s) := by
  rcases ho with ⟨y, hy, ho⟩ | ⟨w, hw, ho⟩
  · have hrow : r < rows := lt_of_lt_of_le hr hrows
    have e1 : (Q >>= fun counter => round p (decide (r < rf ∨ rf + rp ≤ r)) counter).run s =
        (round p (decide (r < rf ∨ rf + rp ≤ r)) (r * t)).run (Vector.ofFn y) := by rw [run_bind, hQ, ho]
    rw [e1]
    generalize hfull : decide (r < rf ∨ rf + rp ≤ r) = full
    have e2 : (round p full (r * t)).run (Vector.ofFn y) = (do
        subWords t p.alpha full
        mixLayer p.mds
        return (r + 1) * t : Prog F Nat).run (Vector.ofFn (y + p.arc.toM ha ⟨r, hrow⟩)) := by
      rw [round]
      exact run_bind_of_exec (by rw [exec_addLinear, addLinear_eq ha p.arc hrow, ok_bind])
    rw [e2]
    by_cases hz : ∀ i, Active full i → Alpha.inverse.Defined (y i + p.arc.toM ha ⟨r, hrow⟩ i)
    · refine Or.inl ⟨(p.mds.toM hm).mulVec fun i => if Active full i then Alpha.inverse.val (y i + p.arc.toM ha ⟨r, hrow⟩ i)
          else y i + p.arc.toM ha ⟨r, hrow⟩ i, ?_, ?_⟩
      · rw [textbookBefore, dif_pos hr, hy, hfull]
        show textbookRound _ _ _ _ _ = _
        rw [textbookRound, if_pos hz]
      · have h1 : (subWords t p.alpha full).exec
            (Vector.ofFn (y + p.arc.toM ha ⟨r, hrow⟩)) =
            .ok ((), Vector.ofFn fun i => if Active full i then Alpha.inverse.val (y i + p.arc.toM ha ⟨r, hrow⟩ i)
              else y i + p.arc.toM ha ⟨r, hrow⟩ i) := by
          cases full with
          | true =>
            rw [subWords, if_pos rfl, exec_fullSubWords, hal, fullSubWords_eq, if_pos (show ∀ i, Alpha.inverse.Defined ((y + p.arc.toM ha ⟨r, hrow⟩) i) from fun i => hz i (Or.inl rfl)), ok_bind]
            simp [Active]
          | false =>
            rw [subWords, if_neg (by simp), exec_partialSubWords, hal, partialSubWords_eq ht, if_pos (show Alpha.inverse.Defined ((y + p.arc.toM ha ⟨r, hrow⟩) ⟨0, ht⟩) from hz ⟨0, ht⟩ (Or.inr rfl)), ok_bind]
            congr 3
            funext i
            rw [Function.update_apply]
            by_cases h2 : i = ⟨0, ht⟩
            · subst h2; simp [Active]
            · have : ¬ Active false i := by
                rintro (hh | hh)
                · cases hh
                · exact h2 (Fin.ext hh)
              rw [if_neg h2, if_neg this]; rfl
        rw [run_bind_of_exec h1]
        rw [run_bind_of_exec (a := ()) (by rw [exec_mixLayer, mixLayer_eq ht hm, ok_bind])]
        rfl
    · refine Or.inr ?_
      -- the first active zero
      have hex : ∃ n, ∃ h : n < t, Active full (⟨n, h⟩ : Fin t) ∧ y ⟨n, h⟩ + p.arc.toM ha ⟨r, hrow⟩ ⟨n, h⟩ = 0 := by
        simp only [not_forall] at hz
        obtain ⟨i, h1, h2⟩ := hz
        exact ⟨i.val, i.isLt, h1, by simpa [Alpha.Defined] using h2⟩
      obtain ⟨h1, h2, h3⟩ := Nat.find_spec hex
      have h4 : ∀ j : Fin t, j.val < Nat.find hex → y j + p.arc.toM ha ⟨r, hrow⟩ j ≠ 0 ∨ ¬ Active full j := by
        intro j hj
        have := Nat.find_min hex hj
        simp only [not_exists, not_and] at this
        by_cases h5 : Active full j
        · exact Or.inl (this j.isLt h5)
        · exact Or.inr h5
      generalize Nat.find hex = n at h1 h2 h3 h4
      refine ⟨_, ⟨⟨r, hr⟩, y, ⟨n, h1⟩, hy, by rw [hfull]; exact h2, h3, ?_, rfl⟩, ?_⟩
      · intro j hj
        rw [hfull]
        exact h4 j (Fin.lt_def.1 hj)
      · apply run_bind_of_error
        cases full with
        | true =>
          rw [subWords, if_pos rfl, hal]
          refine run_fullSubWords_zero _ ⟨n, h1⟩ h3 ?_
          intro j hj
          rcases h4 j (Fin.lt_def.1 hj) with h5 | h5
          · exact h5
          · exact absurd (Or.inl rfl) h5
        | false =>
          have hn : n = 0 := by
            rcases h2 with hh | hh
            · cases hh
            · exact hh
          subst hn
          rw [subWords, if_neg (by simp), hal]
          refine (run_partialSubWords_zero _ ht h3).trans ?_
          congr 2
  · refine Or.inr ⟨w, hw, ?_⟩
    rw [run_bind, hQ, ho]

theorem outcome_loop (full : Bool) (m : Nat) : ∀ (lo i : Nat), lo + m ≤ rf + rp + rf →
    (∀ r, lo ≤ r → r < lo + m → decide (r < rf ∨ rf + rp ≤ r) = full) → ∀ (Q : Prog F Nat) (s : Vector F t),
    Outcome (p.mds.toM hm) rf rp (fun r => p.arc.toM ha ⟨r.val, lt_of_lt_of_le r.isLt hrows⟩) x lo (Q.run s) →
    Outcome (p.mds.toM hm) rf rp (fun r => p.arc.toM ha ⟨r.val, lt_of_lt_of_le r.isLt hrows⟩) x (lo + m)
      ((Q >>= fun counter => loopN (fun _ counter => round p full counter) m i counter).run s) := by
  induction m with
  | zero =>
    intro lo i _ _ Q s h
    have : (Q >>= fun counter => loopN (fun _ counter => round p full counter) 0 i counter).run s = Q.run s := by
      simp only [loopN]
      rw [run_bind]
      rcases Q.run s with ⟨_ | a, s'⟩ <;> rfl
    rw [this]
    exact h
  | succ m ih =>
    intro lo i hle hf Q s h
    have h1 := outcome_round p ht hm ha hal hrows x lo (by omega) _ h Q s rfl
    rw [hf lo le_rfl (by omega)] at h1
    have h2 := ih (lo + 1) (i + 1) (by omega) (fun r h3 h4 => hf r (by omega) (by omega)) _ s h1
    have e : (Q >>= fun counter => loopN (fun _ counter => round p full counter) (m + 1) i counter).run s =
        ((Q >>= fun counter => round p full counter) >>= fun counter => loopN (fun _ counter => round p full counter) m (i + 1) counter).run s := by
      simp only [loopN, bind_assoc]
    rw [e, show lo + (m + 1) = lo + 1 + m by omega]
    exact h2

end

theorem outcome_unoptimizedPermute (p : Params F t tm1 nmds nhat rows t nround npart) (ht : 0 < t) (hm : nmds = t * t)
    (ha : nround = rows * t) (hal : p.alpha = .inverse) (hrows : p.rounds.rF / 2 + p.rounds.rP + p.rounds.rF / 2 ≤ rows) (x : Fin t → F) :
    (∃ y, (unoptimizedPermute p).run (Vector.ofFn x) = (.ok (), Vector.ofFn y)) ∨
    (∃ w, Interrupted (p.mds.toM hm) (p.rounds.rF / 2) p.rounds.rP
      (fun r => p.arc.toM ha ⟨r.val, lt_of_lt_of_le r.isLt hrows⟩) x w ∧
      (unoptimizedPermute p).run (Vector.ofFn x) = (.error .divZero, Vector.ofFn w)) := by
  set rf := p.rounds.rF / 2 with hrf
  set rp := p.rounds.rP with hrp
  have h0 : Outcome (p.mds.toM hm) rf rp (fun r => p.arc.toM ha ⟨r.val, lt_of_lt_of_le r.isLt hrows⟩) x 0
      ((pure 0 : Prog F Nat).run (Vector.ofFn x)) := Or.inl ⟨x, rfl, by rw [Nat.zero_mul]; rfl⟩
  have h1 := outcome_loop p ht hm ha hal hrows x true rf 0 0 (by omega) (by intro r _ _; simp; omega) _ _ h0
  have h2 := outcome_loop p ht hm ha hal hrows x false rp (0 + rf) 0 (by omega) (by intro r _ _; simp; omega) _ _ h1
  have h3 := outcome_loop p ht hm ha hal hrows x true rf (0 + rf + rp) 0 (by omega) (by intro r _ _; simp; omega) _ _ h2
  have e : (unoptimizedPermute p).run (Vector.ofFn x) = (((((pure 0 : Prog F Nat) >>=
      fun counter => loopN (fun _ counter => round p true counter) rf 0 counter) >>=
      fun counter => loopN (fun _ counter => round p false counter) rp 0 counter) >>=
      fun counter => loopN (fun _ counter => round p true counter) rf 0 counter) >>= fun _ => pure ()).run (Vector.ofFn x) := by
    have eP : unoptimizedPermute p = (loopN (fun _ counter => round p true counter) rf 0 0 >>= fun counter =>
      loopN (fun _ counter => round p false counter) rp 0 counter >>= fun counter =>
      loopN (fun _ counter => round p true counter) rf 0 counter >>= fun _ => pure ()) := rfl
    rw [eP, pure_bind, bind_assoc, bind_assoc]
  rw [e, run_bind]
  rcases h3 with ⟨y, _, h⟩ | ⟨w, hw, h⟩
  · rw [h]; exact Or.inl ⟨y, rfl⟩
  · rw [h]; exact Or.inr ⟨w, hw, rfl⟩

/-! ### A division by zero leaves a zero behind -/

/-- see above -/
def ZeroLeft {α : Type} (t : Nat) (P : Prog F α) : Prop :=
  ∀ s : Vector F t, (P.run s).1 = .error .divZero → ∃ i : Fin t, (P.run s).2[i] = 0

variable {α β σ : Type}

theorem ZeroLeft.pure (a : α) : ZeroLeft t (pure a : Prog F α) := fun _ h => by cases h

theorem ZeroLeft.bind {P : Prog F α} {f : α → Prog F β} (hP : ZeroLeft t P) (hf : ∀ a, ZeroLeft t (f a)) : ZeroLeft t (P >>= f) := by
  intro s
  rw [run_bind]
  have := hP s
  revert this
  rcases P.run s with ⟨e | a, s'⟩
  · intro this h
    cases h
    exact this rfl
  · exact fun _ => hf a s'

theorem ZeroLeft.lift {r : R α} (h : r ≠ .error .divZero) : ZeroLeft t (lift r : Prog F α) := by
  intro s
  rw [run_lift]
  exact fun h' => absurd h' h

theorem ZeroLeft.read (i : Nat) : ZeroLeft t (read i : Prog F F) := by
  intro s
  by_cases h : i < t <;> simp only [Prog.read, run, h, dite_true, dite_false] <;> exact nofun

theorem ZeroLeft.write (i : Nat) (x : F) : ZeroLeft t (write i x : Prog F Unit) := by
  intro s
  by_cases h : i < t <;> simp only [Prog.write, run, h, dite_true, dite_false] <;> exact nofun

theorem ZeroLeft.loopN {body : Nat → σ → Prog F σ} (h : ∀ i a, ZeroLeft t (body i a)) : ∀ n i a, ZeroLeft t (loopN body n i a)
  | 0, _, _ => ZeroLeft.pure _
  | n + 1, _, _ => ZeroLeft.bind (h _ _) fun _ => ZeroLeft.loopN h n _ _

theorem ZeroLeft.forRange {lo hi : Nat} {a : σ} {body : Nat → σ → Prog F σ} (h : ∀ i a, ZeroLeft t (body i a)) :
    ZeroLeft t (forRange lo hi a body) := ZeroLeft.loopN h _ _ _

theorem ZeroLeft.forList {body : α → σ → Prog F σ} (h : ∀ i a, ZeroLeft t (body i a)) : ∀ l a, ZeroLeft t (forList l a body)
  | [], _ => ZeroLeft.pure _
  | _ :: l, _ => ZeroLeft.bind (h _ _) fun _ => ZeroLeft.forList h l _

theorem ZeroLeft.ite {c : Prop} [Decidable c] {P Q : Prog F α} (hP : ZeroLeft t P) (hQ : ZeroLeft t Q) :
    ZeroLeft t (if c then P else Q) := by split <;> assumption

/-- The S-box of one word: if it panics, that word is zero. -/
theorem ZeroLeft.sbox (i : Nat) (alpha : Alpha) :
    ZeroLeft t (do let x ← Prog.read i; let y ← Prog.lift (Poseidon.sbox alpha x); Prog.write i y : Prog F Unit) := by
  intro s
  by_cases hi : i < t
  · have e : (do let x ← Prog.read i; let y ← Prog.lift (Poseidon.sbox alpha x); Prog.write i y : Prog F Unit).run s =
        (do let y ← Prog.lift (Poseidon.sbox alpha s[i]); Prog.write i y : Prog F Unit).run s :=
      run_bind_of_exec (by rw [exec_read, aget_lt _ hi, ok_bind])
    rw [e]
    by_cases h : alpha.Defined s[i]
    · rw [sbox_eq, if_pos h, run_lift_bind]
      exact ZeroLeft.write _ _ s
    · intro _
      rw [sbox_eq, if_neg h, run_lift_error]
      refine ⟨⟨i, hi⟩, ?_⟩
      cases alpha with
      | exponent e => exact absurd trivial h
      | inverse => simpa [Alpha.Defined] using h
  · have e : (do let x ← Prog.read i; let y ← Prog.lift (Poseidon.sbox alpha x); Prog.write i y : Prog F Unit).run s =
        (.error .indexOOB, s) := run_bind_of_error (by simp [Prog.read, run, hi])
    rw [e]
    exact nofun

theorem aget_ne_divZero {n : Nat} (v : Vector α n) (i : Nat) : aget v i ≠ .error .divZero := by
  rw [aget]; split <;> simp

theorem aset_ne_divZero {n : Nat} (v : Vector α n) (i : Nat) (x : α) : aset v i x ≠ .error .divZero := by
  rw [aset]; split <;> simp

theorem usub_ne_divZero (a b : Nat) : usub a b ≠ .error .divZero := by
  rw [usub]; split <;> simp

theorem forList_ne_divZero {α σ : Type} (body : α → σ → R σ) (h : ∀ a s, body a s ≠ .error .divZero) (l : List α) (s : σ) :
    Poseidon.forList l s body ≠ .error .divZero := by
  induction l generalizing s with
  | nil => rw [Poseidon.forList]; exact nofun
  | cons x l ih =>
    rw [Poseidon.forList]
    cases hb : body x s with
    | error e => intro h'; exact h x s (hb.trans h')
    | ok s' => exact ih s'

theorem chunks_ne_divZero {α : Type} (k : Nat) (l : List α) : chunks k l ≠ .error .divZero := by
  rw [chunks]; split <;> simp

theorem ZeroLeft.partialSubWords (alpha : Alpha) : ZeroLeft t (partialSubWords alpha : Prog F Unit) := ZeroLeft.sbox 0 alpha

theorem ZeroLeft.fullSubWords (n : Nat) (alpha : Alpha) : ZeroLeft t (fullSubWords n alpha : Prog F Unit) :=
  ZeroLeft.forRange fun i _ => ZeroLeft.sbox i alpha

theorem ZeroLeft.dot (n off : Nat) (xs : List F) : ZeroLeft t (dot n off xs) :=
  ZeroLeft.forList (fun _ _ => (ZeroLeft.read _).bind fun _ => ZeroLeft.pure _) _ _

theorem ZeroLeft.assign (new : Vector F t) : ZeroLeft t (assign new) := ZeroLeft.forList (fun _ _ => ZeroLeft.write _ _) _ _

theorem ZeroLeft.mixLayer (m : Mat F t t nmds) : ZeroLeft t (mixLayer m) :=
  (ZeroLeft.lift (chunks_ne_divZero _ _)).bind fun _ =>
    (ZeroLeft.forList (fun _ _ => (ZeroLeft.dot _ _ _).bind fun _ => ZeroLeft.lift (aset_ne_divZero _ _ _)) _ _).bind fun _ =>
      ZeroLeft.assign _

theorem ZeroLeft.addRow (n : Nat) (arc : Mat F rows cols nround) (row : Nat) : ZeroLeft t (addRow n arc row) :=
  ZeroLeft.forRange fun _ _ => (ZeroLeft.read _).bind fun _ => (ZeroLeft.lift (aget_ne_divZero _ _)).bind fun _ => ZeroLeft.write _ _

theorem ZeroLeft.addLinear (n : Nat) (arc : Mat F rows cols nround) (counter : Nat) : ZeroLeft t (addLinear n arc counter) :=
  ZeroLeft.forRange fun _ _ => (ZeroLeft.read _).bind fun _ => (ZeroLeft.lift (aget_ne_divZero _ _)).bind fun _ =>
    (ZeroLeft.write _ _).bind fun _ => ZeroLeft.pure _

theorem ZeroLeft.sparseMatMul (o : OptimizedMds F npart t tm1 nmds nhat) (round : Nat) : ZeroLeft t (sparseMatMul o round) := by
  refine (ZeroLeft.lift (aget_ne_divZero _ _)).bind fun _ => (ZeroLeft.forList (fun _ _ => (ZeroLeft.read _).bind fun _ =>
    (ZeroLeft.read _).bind fun _ => ZeroLeft.lift (aset_ne_divZero _ _ _)) _ _).bind fun _ => (ZeroLeft.read _).bind fun _ =>
    (ZeroLeft.lift (aget_ne_divZero _ _)).bind fun _ => ?_
  refine ZeroLeft.ite ?_ ?_
  · refine (ZeroLeft.dot _ _ _).bind fun _ => (ZeroLeft.write _ _).bind fun _ => (ZeroLeft.lift (usub_ne_divZero _ _)).bind fun _ => ?_
    exact ZeroLeft.ite (ZeroLeft.forList (fun _ _ => ZeroLeft.write _ _) _ _) (ZeroLeft.lift nofun)
  · refine (ZeroLeft.lift (r := .error .indexOOB) nofun).bind fun _ => (ZeroLeft.lift (usub_ne_divZero _ _)).bind fun _ => ?_
    exact ZeroLeft.ite (ZeroLeft.forList (fun _ _ => ZeroLeft.write _ _) _ _) (ZeroLeft.lift nofun)

theorem ZeroLeft.permute (p : Params F t tm1 nmds nhat rows cols nround npart) : ZeroLeft t (permute p) := by
  refine (ZeroLeft.forRange fun _ _ => (ZeroLeft.addRow _ _ _).bind fun _ => (ZeroLeft.fullSubWords _ _).bind fun _ =>
    ZeroLeft.mixLayer _).bind fun _ => ?_
  refine (ZeroLeft.addRow _ _ _).bind fun _ => (ZeroLeft.mixLayer _).bind fun _ => (ZeroLeft.lift (usub_ne_divZero _ _)).bind fun _ => ?_
  refine (ZeroLeft.forRange fun _ _ => (ZeroLeft.partialSubWords _).bind fun _ => (ZeroLeft.read _).bind fun _ =>
    (ZeroLeft.lift (aget_ne_divZero _ _)).bind fun _ => (ZeroLeft.write _ _).bind fun _ => (ZeroLeft.lift (usub_ne_divZero _ _)).bind fun _ =>
    (ZeroLeft.lift (usub_ne_divZero _ _)).bind fun _ => (ZeroLeft.sparseMatMul _ _).bind fun _ => ZeroLeft.pure _).bind fun _ => ?_
  refine (ZeroLeft.partialSubWords _).bind fun _ => (ZeroLeft.sparseMatMul _ _).bind fun _ => ?_
  exact (ZeroLeft.forRange fun _ _ => (ZeroLeft.addRow _ _ _).bind fun _ => (ZeroLeft.fullSubWords _ _).bind fun _ =>
    (ZeroLeft.mixLayer _).bind fun _ => ZeroLeft.pure _).bind fun _ => ZeroLeft.pure _

theorem ZeroLeft.unoptimizedPermute (p : Params F t tm1 nmds nhat rows cols nround npart) : ZeroLeft t (unoptimizedPermute p) := by
  refine (ZeroLeft.forRange fun _ _ => (ZeroLeft.addLinear _ _ _).bind fun _ => (ZeroLeft.fullSubWords _ _).bind fun _ =>
    (ZeroLeft.mixLayer _).bind fun _ => ZeroLeft.pure _).bind fun _ => ?_
  refine (ZeroLeft.forRange fun _ _ => (ZeroLeft.addLinear _ _ _).bind fun _ => (ZeroLeft.partialSubWords _).bind fun _ =>
    (ZeroLeft.mixLayer _).bind fun _ => ZeroLeft.pure _).bind fun _ => ?_
  exact (ZeroLeft.forRange fun _ _ => (ZeroLeft.addLinear _ _ _).bind fun _ => (ZeroLeft.fullSubWords _ _).bind fun _ =>
    (ZeroLeft.mixLayer _).bind fun _ => ZeroLeft.pure _).bind fun _ => ZeroLeft.pure _

end Prog

theorem HashCall.zeroLeft (p : Params F t tm1 nmds nhat rows cols nround npart) (c : HashCall F t) : Prog.ZeroLeft t (c.prog p) := by
  cases c with
  | optimized x =>
    exact (Prog.ZeroLeft.forList (fun _ _ => Prog.ZeroLeft.write _ _) _ _).bind fun _ => (Prog.ZeroLeft.permute p).bind fun _ =>
      Prog.ZeroLeft.read 1
  | unoptimized x =>
    exact (Prog.ZeroLeft.forList (fun _ _ => Prog.ZeroLeft.write _ _) _ _).bind fun _ => (Prog.ZeroLeft.unoptimizedPermute p).bind fun _ =>
      Prog.ZeroLeft.read 1

end Poseidon
