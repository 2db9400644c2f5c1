import Verif.Proofs.LeftState

/-!
# Calls by many threads
-/

set_option linter.unusedSectionVars false

namespace Poseidon

variable {F : Type} [Field F] [DecidableEq F] {t tm1 nmds nhat rows cols nround npart : Nat}

namespace Prog

theorem run_step {α : Type} (P : Prog F α) (s : Vector F t) : (P.step s).1.run (P.step s).2 = P.run s := by
  cases P with
  | ret a => rfl
  | panic e => rfl
  | rd i k => by_cases h : i < t <;> simp only [step, run, h, dite_true, dite_false]
  | wr i x k => by_cases h : i < t <;> simp only [step, run, h, dite_true, dite_false]

theorem accesses_step {α : Type} (P : Prog F α) (s : Vector F t) (h1 : ∀ a, P ≠ .ret a) (h2 : ∀ e, P ≠ .panic e) :
    1 + (P.step s).1.accesses (P.step s).2 = P.accesses s := by
  cases P with
  | ret a => exact absurd rfl (h1 a)
  | panic e => exact absurd rfl (h2 e)
  | rd i k => by_cases h : i < t <;> simp only [step, accesses, h, dite_true, dite_false]
  | wr i x k => by_cases h : i < t <;> simp only [step, accesses, h, dite_true, dite_false]

theorem accesses_bind {α β : Type} (P : Prog F α) (f : α → Prog F β) (s : Vector F t) :
    (P >>= f).accesses s = P.accesses s + match P.run s with
      | (.ok a, s') => (f a).accesses s'
      | (.error _, _) => 0 := by
  show (P.bind f).accesses s = _
  induction P generalizing s with
  | ret a => simp only [bind, accesses, run, Nat.zero_add]
  | panic e => simp only [bind, accesses, run]
  | rd i k ih =>
    by_cases h : i < t
    · simp only [bind, accesses, run, h, dite_true, ih, Nat.add_assoc]
    · simp only [bind, accesses, run, h, dite_false]
  | wr i x k ih =>
    by_cases h : i < t
    · simp only [bind, accesses, run, h, dite_true, ih, Nat.add_assoc]
    · simp only [bind, accesses, run, h, dite_false]

theorem accesses_writes (l : List F) (s s' : Vector F t) (n : Nat) (h : n + l.length ≤ t) :
    (forList (l.zipIdx n) () fun (x, i) _ => write i x : Prog F Unit).accesses s =
    (forList (l.zipIdx n) () fun (x, i) _ => write i x : Prog F Unit).accesses s' := by
  induction l generalizing n s s' with
  | nil => rfl
  | cons x l ih =>
    rw [List.length_cons] at h
    rw [List.zipIdx_cons]
    simp only [forList]
    rw [accesses_bind, accesses_bind]
    have hn : n < t := by omega
    have e1 : ∀ s : Vector F t, (write n x).run s = (.ok (), s.set n x hn) := fun s => by simp only [write, run, hn, dite_true]
    have e2 : ∀ s : Vector F t, (write n x).accesses s = 1 := fun s => by simp only [write, accesses, hn, dite_true]
    simp only [e1, e2]
    exact congrArg (1 + ·) (ih _ _ (n + 1) (by omega))

end Prog

/-- The run of a call depends on the input only. -/
theorem HashCall.run_indep (p : Params F t tm1 nmds nhat rows cols nround npart) (c : HashCall F t) (s s' : Vector F t) :
    (c.prog p).run s = (c.prog p).run s' := by
  cases c with
  | optimized x =>
    simp only [prog, Prog.nTo1FixedHash]
    rw [Prog.run_bind_of_exec (Prog.exec_setState x s), Prog.run_bind_of_exec (Prog.exec_setState x s')]
  | unoptimized x =>
    simp only [prog, Prog.unoptimizedNTo1FixedHash]
    rw [Prog.run_bind_of_exec (Prog.exec_setState x s), Prog.run_bind_of_exec (Prog.exec_setState x s')]

theorem HashCall.accesses_indep (p : Params F t tm1 nmds nhat rows cols nround npart) (c : HashCall F t) (s s' : Vector F t) :
    (c.prog p).accesses s = (c.prog p).accesses s' := by
  cases c with
  | optimized x =>
    simp only [prog, Prog.nTo1FixedHash]
    rw [Prog.accesses_bind, Prog.accesses_bind, Prog.run_of_exec (Prog.exec_setState x s), Prog.run_of_exec (Prog.exec_setState x s')]
    exact congrArg (· + _) (Prog.accesses_writes x.toList s s' 0 (by simp))
  | unoptimized x =>
    simp only [prog, Prog.unoptimizedNTo1FixedHash]
    rw [Prog.accesses_bind, Prog.accesses_bind, Prog.run_of_exec (Prog.exec_setState x s), Prog.run_of_exec (Prog.exec_setState x s')]
    exact congrArg (· + _) (Prog.accesses_writes x.toList s s' 0 (by simp))

theorem HashCall.run_eq (p : Params F t tm1 nmds nhat rows cols nround npart) (c : HashCall F t) (s : Vector F t) :
    (c.prog p).run s = ((c.on (Instance.new p)).map Prod.fst, c.leaves p) := by
  rw [c.run_indep p s (Vector.replicate t 0)]
  have h := c.exec_prog p (Vector.replicate t 0)
  rw [Prog.exec] at h
  rw [leaves]
  rcases hr : (c.prog p).run (Vector.replicate t 0) with ⟨e | a, s'⟩
  · rw [hr] at h
    rw [Instance.new]
    cases ho : c.on ⟨p, Vector.replicate t 0⟩ with
    | ok x => rw [ho] at h; cases h
    | error e' => rw [ho] at h; cases h; rfl
  · rw [hr] at h
    rw [Instance.new]
    cases ho : c.on ⟨p, Vector.replicate t 0⟩ with
    | error e' => rw [ho] at h; cases h
    | ok x => rw [ho] at h; cases h; rfl

theorem HashCall.leaves_ok (p : Params F t tm1 nmds nhat rows cols nround npart) (c : HashCall F t) {d : F} {b}
    (h : c.on (Instance.new p) = .ok (d, b)) : c.leaves p = b.outputWords := by
  have h1 := c.exec_prog p (Vector.replicate t 0)
  rw [show c.on ⟨p, Vector.replicate t 0⟩ = .ok (d, b) from h] at h1
  rw [leaves, Prog.run_of_exec h1]
  rfl

namespace Threads

/-- What an entry of the log must be, after the entries `before`. -/
def EntryOk (P : Nat → Params F t tm1 nmds nhat rows cols nround npart) (before : List (Entry F t)) : Entry F t → Prop
  | .ended i c r => r = (c.on (Instance.new (P i))).map Prod.fst
  | .observed i w => w = match lastEnded i before with
    | none => Vector.replicate t 0
    | some c => c.leaves (P i)

/-- The invariant. -/
structure Inv (P : Nat → Params F t tm1 nmds nhat rows cols nround npart) (y : Threads F t) : Prop where
  exclusive : ∀ th th' r r', y.running th = some r → y.running th' = some r' → r.inst = r'.inst → th = th'
  runs : ∀ th r, y.running th = some r → r.prog.run (y.states r.inst) = (r.call.prog (P r.inst)).run (Vector.replicate t 0)
  idle : ∀ i, y.Free i → y.states i = match lastEnded i y.log with
    | none => Vector.replicate t 0
    | some c => c.leaves (P i)
  log : ∀ l e l', y.log = l ++ e :: l' → EntryOk P l e

theorem log_snoc {P : Nat → Params F t tm1 nmds nhat rows cols nround npart} {log : List (Entry F t)} {e : Entry F t}
    (h : ∀ l e l', log = l ++ e :: l' → EntryOk P l e) (he : EntryOk P log e) : ∀ l e' l', log ++ [e] = l ++ e' :: l' → EntryOk P l e' := by
  intro l e' l' heq
  rcases List.eq_nil_or_concat l' with rfl | ⟨l'', e'', rfl⟩
  · have := List.append_inj' heq rfl
    obtain ⟨rfl, h2⟩ := this
    injection h2 with h2 _
    subst h2
    exact he
  · have e2 : log ++ [e] = (l ++ e' :: l'') ++ [e''] := by rw [heq]; simp
    have := List.append_inj' e2 rfl
    exact h _ _ _ this.1

theorem inv_init (P : Nat → Params F t tm1 nmds nhat rows cols nround npart) : Inv P (init F t) where
  exclusive := by intro _ _ _ _ h; cases h
  runs := by intro _ _ h; cases h
  idle := by intro i _; rfl
  log := by
    intro l e l' h
    exact absurd h (by simp [init])

theorem lastEnded_ended (i : Nat) (c : HashCall F t) (r : R F) (log : List (Entry F t)) :
    lastEnded i (log ++ [.ended i c r]) = some c := by
  simp [lastEnded]

theorem lastEnded_other {i j : Nat} (h : j ≠ i) (c : HashCall F t) (r : R F) (log : List (Entry F t)) :
    lastEnded i (log ++ [.ended j c r]) = lastEnded i log := by
  simp [lastEnded, h]

theorem lastEnded_observed (i j : Nat) (w : Vector F t) (log : List (Entry F t)) :
    lastEnded i (log ++ [.observed j w]) = lastEnded i log := by
  simp [lastEnded]

theorem inv_end {P : Nat → Params F t tm1 nmds nhat rows cols nround npart} {y : Threads F t} (hy : Inv P y) {th : Nat} {r : Running F t}
    (h : y.running th = some r) (o : R F) (ho : r.prog.run (y.states r.inst) = (o, y.states r.inst)) :
    Inv P { y with running := Function.update y.running th none, log := y.log ++ [.ended r.inst r.call o] } := by
  have h1 := hy.runs th r h
  rw [ho, r.call.run_eq (P r.inst)] at h1
  injection h1 with h2 h3
  refine ⟨?_, ?_, ?_, ?_⟩
  · intro a b ra rb ha hb hab
    simp only [Function.update_apply] at ha hb
    split at ha
    · cases ha
    split at hb
    · cases hb
    exact hy.exclusive a b ra rb ha hb hab
  · intro a ra ha
    simp only [Function.update_apply] at ha
    split at ha
    · cases ha
    exact hy.runs a ra ha
  · intro i hi
    show y.states i = _
    by_cases hir : r.inst = i
    · subst hir
      rw [lastEnded_ended]
      exact h3
    · rw [lastEnded_other hir]
      refine hy.idle i fun a ra ha => ?_
      by_cases hat : a = th
      · subst hat
        rw [h] at ha
        cases ha
        exact hir
      · exact hi a ra (by simpa [Function.update_apply, hat] using ha)
  · exact log_snoc hy.log h2

theorem inv_step {P : Nat → Params F t tm1 nmds nhat rows cols nround npart} {y z : Threads F t} {c : Choice F t} (hy : Inv P y)
    (h : Step True P y c z) : Inv P z := by
  cases h with
  | @start th i c idle free =>
    have hfree := free trivial
    refine ⟨?_, ?_, ?_, hy.log⟩
    · intro a b ra rb ha hb hab
      simp only [Function.update_apply] at ha hb
      split at ha <;> split at hb
      · next h1 h2 => exact h1.trans h2.symm
      · cases ha
        exact absurd hab.symm (hfree b rb hb)
      · cases hb
        exact absurd hab (hfree a ra ha)
      · exact hy.exclusive a b ra rb ha hb hab
    · intro a ra ha
      simp only [Function.update_apply] at ha
      split at ha
      · cases ha
        exact c.run_indep (P i) _ _
      · exact hy.runs a ra ha
    · intro j hj
      refine hy.idle j fun a ra ha => ?_
      by_cases hat : a = th
      · subst hat
        rw [idle] at ha
        cases ha
      · exact hj a ra (by simpa [Function.update_apply, hat] using ha)
  | @access th r h h1 h2 =>
    have hrun := hy.runs th r h
    refine ⟨?_, ?_, ?_, hy.log⟩
    · intro a b ra rb ha hb hab
      simp only [Function.update_apply] at ha hb
      split at ha <;> split at hb
      · next h1 h2 => exact h1.trans h2.symm
      · next h1 _ => cases ha; exact h1.trans (hy.exclusive th b r rb h hb hab)
      · next h1 => cases hb; exact (hy.exclusive a th ra r ha h hab).trans h1.symm
      · exact hy.exclusive a b ra rb ha hb hab
    · intro a ra ha
      simp only [Function.update_apply] at ha
      split at ha
      · cases ha
        simp only [Function.update_self]
        rw [Prog.run_step]
        exact hrun
      · next hne =>
        have : ra.inst ≠ r.inst := fun heq => hne (hy.exclusive a th ra r ha h heq)
        simp only [Function.update_of_ne this]
        exact hy.runs a ra ha
    · intro j hj
      have hjr : j ≠ r.inst := by
        intro heq
        exact hj th { r with prog := (r.prog.step (y.states r.inst)).1 } (by simp) heq.symm
      simp only [Function.update_of_ne hjr]
      refine hy.idle j fun a ra ha => ?_
      by_cases hat : a = th
      · subst hat
        rw [h] at ha
        cases ha
        exact hjr.symm
      · exact hj a ra (by simpa [Function.update_apply, hat] using ha)
  | @returned th r a h h1 => exact inv_end hy h (.ok a) (by rw [h1]; rfl)
  | @panicked th r e h h1 => exact inv_end hy h (.error e) (by rw [h1]; rfl)
  | @observe i free =>
    refine ⟨hy.exclusive, hy.runs, ?_, log_snoc hy.log (hy.idle i (free trivial))⟩
    intro j hj
    rw [lastEnded_observed]
    exact hy.idle j hj

theorem inv_steps {P : Nat → Params F t tm1 nmds nhat rows cols nround npart} {y z : Threads F t} {cs : List (Choice F t)} (hy : Inv P y)
    (h : Steps True P y cs z) : Inv P z := by
  induction h with
  | none => exact hy
  | snoc _ h' ih => exact inv_step ih h'

theorem turns_snoc (th : Nat) (cs : List (Choice F t)) (c : Choice F t) :
    turns th (cs ++ [c]) = turns th cs + match c with
      | .go th' => if th' = th then 1 else 0
      | _ => 0 := by
  rw [turns, List.countP_append, turns]
  cases c <;> simp [List.countP_cons]

/-- While a call runs, every turn of its thread is one access, and the others do not disturb it. -/
theorem progress {P : Nat → Params F t tm1 nmds nhat rows cols nround npart} {y z : Threads F t} {cs : List (Choice F t)} (hy : Inv P y)
    (h : Steps True P y cs z) {th : Nat} {r : Running F t} (hr : y.running th = some r) :
    ∃ l, z.log = y.log ++ l ∧ ((∃ o, Entry.ended r.inst r.call o ∈ l) ∨
      ∃ r', z.running th = some r' ∧ r'.inst = r.inst ∧ r'.call = r.call ∧
        r'.prog.accesses (z.states r.inst) + turns th cs = r.prog.accesses (y.states r.inst)) := by
  induction h with
  | none => exact ⟨[], by simp, Or.inr ⟨r, hr, rfl, rfl, by simp [turns]⟩⟩
  | @snoc cs z z' c h h' ih =>
    have hz := inv_steps hy h
    obtain ⟨l, hl, ⟨o, ho⟩ | ⟨r', h1, h2, h3, h4⟩⟩ := ih
    · cases h' with
      | start => exact ⟨l, hl, Or.inl ⟨o, ho⟩⟩
      | access => exact ⟨l, hl, Or.inl ⟨o, ho⟩⟩
      | returned => exact ⟨l ++ _, by simp only [hl, List.append_assoc]; rfl, Or.inl ⟨o, List.mem_append_left _ ho⟩⟩
      | panicked => exact ⟨l ++ _, by simp only [hl, List.append_assoc]; rfl, Or.inl ⟨o, List.mem_append_left _ ho⟩⟩
      | observe => exact ⟨l ++ _, by simp only [hl, List.append_assoc]; rfl, Or.inl ⟨o, List.mem_append_left _ ho⟩⟩
    · rw [turns_snoc]
      cases h' with
      | @start th' i c idle free =>
        have hne : th ≠ th' := by rintro rfl; rw [idle] at h1; cases h1
        exact ⟨l, hl, Or.inr ⟨r', by simpa [Function.update_apply, hne] using h1, h2, h3, h4⟩⟩
      | @access th' r'' hr'' g1 g2 =>
        by_cases hth : th' = th
        · subst hth
          rw [h1] at hr''
          cases hr''
          refine ⟨l, hl, Or.inr ⟨_, Function.update_self .., h2, h3, ?_⟩⟩
          rw [← h4]
          simp only [h2, Function.update_self, if_true]
          rw [← Prog.accesses_step r'.prog (z.states r.inst) g1 g2]
          omega
        · have hi : r.inst ≠ r''.inst := by
            rw [← h2]
            intro heq
            exact hth (hz.exclusive th th' r' r'' h1 hr'' heq).symm
          refine ⟨l, hl, Or.inr ⟨r', ?_, h2, h3, ?_⟩⟩
          · simpa [Function.update_apply, Ne.symm hth] using h1
          · simp only [Function.update_of_ne hi, if_neg hth, Nat.add_zero]
            exact h4
      | @returned th' r'' a hr'' g1 =>
        by_cases hth : th' = th
        · subst hth
          rw [h1] at hr''
          cases hr''
          exact ⟨l ++ _, by simp only [hl, List.append_assoc]; rfl, Or.inl ⟨_, by rw [← h2, ← h3]; exact List.mem_append_right _ List.mem_cons_self⟩⟩
        · refine ⟨l ++ _, by simp only [hl, List.append_assoc]; rfl, Or.inr ⟨r', ?_, h2, h3, ?_⟩⟩
          · simpa [Function.update_apply, Ne.symm hth] using h1
          · simp only [if_neg hth, Nat.add_zero]; exact h4
      | @panicked th' r'' e hr'' g1 =>
        by_cases hth : th' = th
        · subst hth
          rw [h1] at hr''
          cases hr''
          exact ⟨l ++ _, by simp only [hl, List.append_assoc]; rfl, Or.inl ⟨_, by rw [← h2, ← h3]; exact List.mem_append_right _ List.mem_cons_self⟩⟩
        · refine ⟨l ++ _, by simp only [hl, List.append_assoc]; rfl, Or.inr ⟨r', ?_, h2, h3, ?_⟩⟩
          · simpa [Function.update_apply, Ne.symm hth] using h1
          · simp only [if_neg hth, Nat.add_zero]; exact h4
      | @observe i free => exact ⟨l ++ _, by simp only [hl, List.append_assoc]; rfl, Or.inr ⟨r', h1, h2, h3, h4⟩⟩

end Threads

end Poseidon
