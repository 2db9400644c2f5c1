import Verif.Proofs.Threads
import Verif.Props.History

/-!
# Any number of threads, any schedule, caught panics (C94)

The functions as programs of single reads and writes of the state words (Model/InPlace.lean), run by any number of threads on any number of
instances in any order of steps that respects `&mut self`.
-/

set_option linter.unusedSectionVars false

namespace Poseidon

open Threads

variable {F : Type} [Field F] [DecidableEq F] {t tm1 nmds nhat rows cols nround npart : Nat}

/-- **C94.** In every schedule every call ends as on a new instance of its own: with the same digest, or with the same panic.  Other
threads, the calls before it on the same instance and panics that were caught make no difference. -/
theorem C94_every_call (P : Nat → Params F t tm1 nmds nhat rows cols nround npart) (cs : List (Choice F t)) (y : Threads F t)
    (h : Steps True P (init F t) cs y) (i : Nat) (c : HashCall F t) (r : R F) (he : .ended i c r ∈ y.log) :
    r = (c.on (Instance.new (P i))).map Prod.fst := by
  obtain ⟨l, l', hl⟩ := List.append_of_mem he
  exact (inv_steps (inv_init P) h).log l _ l' hl

/-- **C94.** `output_words` between the calls, in every schedule: zeros before the first call on the instance, and after that what its last
call leaves; that is what the call reports on a new instance if it returns. -/
theorem C94_output_words (P : Nat → Params F t tm1 nmds nhat rows cols nround npart) (cs : List (Choice F t)) (y : Threads F t)
    (h : Steps True P (init F t) cs y) (i : Nat) (w : Vector F t) (l l' : List (Entry F t)) (he : y.log = l ++ .observed i w :: l') :
    match lastEnded i l with
    | none => w = Vector.replicate t 0
    | some c => w = c.leaves (P i) ∧ ∀ d b, c.on (Instance.new (P i)) = .ok (d, b) → w = b.outputWords := by
  have h1 : w = _ := (inv_steps (inv_init P) h).log l _ l' he
  cases hl : lastEnded i l with
  | none => rw [hl] at h1; exact h1
  | some c => rw [hl] at h1; exact ⟨h1, fun d b hb => h1.trans (c.leaves_ok (P i) hb)⟩

/-- **C94.** No call waits for another thread: a thread in a call can always go on. -/
theorem C94_never_blocked (P : Nat → Params F t tm1 nmds nhat rows cols nround npart) (y : Threads F t) (th : Nat) (r : Running F t)
    (h : y.running th = some r) : ∃ z, Step True P y (.go th) z := by
  cases hp : r.prog with
  | ret a => exact ⟨_, .returned h hp⟩
  | panic e => exact ⟨_, .panicked h hp⟩
  | rd i k => exact ⟨_, .access h (by rw [hp]; exact nofun) (by rw [hp]; exact nofun)⟩
  | wr i x k => exact ⟨_, .access h (by rw [hp]; exact nofun) (by rw [hp]; exact nofun)⟩

/-- **C94.** Every call ends after a number of turns of its own thread that depends on the parameters and the call only, whatever the
other threads do in between. -/
theorem C94_ends (p : Params F t tm1 nmds nhat rows cols nround npart) (c : HashCall F t) :
    ∃ n, ∀ (P : Nat → Params F t tm1 nmds nhat rows cols nround npart) (i : Nat), P i = p →
      ∀ (cs cs' : List (Choice F t)) (y y' z : Threads F t) (th : Nat), Steps True P (init F t) cs y → Step True P y (.start th i c) y' →
        Steps True P y' cs' z → n ≤ turns th cs' →
        ∃ l, z.log = y.log ++ l ∧ .ended i c ((c.on (Instance.new p)).map Prod.fst) ∈ l := by
  refine ⟨(c.prog p).accesses (Vector.replicate t (0 : F)) + 1, ?_⟩
  rintro P i rfl cs cs' y y' z th h1 h2 h3 h4
  have hy' := inv_step (inv_steps (inv_init P) h1) h2
  have hz := inv_steps hy' h3
  cases h2 with
  | start idle free =>
    obtain ⟨l, hl, h5⟩ := progress hy' h3 (th := th) (r := ⟨i, c, c.prog (P i)⟩) (by simp)
    refine ⟨l, hl, ?_⟩
    rcases h5 with ⟨o, ho⟩ | ⟨r', _, _, _, h6⟩
    · obtain ⟨l1, l2, hl'⟩ := List.append_of_mem ho
      have h7 : o = _ := hz.log (y.log ++ l1) (.ended i c o) l2 (by rw [hl, hl']; simp)
      rw [← h7]
      exact ho
    · simp only at h6
      rw [c.accesses_indep (P i) _ (Vector.replicate t 0)] at h6
      omega

/-- **C94.** With the shipped parameters every call of every thread returns word 1 of the textbook permutation of its input. -/
theorem C94_shipped (k : Fin 7) (cs : List (Choice Fq (k.val + 2))) (y : Threads Fq (k.val + 2))
    (h : Steps True (fun _ => shippedParams k) (init Fq (k.val + 2)) cs y) (i : Nat) (x : Fin (k.val + 2) → Fq) (r : R Fq)
    (he : .ended i (.optimized (Vector.ofFn x)) r ∈ y.log ∨ .ended i (.unoptimized (Vector.ofFn x)) r ∈ y.log) :
    ∃ z, spec377 k x = some z ∧ r = .ok (z 1) := by
  rcases he with he | he
  · obtain ⟨z, h1, h2⟩ := C02_instance k (Vector.replicate _ 0) x
    exact ⟨z, h1, (C94_every_call _ cs y h i _ r he).trans (congrArg (Except.map Prod.fst) h2)⟩
  · obtain ⟨z, h1, h2⟩ := C02_unoptimized k (Vector.replicate _ 0) x
    exact ⟨z, h1, (C94_every_call _ cs y h i _ r he).trans (congrArg (Except.map Prod.fst) h2)⟩

/-- **C94.** Unoptimized hashing that inverts zero, caught: the instance holds the textbook state at that moment. -/
theorem C94_left_unoptimized (p : Params F t tm1 nmds nhat rows t nround npart) (ht : 0 < t) (hm : nmds = t * t) (ha : nround = rows * t)
    (hal : p.alpha = .inverse) (hrows : p.rounds.rF / 2 + p.rounds.rP + p.rounds.rF / 2 ≤ rows) (x : Fin t → F)
    (h : (Instance.new p).unoptimizedNTo1FixedHash (Vector.ofFn x) = .error .divZero) :
    ∃ w, Interrupted (p.mds.toM hm) (p.rounds.rF / 2) p.rounds.rP (fun r => p.arc.toM ha ⟨r.val, lt_of_lt_of_le r.isLt hrows⟩) x w ∧
      (HashCall.unoptimized (Vector.ofFn x)).leaves p = Vector.ofFn w := by
  have h1 := (HashCall.unoptimized (Vector.ofFn x)).run_eq p (Vector.replicate t 0)
  rw [show (HashCall.unoptimized (Vector.ofFn x)).on (Instance.new p) = .error .divZero from h] at h1
  have h2 : ((HashCall.unoptimized (Vector.ofFn x)).prog p).run (Vector.replicate t 0) =
      (Prog.unoptimizedPermute p >>= fun _ => Prog.read 1).run (Vector.ofFn x) := by
    simp only [HashCall.prog, Prog.unoptimizedNTo1FixedHash]
    rw [Prog.run_bind_of_exec (Prog.exec_setState _ _)]
  rw [h2, Prog.run_bind] at h1
  rcases Prog.outcome_unoptimizedPermute p ht hm ha hal hrows x with ⟨y, hy⟩ | ⟨w, hw, hy⟩
  · rw [hy] at h1
    simp only [Prog.read, Prog.run] at h1
    split at h1 <;> cases h1
  · rw [hy] at h1
    injection h1 with _ h3
    exact ⟨w, hw, h3.symm⟩

/-- **C94.** Either function, any parameters: a caught inversion of zero leaves a zero word in the instance. -/
theorem C94_left_zero (p : Params F t tm1 nmds nhat rows cols nround npart) (c : HashCall F t)
    (h : c.on (Instance.new p) = .error .divZero) : ∃ i : Fin t, (c.leaves p)[i] = 0 := by
  have h1 := c.run_eq p (Vector.replicate t 0)
  rw [h] at h1
  have h2 := c.zeroLeft p (Vector.replicate t 0) (by rw [h1]; rfl)
  exact h2

/-! ### The hypotheses are met, and the rule about `&mut self` is needed -/

/-- Parameters without rounds, for the examples. -/
def noRounds : Params (ZMod 3) 2 1 4 1 2 2 4 1 := { zeroParams with rounds := ⟨0, 0⟩ }

/-- **C94.** Without the exclusive borrow it fails: two threads in one instance, and the first gets the second's digest. -/
theorem C94_borrow_needed : ∃ (cs : List (Choice (ZMod 3) 2)) (y : Threads (ZMod 3) 2),
    Steps False (fun _ => noRounds) (init (ZMod 3) 2) cs y ∧ .ended 0 (.unoptimized #v[0, 1]) (.ok 2) ∈ y.log ∧
      ((HashCall.unoptimized #v[0, 1]).on (Instance.new noRounds)).map Prod.fst = .ok 1 := by
  refine ⟨[.start 0 0 (.unoptimized #v[0, 1]), .go 0, .go 0, .start 1 0 (.unoptimized #v[0, 2]), .go 1, .go 1, .go 0, .go 0], _,
    .snoc (cs := [.start 0 0 (.unoptimized #v[0, 1]), .go 0, .go 0, .start 1 0 (.unoptimized #v[0, 2]), .go 1, .go 1, .go 0])
    (.snoc (cs := [.start 0 0 (.unoptimized #v[0, 1]), .go 0, .go 0, .start 1 0 (.unoptimized #v[0, 2]), .go 1, .go 1])
    (.snoc (cs := [.start 0 0 (.unoptimized #v[0, 1]), .go 0, .go 0, .start 1 0 (.unoptimized #v[0, 2]), .go 1])
    (.snoc (cs := [.start 0 0 (.unoptimized #v[0, 1]), .go 0, .go 0, .start 1 0 (.unoptimized #v[0, 2])])
    (.snoc (cs := [.start 0 0 (.unoptimized #v[0, 1]), .go 0, .go 0])
    (.snoc (cs := [.start 0 0 (.unoptimized #v[0, 1]), .go 0])
    (.snoc (cs := [.start 0 0 (.unoptimized #v[0, 1])])
    (.snoc (cs := []) .none (.start rfl nofun))
      (.access rfl nofun nofun)) (.access rfl nofun nofun)) (.start rfl nofun)) (.access rfl nofun nofun)) (.access rfl nofun nofun))
      (.access rfl nofun nofun)) (.returned (a := 2) rfl rfl), ?_, rfl⟩
  exact List.mem_cons_self

/-- Of `C94_every_call`, `C94_output_words`: two threads, two instances, steps interleaved; `output_words` of the second instance before and
after its call. -/
example : ∃ (cs : List (Choice (ZMod 3) 2)) (y : Threads (ZMod 3) 2), Steps True (fun _ => noRounds) (init (ZMod 3) 2) cs y ∧
    y.log = [.observed 1 #v[0, 0], .ended 0 (.unoptimized #v[0, 1]) (.ok 1), .ended 1 (.unoptimized #v[0, 2]) (.ok 2),
      .observed 1 #v[0, 2]] := by
  have f0 : ∀ (r : Nat → Option (Running (ZMod 3) 2)) (i : Nat), (∀ th, r th = none ∨ ∃ a, r th = some a ∧ a.inst ≠ i) →
      ∀ s l, Free (⟨s, r, l⟩ : Threads (ZMod 3) 2) i := by
    intro r i h s l th a ha
    rcases h th with h | ⟨b, h, hb⟩
    · exact absurd (h.symm.trans ha) nofun
    · have := h.symm.trans ha
      cases this
      exact hb
  refine ⟨_, _, .snoc (.snoc (.snoc (.snoc (.snoc (.snoc (.snoc (.snoc (.snoc (.snoc (.snoc (.snoc .none
    (.observe (i := 1) fun _ => f0 _ _ (fun th => .inl rfl) _ _))
    (.start (th := 0) (i := 0) (c := .unoptimized #v[0, 1]) rfl fun _ => f0 _ _ (fun th => .inl rfl) _ _))
    (.access (th := 0) rfl nofun nofun))
    (.start (th := 1) (i := 1) (c := .unoptimized #v[0, 2]) rfl fun _ => f0 _ _ (fun th => by
      by_cases h : th = 0
      · subst h; exact .inr ⟨_, rfl, by decide⟩
      · exact .inl (by simp [h, init])) _ _))
    (.access (th := 1) rfl nofun nofun)) (.access (th := 0) rfl nofun nofun)) (.access (th := 1) rfl nofun nofun))
    (.access (th := 1) rfl nofun nofun)) (.access (th := 0) rfl nofun nofun)) (.returned (th := 0) (a := 1) rfl rfl))
    (.returned (th := 1) (a := 2) rfl rfl)) (.observe (i := 1) fun _ => f0 _ _ (fun th => .inl (by
      simp only [Function.update_apply, init]
      split_ifs <;> rfl)) _ _), ?_⟩
  rfl

/-- Of `C94_left_unoptimized` and `C94_left_zero`: the second word is zero, the first is already inverted. -/
example : ∃ w, Interrupted (zeroParams.mds.toM rfl) 1 0 (fun r => zeroParams.arc.toM rfl ⟨r.val, r.isLt⟩) ![2, 0] w ∧
    (HashCall.unoptimized #v[2, 0]).leaves zeroParams = Vector.ofFn w :=
  C94_left_unoptimized zeroParams (by norm_num) rfl rfl rfl le_rfl ![2, 0] rfl

/-- Of `C94_left_zero`. -/
example : ∃ i : Fin 2, ((HashCall.unoptimized #v[1, 0]).leaves zeroParams)[i] = 0 := C94_left_zero zeroParams (.unoptimized #v[1, 0]) rfl

end Poseidon
