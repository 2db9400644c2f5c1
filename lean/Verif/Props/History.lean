import Verif.Props.Native

/-!
# Properties of one `Instance` over its whole life (C06, C07)

A history is any finite sequence of public calls on one instance.  A call that panics (and is caught)
leaves the parameters and an arbitrary state array behind; this over-approximates every point at
which the unwinding can start.
-/

namespace Poseidon

variable {F : Type} [Field F] [DecidableEq F]
variable {t tm1 nmds nhat rows cols nround npart : Nat}

/-- The public calls on an instance (`output_words` changes nothing, `&self`). -/
inductive Call (F : Type) (t : Nat) where
  | hash (input : Vector F t)
  | unoptimizedHash (input : Vector F t)
  | outputWords

/-- A returning call: the instance afterwards (and the digest of a hash call). -/
inductive Returns : Instance F t tm1 nmds nhat rows cols nround npart → Call F t → Option F →
    Instance F t tm1 nmds nhat rows cols nround npart → Prop
  | hash {a x d b} : a.nTo1FixedHash x = .ok (d, b) → Returns a (.hash x) (some d) b
  | unoptimizedHash {a x d b} : a.unoptimizedNTo1FixedHash x = .ok (d, b) →
      Returns a (.unoptimizedHash x) (some d) b
  | outputWords {a} : Returns a .outputWords none a

/-- Instances reachable from `Instance::new(p)`, including after caught panics. -/
inductive Reachable (p : Params F t tm1 nmds nhat rows cols nround npart) :
    Instance F t tm1 nmds nhat rows cols nround npart → Prop
  | new : Reachable p (Instance.new p)
  | returned {a c d b} : Reachable p a → Returns a c d b → Reachable p b
  | panicked {a} (x : Vector F t) (e : Panic) (left : Vector F t) : Reachable p a →
      (a.nTo1FixedHash x = .error e ∨ a.unoptimizedNTo1FixedHash x = .error e) →
      Reachable p { a with stateWords := left }

theorem nTo1_indep (p : Params F t tm1 nmds nhat rows cols nround npart) (s s' x : Vector F t) :
    Instance.nTo1FixedHash ⟨p, s⟩ x = Instance.nTo1FixedHash ⟨p, s'⟩ x := by
  rw [Instance.nTo1FixedHash, Instance.nTo1FixedHash, setState_eq, setState_eq]

theorem unopt_indep (p : Params F t tm1 nmds nhat rows cols nround npart) (s s' x : Vector F t) :
    Instance.unoptimizedNTo1FixedHash ⟨p, s⟩ x = Instance.unoptimizedNTo1FixedHash ⟨p, s'⟩ x := by
  rw [Instance.unoptimizedNTo1FixedHash, Instance.unoptimizedNTo1FixedHash, setState_eq, setState_eq]

theorem nTo1_params {a b : Instance F t tm1 nmds nhat rows cols nround npart} {x : Vector F t} {d : F}
    (h : a.nTo1FixedHash x = .ok (d, b)) : b.parameters = a.parameters ∧ aget b.stateWords 1 = .ok d := by
  rw [Instance.nTo1FixedHash, setState_eq, ok_bind] at h
  cases h1 : permute a.parameters x with
  | error e => rw [h1] at h; cases h
  | ok s =>
    rw [h1, ok_bind] at h
    cases h2 : aget s 1 with
    | error e => rw [h2] at h; cases h
    | ok o => rw [h2, ok_bind] at h; cases h; exact ⟨rfl, h2⟩

theorem unopt_params {a b : Instance F t tm1 nmds nhat rows cols nround npart} {x : Vector F t} {d : F}
    (h : a.unoptimizedNTo1FixedHash x = .ok (d, b)) :
    b.parameters = a.parameters ∧ aget b.stateWords 1 = .ok d := by
  rw [Instance.unoptimizedNTo1FixedHash, setState_eq, ok_bind] at h
  cases h1 : unoptimizedPermute a.parameters x with
  | error e => rw [h1] at h; cases h
  | ok s =>
    rw [h1, ok_bind] at h
    cases h2 : aget s 1 with
    | error e => rw [h2] at h; cases h
    | ok o => rw [h2, ok_bind] at h; cases h; exact ⟨rfl, h2⟩

theorem Reachable.params {p : Params F t tm1 nmds nhat rows cols nround npart} {a} (h : Reachable p a) :
    a.parameters = p := by
  induction h with
  | new => rfl
  | returned _ hr ih =>
    cases hr with
    | hash h => rw [(nTo1_params h).1, ih]
    | unoptimizedHash h => rw [(unopt_params h).1, ih]
    | outputWords => exact ih
  | panicked _ _ _ _ _ ih => exact ih

/-- C06: whatever happened to an instance before, a hash call returns (digest and following state, or
panic) exactly what it returns on a fresh instance. -/
theorem C06_history_independent (p : Params F t tm1 nmds nhat rows cols nround npart)
    (a : Instance F t tm1 nmds nhat rows cols nround npart) (h : Reachable p a) (x : Vector F t) :
    a.nTo1FixedHash x = (Instance.new p).nTo1FixedHash x ∧
    a.unoptimizedNTo1FixedHash x = (Instance.new p).unoptimizedNTo1FixedHash x := by
  obtain ⟨p', s⟩ := a
  have := h.params
  simp only at this
  subst this
  exact ⟨nTo1_indep _ _ _ _, unopt_indep _ _ _ _⟩

/-- A history of returning calls. -/
inductive History : Instance F t tm1 nmds nhat rows cols nround npart → List (Call F t) →
    Instance F t tm1 nmds nhat rows cols nround npart → Prop
  | nil {a} : History a [] a
  | snoc {a b c cs call d} : History a cs b → Returns b call d c → History a (cs ++ [call]) c

/-- The hash calls of a history, oldest first. -/
def hashCalls : List (Call F t) → List (Call F t) :=
  List.filter fun | .outputWords => false | _ => true

/-- C07: before any hash call `output_words` is all zeros; after a history of returning calls it is
the state a fresh instance reports after the *last* hash call alone, and that call's digest is
word 1 of it. -/
theorem C07_output_words (p : Params F t tm1 nmds nhat rows cols nround npart) (cs : List (Call F t)) (b)
    (h : History (Instance.new p) cs b) :
    match (hashCalls cs).getLast? with
    | none => b.outputWords = Vector.replicate t 0
    | some c => ∃ d, Returns (Instance.new p) c (some d) b ∧ b.outputWords[1]? = some d := by
  have hw : ∀ (a b : Instance F t tm1 nmds nhat rows cols nround npart) (d : F),
      aget b.stateWords 1 = .ok d → b.outputWords[1]? = some d := by
    intro a b d hd
    rw [aget] at hd
    split at hd
    · next h1 =>
      injection hd with hd
      rw [Instance.outputWords, ← hd]; simp [h1]
    · cases hd
  have key : b.parameters = p ∧ match (hashCalls cs).getLast? with
    | none => b.outputWords = Vector.replicate t 0
    | some c => ∃ d, Returns (Instance.new p) c (some d) b ∧ b.outputWords[1]? = some d := by
    generalize ha : Instance.new p = a at h
    induction h with
    | nil => subst ha; exact ⟨rfl, rfl⟩
    | @snoc b c cs call d h1 hr ih =>
      subst ha
      cases hr with
      | @hash x d _ hx =>
        have hp := nTo1_params hx
        refine ⟨hp.1.trans ih.1, ?_⟩
        have : hashCalls (cs ++ [Call.hash x]) = hashCalls cs ++ [Call.hash x] := by simp [hashCalls]
        rw [this, List.getLast?_concat]
        refine ⟨d, .hash ?_, hw b c d hp.2⟩
        obtain ⟨p', s⟩ := b
        have h2 := ih.1
        simp only at h2
        subst h2
        rw [← hx]; exact nTo1_indep _ _ _ _
      | @unoptimizedHash x d _ hx =>
        have hp := unopt_params hx
        refine ⟨hp.1.trans ih.1, ?_⟩
        have : hashCalls (cs ++ [Call.unoptimizedHash x]) = hashCalls cs ++ [Call.unoptimizedHash x] := by
          simp [hashCalls]
        rw [this, List.getLast?_concat]
        refine ⟨d, .unoptimizedHash ?_, hw b c d hp.2⟩
        obtain ⟨p', s⟩ := b
        have h2 := ih.1
        simp only at h2
        subst h2
        rw [← hx]; exact unopt_indep _ _ _ _
      | outputWords =>
        have : hashCalls (cs ++ [(Call.outputWords : Call F t)]) = hashCalls cs := by simp [hashCalls]
        rw [this]
        exact ih
  exact key.2

/-- C07 for the shipped rates: after any history of returning calls whose last hash call (optimized or
not) was on the words `x`, `output_words` is the textbook permutation of `x`. -/
theorem C07_shipped (i : Fin 7) (cs : List (Call Fq (i.val + 2))) (b)
    (h : History (Instance.new (shippedParams i)) cs b) (x : Fin (i.val + 2) → Fq)
    (hx : (hashCalls cs).getLast? = some (.hash (Vector.ofFn x)) ∨
      (hashCalls cs).getLast? = some (.unoptimizedHash (Vector.ofFn x))) :
    ∃ y, spec377 i x = some y ∧ b.outputWords = Vector.ofFn y := by
  have h1 := C07_output_words _ _ _ h
  rcases hx with hx | hx
  · rw [hx] at h1
    obtain ⟨d, h2, _⟩ := h1
    obtain ⟨y, h3, h4⟩ := C02_instance i (Vector.replicate _ 0) x
    cases h2 with
    | hash h2 =>
      have h5 := h2.symm.trans h4
      injection h5 with h5
      injection h5 with _ h6
      exact ⟨y, h3, by rw [h6]; rfl⟩
  · rw [hx] at h1
    obtain ⟨d, h2, _⟩ := h1
    obtain ⟨y, h3, h4⟩ := C02_unoptimized i (Vector.replicate _ 0) x
    cases h2 with
    | unoptimizedHash h2 =>
      have h5 := h2.symm.trans h4
      injection h5 with h5
      injection h5 with _ h6
      exact ⟨y, h3, by rw [h6]; rfl⟩

/-- Non-vacuity: on every shipped rate there is a history of two hash calls and an inspection. -/
example (i : Fin 7) (x y : Fin (i.val + 2) → Fq) : ∃ b, History (Instance.new (shippedParams i))
    [.hash (Vector.ofFn x), .outputWords, .unoptimizedHash (Vector.ofFn y)] b := by
  obtain ⟨z, _, h1⟩ := C02_instance i (Vector.replicate _ 0) x
  obtain ⟨w, _, h2⟩ := C02_unoptimized i (Vector.ofFn z) y
  exact ⟨_, .snoc (.snoc (.snoc .nil (.hash h1)) .outputWords) (.unoptimizedHash h2)⟩

/-- Parameters with the inverse S-box, for the example below. -/
def zeroParams : Params (ZMod 3) 2 1 4 1 2 2 4 1 where
  security := 0
  alpha := .inverse
  rounds := ⟨0, 2⟩
  mds := ⟨#v[0, 0, 0, 0]⟩
  arc := ⟨#v[0, 0, 0, 0]⟩
  optimizedArc := ⟨#v[0, 0, 0, 0]⟩
  optimizedMds :=
    { mHat := ⟨#v[0]⟩
      v := ⟨#v[0]⟩
      w := ⟨#v[0]⟩
      mPrime := ⟨#v[0, 0, 0, 0]⟩
      mDoublePrime := ⟨#v[0, 0, 0, 0]⟩
      mInverse := ⟨#v[0, 0, 0, 0]⟩
      mHatInverse := ⟨#v[0]⟩
      m00 := 0
      mI := ⟨#v[0, 0, 0, 0]⟩
      vCollection := #v[⟨#v[0]⟩]
      wHatCollection := #v[⟨#v[0]⟩] }

/-- Non-vacuity of the panic clause: with the inverse S-box a zero word panics, and the instance stays
reachable with any left-over state. -/
example (left : Vector (ZMod 3) 2) : Reachable zeroParams ⟨zeroParams, left⟩ :=
  .panicked #v[0, 0] .divZero left .new (Or.inr rfl)

end Poseidon
