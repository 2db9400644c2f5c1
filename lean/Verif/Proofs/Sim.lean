import Verif.Proofs.Loops

/-! # Simulation and partial-correctness rules for the panic monad -/

namespace Poseidon

variable {α β α' β' γ : Type _}

/-- If `x` returns, so does `y`, and the results are related. -/
def Sim (Q : α → β → Prop) (x : R α) (y : R β) : Prop := ∀ a, x = .ok a → ∃ b, y = .ok b ∧ Q a b

theorem Sim.ok {Q : α → β → Prop} {a : α} {b : β} (h : Q a b) : Sim Q (.ok a) (.ok b) := by
  intro a' ha
  cases ha
  exact ⟨b, rfl, h⟩

theorem Sim.error {Q : α → β → Prop} {e : Panic} {y : R β} : Sim Q (.error e) y := by
  intro a ha; cases ha

theorem Sim.bind {Q : α → β → Prop} {Q' : α' → β' → Prop} {x : R α} {y : R β} {f : α → R α'} {g : β → R β'}
    (h : Sim Q x y) (h' : ∀ a b, Q a b → Sim Q' (f a) (g b)) : Sim Q' (x >>= f) (y >>= g) := by
  cases x with
  | error e => exact Sim.error
  | ok a =>
    obtain ⟨b, rfl, hb⟩ := h a rfl
    exact h' a b hb

theorem Sim.mono {Q Q' : α → β → Prop} {x : R α} {y : R β} (h : Sim Q x y) (h' : ∀ a b, Q a b → Q' a b) :
    Sim Q' x y := by
  intro a ha
  obtain ⟨b, hb, hq⟩ := h a ha
  exact ⟨b, hb, h' a b hq⟩

theorem Sim.loopN {Rel : Nat → α → β → Prop} {f : Nat → α → R α} {g : Nat → β → R β} :
    ∀ (n i j : Nat) (a : α) (b : β), Rel i a b →
      (∀ k a b, k < n → Rel (i + k) a b → Sim (Rel (i + k + 1)) (f (i + k) a) (g (j + k) b)) →
      Sim (Rel (i + n)) (loopN f n i a) (loopN g n j b) := by
  intro n
  induction n with
  | zero => intro i j a b h _; exact Sim.ok h
  | succ n ih =>
    intro i j a b h step
    have h0 := step 0 a b (by omega) h
    rw [Nat.add_zero, Nat.add_zero] at h0
    refine Sim.bind h0 fun a' b' h' => ?_
    have := ih (i + 1) (j + 1) a' b' h' (fun k a b hk hab => by
      have := step (k + 1) a b (by omega) (by rwa [show i + (k + 1) = i + 1 + k by omega])
      rwa [show i + (k + 1) = i + 1 + k by omega, show j + (k + 1) = j + 1 + k by omega] at this)
    rwa [show i + 1 + n = i + (n + 1) by omega] at this

/-- Two loops over the same range. -/
theorem Sim.forRange {Rel : Nat → α → β → Prop} {f : Nat → α → R α} {g : Nat → β → R β} {lo hi : Nat}
    (hle : lo ≤ hi) {a : α} {b : β} (h : Rel lo a b)
    (step : ∀ k a b, lo ≤ k → k < hi → Rel k a b → Sim (Rel (k + 1)) (f k a) (g k b)) :
    Sim (Rel hi) (forRange lo hi a f) (forRange lo hi b g) := by
  have := Sim.loopN (Rel := Rel) (f := f) (g := g) (hi - lo) lo lo a b h
    (fun k a b hk hab => step (lo + k) a b (by omega) (by omega) hab)
  rwa [show lo + (hi - lo) = hi by omega] at this

/-- Two loops over lists of the same length. -/
theorem Sim.forList {Rel : Nat → α' → β' → Prop} {f : α → α' → R α'} {g : β → β' → R β'} :
    ∀ (l : List α) (l' : List β) (k : Nat) (a : α') (b : β'), l.length = l'.length → Rel k a b →
      (∀ j (hj : j < l.length) (hj' : j < l'.length) a b, Rel (k + j) a b →
        Sim (Rel (k + j + 1)) (f l[j] a) (g l'[j] b)) →
      Sim (Rel (k + l.length)) (forList l a f) (forList l' b g) := by
  intro l
  induction l with
  | nil =>
    intro l' k a b hl h _
    cases l' with
    | nil => exact Sim.ok h
    | cons _ _ => simp at hl
  | cons x xs ih =>
    intro l' k a b hl h step
    cases l' with
    | nil => simp at hl
    | cons y ys =>
      refine Sim.bind (step 0 (by simp) (by simp) a b h) fun a' b' h' => ?_
      have := ih ys (k + 1) a' b' (by simpa using hl) h' (fun j hj hj' a b hab => by
        have := step (j + 1) (by simpa using hj) (by simpa using hj') a b
          (by rwa [show k + (j + 1) = k + 1 + j by omega])
        simpa [show k + (j + 1) = k + 1 + j by omega] using this)
      rwa [List.length_cons, show k + (xs.length + 1) = k + 1 + xs.length by omega]

/-- If `x` returns, the result satisfies `Q`. -/
def Ens (Q : α → Prop) (x : R α) : Prop := ∀ a, x = .ok a → Q a

theorem Ens.ok {Q : α → Prop} {a : α} (h : Q a) : Ens Q (.ok a) := by
  intro a' ha; cases ha; exact h

theorem Ens.error {Q : α → Prop} {e : Panic} : Ens Q (.error e) := by
  intro a ha; cases ha

theorem Ens.bind {Q : α → Prop} {Q' : β → Prop} {x : R α} {f : α → R β} (h : Ens Q x)
    (h' : ∀ a, Q a → Ens Q' (f a)) : Ens Q' (x >>= f) := by
  cases x with
  | error e => exact Ens.error
  | ok a => exact h' a (h a rfl)

theorem Ens.mono {Q Q' : α → Prop} {x : R α} (h : Ens Q x) (h' : ∀ a, Q a → Q' a) : Ens Q' x :=
  fun a ha => h' a (h a ha)

theorem Ens.loopN {Inv : Nat → α → Prop} {f : Nat → α → R α} :
    ∀ (n i : Nat) (a : α), Inv i a → (∀ k a, i ≤ k → k < i + n → Inv k a → Ens (Inv (k + 1)) (f k a)) →
      Ens (Inv (i + n)) (loopN f n i a) := by
  intro n
  induction n with
  | zero => intro i a h _; exact Ens.ok h
  | succ n ih =>
    intro i a h step
    refine Ens.bind (step i a le_rfl (by omega) h) fun a' h' => ?_
    have := ih (i + 1) a' h' (fun k a h1 h2 => step k a (by omega) (by omega))
    rwa [show i + 1 + n = i + (n + 1) by omega] at this

theorem Ens.forRange {Inv : Nat → α → Prop} {f : Nat → α → R α} {lo hi : Nat} (hle : lo ≤ hi) {a : α}
    (h : Inv lo a) (step : ∀ k a, lo ≤ k → k < hi → Inv k a → Ens (Inv (k + 1)) (f k a)) :
    Ens (Inv hi) (forRange lo hi a f) := by
  have := Ens.loopN (Inv := Inv) (f := f) (hi - lo) lo a h (fun k a h1 h2 => step k a h1 (by omega))
  rwa [show lo + (hi - lo) = hi by omega] at this

theorem Ens.forList {Inv : Nat → β → Prop} {f : α → β → R β} :
    ∀ (l : List α) (k : Nat) (b : β), Inv k b →
      (∀ j (hj : j < l.length) b, Inv (k + j) b → Ens (Inv (k + j + 1)) (f l[j] b)) →
      Ens (Inv (k + l.length)) (forList l b f) := by
  intro l
  induction l with
  | nil => intro k b h _; exact Ens.ok h
  | cons x xs ih =>
    intro k b h step
    refine Ens.bind (step 0 (by simp) b h) fun b' h' => ?_
    have := ih (k + 1) b' h' (fun j hj b hb => by
      have := step (j + 1) (by simpa using hj) b (by rwa [show k + (j + 1) = k + 1 + j by omega])
      simpa [show k + (j + 1) = k + 1 + j by omega] using this)
    rwa [List.length_cons, show k + (xs.length + 1) = k + 1 + xs.length by omega]

end Poseidon
