import Verif.Spec.Tree
import Verif.Props.Mode
import Verif.Props.Membership

/-!
# Trees of hashes with a random permutation (C109)

A root binds the leaves: nobody opens one place of a tree to two leaves with few questions.  The specification is `Spec/Tree.lean`.
-/

set_option linter.unusedSectionVars false

namespace Poseidon

open Finset

variable {F : Type} [Fintype F] [DecidableEq F] {n : Nat}

/-- First `T`, then the attack that belongs to its answer -/
def Attack.bind {S A B : Type} (g : A → Attack S B) : Attack S A → Attack S B
  | .answer a => g a
  | .ask x next => .ask x fun y => (next y).bind g
  | .askBack y next => .askBack y fun x => (next x).bind g

theorem Attack.run_bind {S A B : Type} (π : Equiv.Perm S) (g : A → Attack S B) (T : Attack S A) : (T.bind g).run π = (g (T.run π)).run π := by
  induction T with
  | answer a => rfl
  | ask x next ih => exact ih _
  | askBack y next ih => exact ih _

theorem Attack.within_answer {S A : Type} (a : A) (Q : Nat) : (Attack.answer a : Attack S A).Within Q := by cases Q <;> trivial

theorem Attack.within_bind {S A B : Type} [Fintype S] [DecidableEq S] {g : A → Attack S B} {m : Nat} (hg : ∀ a, (g a).Within m) {T : Attack S A} {Q : Nat} (h : T.Within Q) :
    (T.bind g).Within (Q + m) := by
  induction T generalizing Q with
  | answer a => exact within_mono (hg a) (Nat.le_add_left _ _)
  | ask x next ih =>
    obtain _ | Q := Q
    · exact h.elim
    rw [Nat.add_right_comm]
    exact fun y => ih y (h y)
  | askBack y next ih =>
    obtain _ | Q := Q
    · exact h.elim
    rw [Nat.add_right_comm]
    exact fun x => ih x (h x)

/-- Goes up two openings until the states differ and the digests do not -/
def findCollision : List (Level n F) → List (Level n F) → F → F → Attack (Fin (n + 2) → F) ((Fin (n + 2) → F) × (Fin (n + 2) → F))
  | L :: l, L' :: l', x, x' => .ask (L.state x) fun y => .ask (L'.state x') fun y' =>
      if y 1 = y' 1 then .answer (L.state x, L'.state x') else findCollision l l' (y 1) (y' 1)
  | _, _, x, _ => .answer (fun _ => x, fun _ => x)

theorem findCollision_within (l l' : List (Level n F)) (x x' : F) : (findCollision l l' x x').Within (2 * l.length) := by
  induction l generalizing l' x x' with
  | nil => exact trivial
  | cons L l ih =>
    cases l' with
    | nil => exact trivial
    | cons L' l' =>
      rw [List.length_cons, Nat.mul_add, findCollision]
      intro y y'
      dsimp only
      split
      · exact Attack.within_answer _ _
      · exact ih l' _ _

theorem findCollision_run (π : Equiv.Perm (Fin (n + 2) → F)) (D : Finset F) (l l' : List (Level n F)) (x x' : F)
    (hp : l.map Level.place = l'.map Level.place) (hD : ∀ L ∈ l, L.others 0 ∈ D) (hD' : ∀ L ∈ l', L.others 0 ∈ D) (hx : x ≠ x')
    (h : climb π l x = climb π l' x') :
    let a := (findCollision l l' x x').run π
    a.1 ≠ a.2 ∧ a.1 0 ∈ D ∧ a.2 0 ∈ D ∧ digestWith π a.1 = digestWith π a.2 := by
  induction l generalizing l' x x' with
  | nil =>
    cases l' with
    | nil => exact (hx h).elim
    | cons L' l' => simp at hp
  | cons L l ih =>
    cases l' with
    | nil => simp at hp
    | cons L' l' =>
      rw [List.map_cons, List.map_cons, List.cons.injEq] at hp
      rw [findCollision]
      dsimp only [Attack.run]
      split
      · next e =>
        refine ⟨fun e' => hx ?_, ?_, ?_, e⟩
        · have := congrFun e' L.place.succ
          dsimp only [Attack.run] at this
          rw [Level.state, Level.state, ← hp.1, Function.update_self, Function.update_self] at this
          exact this
        · dsimp only [Attack.run]
          rw [Level.state, Function.update_of_ne (Fin.succ_ne_zero _).symm]
          exact hD L List.mem_cons_self
        · dsimp only [Attack.run]
          rw [Level.state, Function.update_of_ne (Fin.succ_ne_zero _).symm]
          exact hD' L' List.mem_cons_self
      · next e =>
        exact ih l' _ _ hp.2 (fun L hL => hD L (List.mem_cons_of_mem _ hL)) (fun L hL => hD' L (List.mem_cons_of_mem _ hL)) e h

/-- **C109.** Whatever an algorithm does, if it asks for at most `Q` images or preimages of states, then for all but few permutations it does not find two
openings of the same place, of at most `h` levels and with domain separators in `D`, that lead from different leaves to the same root. -/
theorem C109_binding (D : Finset F) (h : Nat)
    (A : Attack (Fin (n + 2) → F) ((F × List (Level n F)) × (F × List (Level n F)))) (Q : Nat) (hA : A.Within Q) :
    ShareAtMost (((Q + 2 * h + 1) * (Q + 2 * h + 2) / 2 + (Q + 2 * h + 2) * D.card) * Fintype.card F ^ (n + 1))
      (Fintype.card F ^ (n + 2) - (Q + 2 * h + 1))
      (fun π => (A.run π).1.1 ≠ (A.run π).2.1 ∧ (A.run π).1.2.length ≤ h ∧
        (A.run π).1.2.map Level.place = (A.run π).2.2.map Level.place ∧
        (∀ L ∈ (A.run π).1.2 ++ (A.run π).2.2, L.others 0 ∈ D) ∧
        climb π (A.run π).1.2 (A.run π).1.1 = climb π (A.run π).2.2 (A.run π).2.1) := by
  have hB : (A.bind fun a => findCollision (a.1.2.take h) (a.2.2.take h) a.1.1 a.2.1).Within (Q + 2 * h) :=
    Attack.within_bind (fun a => within_mono (findCollision_within _ _ _ _) (by rw [List.length_take]; omega)) hA
  have h1 := C107_collision D _ _ hB
  rw [ShareAtMost] at h1 ⊢
  refine (Nat.mul_le_mul_right _ (card_le_card fun π hπ => ?_)).trans h1
  rw [mem_filter] at hπ ⊢
  obtain ⟨-, h2, h3, h4, h5, h6⟩ := hπ
  have h7 : (A.run π).2.2.length ≤ h := by
    have := congrArg List.length h4
    rw [List.length_map, List.length_map] at this
    omega
  refine ⟨mem_univ _, ?_⟩
  rw [Attack.run_bind, List.take_of_length_le h3, List.take_of_length_le h7]
  exact findCollision_run π D _ _ _ _ h4 (fun L hL => h5 L (List.mem_append_left _ hL)) (fun L hL => h5 L (List.mem_append_right _ hL)) h2 h6

/-- **C109 in numbers.** With up to `2^64` domain separators, trees of up to `2^32` levels and `2^80` questions the chance is less than one in `2^92`, for every
rate. -/
theorem C109_numbers (D : Finset Fq) (hD : D.card ≤ 2 ^ 64) (A : Attack (Fin (n + 2) → Fq) ((Fq × List (Level n Fq)) × (Fq × List (Level n Fq))))
    (hA : A.Within (2 ^ 80)) :
    ShareAtMost 1 (2 ^ 92)
      (fun π => (A.run π).1.1 ≠ (A.run π).2.1 ∧ (A.run π).1.2.length ≤ 2 ^ 32 ∧
        (A.run π).1.2.map Level.place = (A.run π).2.2.map Level.place ∧
        (∀ L ∈ (A.run π).1.2 ++ (A.run π).2.2, L.others 0 ∈ D) ∧
        climb π (A.run π).1.2 (A.run π).1.1 = climb π (A.run π).2.2 (A.run π).2.1) := by
  have hq : 0 < q ^ (n + 1) := Nat.pow_pos (by decide +kernel)
  have h := C109_binding D (2 ^ 32) A _ hA
  rw [card_Fq] at h
  exact h.simplify (a' := ((2 ^ 80 + 2 * 2 ^ 32 + 1) * (2 ^ 80 + 2 * 2 ^ 32 + 2) / 2 + (2 ^ 80 + 2 * 2 ^ 32 + 2) * 2 ^ 64) * q ^ (n + 1))
    (Nat.mul_le_mul_right _ (Nat.add_le_add_left (Nat.mul_le_mul_left _ hD) _)) (Nat.mul_pos (by norm_num) hq)
    (numbers_bound (by decide +kernel) (by decide +kernel))

/-- **C109 is about something.** There are permutations for which an opening of one level leads from two leaves to the same root. -/
example : ∃ π : Equiv.Perm (Fin 2 → Fq), climb π [⟨0, ![1, 0]⟩] 0 = climb π [⟨0, ![1, 0]⟩] 1 := by
  refine ⟨Equiv.swap ![1, 1] ![2, 0], ?_⟩
  have e0 : Level.state (n := 0) ⟨0, ![(1 : Fq), 0]⟩ 0 = ![1, 0] := by funext a; fin_cases a <;> simp [Level.state]
  have e1 : Level.state (n := 0) ⟨0, ![(1 : Fq), 0]⟩ 1 = ![1, 1] := by funext a; fin_cases a <;> simp [Level.state]
  have h1 : (![1, 0] : Fin 2 → Fq) ≠ ![1, 1] := fun e => zero_ne_one (congrFun e 1)
  have h2 : (![1, 0] : Fin 2 → Fq) ≠ ![2, 0] := fun e => by
    have : (1 : Fq) = 2 := congrFun e 0
    exact one_ne_zero (α := Fq) (by linear_combination -this)
  rw [climb, climb, climb, climb, e0, e1, digestWith, digestWith, Equiv.swap_apply_left, Equiv.swap_apply_of_ne_of_ne h1 h2]
  rfl

/-- The levels of a tree of pairs -/
def pairLevel (ds : Fq) (s : Bool × Fq) : Level 1 Fq := ⟨if s.1 then 1 else 0, ![ds, s.2, s.2]⟩

/-- **C109, the trees of C101.** With the permutation of rate 2, `climb` computes the roots of C101, of trees with `hash_2` at each node. -/
theorem C109_roots : ∃ π : Equiv.Perm (Fin 3 → Fq), ∀ (ds : Fq) (l : List (Bool × Fq)) (x : Fq), binaryRoot ds l x = .ok (climb π (l.map (pairLevel ds)) x) := by
  obtain ⟨π, hπ⟩ := C107_mode.2.1
  refine ⟨π, fun ds l => ?_⟩
  induction l with
  | nil => intro x; rfl
  | cons s l ih =>
    intro x
    obtain ⟨b, s⟩ := s
    cases b with
    | false =>
      have h1 := hπ ((pairLevel ds (false, s)).state x)
      have e : (pairLevel ds (false, s)).state x = ![ds, x, s] := by
        funext a; fin_cases a <;> simp [pairLevel, Level.state]
      rw [e] at h1
      have h2 : hash2 ds (x, s) = .ok (digestWith π ![ds, x, s]) := h1
      rw [binaryRoot, h2, ok_bind, ih, List.map_cons, climb, e]
    | true =>
      have h1 := hπ ((pairLevel ds (true, s)).state x)
      have e : (pairLevel ds (true, s)).state x = ![ds, s, x] := by
        funext a; fin_cases a <;> simp [pairLevel, Level.state]
      rw [e] at h1
      have h2 : hash2 ds (s, x) = .ok (digestWith π ![ds, s, x]) := h1
      rw [binaryRoot, h2, ok_bind, ih, List.map_cons, climb, e]

end Poseidon
