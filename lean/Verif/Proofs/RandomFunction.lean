import Mathlib.Tactic.FieldSimp
import Mathlib.Tactic.Positivity
import Mathlib.Tactic.Linarith
import Mathlib.Algebra.BigOperators.Field
import Mathlib.Algebra.Order.BigOperators.Ring.Finset
import Mathlib.Data.Rat.Cast.Order
import Verif.Spec.RandomFunction
import Verif.Proofs.Keyed

/-! # A simulator for the permutation -/

set_option linter.unusedSectionVars false

namespace Poseidon

open Finset

/-! ## Choices -/

theorem Draw.mean_nonneg {A : Type} (c : Draw A) {f : A → ℚ} (h : ∀ a, 0 ≤ f a) : 0 ≤ c.mean f :=
  div_nonneg (sum_nonneg fun a _ => h a) (Nat.cast_nonneg _)

theorem Draw.mean_compl {A : Type} (c : Draw A) (f : A → ℚ) : (c.mean fun a => 1 - f a) = 1 - c.mean f := by
  have h : (c.1.card : ℚ) ≠ 0 := by exact_mod_cast c.2.card_pos.ne'
  rw [Draw.mean, Draw.mean, sum_sub_distrib, sum_const, nsmul_eq_mul, mul_one, sub_div, div_self h]

/-- `f` of a random element of `s`; `a` if there is none -/
def pick {S A : Type} (s : Finset S) (f : S ↪ A) (a : A) : Draw A := if h : s.Nonempty then ⟨s.map f, h.map⟩ else ⟨{a}, singleton_nonempty a⟩

theorem mean_pick {S A : Type} {s : Finset S} (h : s.Nonempty) (f : S ↪ A) (a : A) (g : A → ℚ) :
    (pick s f a).mean g = (∑ x ∈ s, g (f x)) / s.card := by
  rw [pick, dif_pos h, Draw.mean, sum_map, card_map]

theorem mean_single {A : Type} (a : A) (g : A → ℚ) : Draw.mean (⟨{a}, singleton_nonempty a⟩ : Draw A) g = g a := by
  simp [Draw.mean]

section ideal

variable {S F : Type} {H : S → Prop} (Z : Simulator S F) (ρ : S → F)

theorem ideal_nonneg : ∀ (A : Distinguisher S F H) (σ : Z.Notes), 0 ≤ A.ideal Z ρ σ
  | .answer yes, _ => by rw [Distinguisher.ideal]; split <;> norm_num
  | .hash _ _ next, σ => ideal_nonneg (next _) σ
  | .ask _ next, _ => Draw.mean_nonneg _ fun r => ideal_nonneg (next r.2) r.1
  | .askBack _ next, _ => Draw.mean_nonneg _ fun r => ideal_nonneg (next r.2) r.1

/-- The same algorithm with the opposite answers -/
def Distinguisher.opposite : Distinguisher S F H → Distinguisher S F H
  | .answer yes => .answer !yes
  | .hash x h next => .hash x h fun d => (next d).opposite
  | .ask x next => .ask x fun y => (next y).opposite
  | .askBack y next => .askBack y fun x => (next x).opposite

theorem within_opposite : ∀ {A : Distinguisher S F H} {Q : Nat}, A.Within Q → A.opposite.Within Q
  | .answer _, Q, _ => by cases Q <;> trivial
  | .hash _ _ _, 0, h => h.elim
  | .ask _ _, 0, h => h.elim
  | .askBack _ _, 0, h => h.elim
  | .hash _ _ _, _ + 1, h => fun d => within_opposite (h d)
  | .ask _ _, _ + 1, h => fun d => within_opposite (h d)
  | .askBack _ _, _ + 1, h => fun d => within_opposite (h d)

theorem ideal_opposite : ∀ (A : Distinguisher S F H) (σ : Z.Notes), A.opposite.ideal Z ρ σ = 1 - A.ideal Z ρ σ
  | .answer yes, _ => by cases yes <;> simp [Distinguisher.opposite, Distinguisher.ideal]
  | .hash _ _ next, σ => ideal_opposite (next _) σ
  | .ask _ next, _ => by
    refine Eq.trans ?_ (Draw.mean_compl _ _)
    exact congrArg (Draw.mean _) (funext fun r : Z.Notes × S => ideal_opposite (next r.2) r.1)
  | .askBack _ next, _ => by
    refine Eq.trans ?_ (Draw.mean_compl _ _)
    exact congrArg (Draw.mean _) (funext fun r : Z.Notes × S => ideal_opposite (next r.2) r.1)

theorem ideal_le_one (A : Distinguisher S F H) (σ : Z.Notes) : A.ideal Z ρ σ ≤ 1 := by
  have := ideal_nonneg Z ρ A.opposite σ
  rw [ideal_opposite] at this
  linarith

end ideal

variable {F : Type} [Fintype F] [DecidableEq F] {n : Nat}

local notation "State" => Fin (n + 2) → F

/-! ## The simulator -/

/-- the possible images with word 1 equal to `d` -/
def freeImages (L : List (State × State)) (d : F) : Finset State := univ.filter fun y => y 1 = d ∧ ∀ p ∈ L, p.2 ≠ y

/-- the possible preimages with a domain separator that is not in use -/
def freePreimages (D : Finset F) (L : List (State × State)) : Finset State := univ.filter fun x => x 0 ∉ D ∧ ∀ p ∈ L, p.1 ≠ x

/-- how the simulator answers for an image -/
def listImage (L : List (State × State)) (x : State) (d : F) : Draw (List (State × State) × State) :=
  match L.find? (fun p => p.1 = x) with
  | some p => ⟨{(L, p.2)}, singleton_nonempty _⟩
  | none => pick (freeImages L d) ⟨fun y => ((x, y) :: L, y), fun _ _ h => (Prod.mk.inj h).2⟩ (L, x)

/-- how the simulator answers for a preimage -/
def listPreimage (D : Finset F) (L : List (State × State)) (y : State) : Draw (List (State × State) × State) :=
  match L.find? (fun p => p.2 = y) with
  | some p => ⟨{(L, p.1)}, singleton_nonempty _⟩
  | none => pick (freePreimages D L) ⟨fun x => ((x, y) :: L, x), fun _ _ h => (Prod.mk.inj h).2⟩ (L, y)

/-- The simulator notes the pairs it made known.  Images are chosen with the digest in word 1, preimages with a domain separator that is not in use. -/
def listSimulator (n : Nat) (D : Finset F) : Simulator (Fin (n + 2) → F) F where
  Notes := List ((Fin (n + 2) → F) × (Fin (n + 2) → F))
  start := []
  image := listImage
  preimage := listPreimage D

theorem listImage_known {L : List (State × State)} {x : State} {p : State × State} (hp : L.find? (fun p => p.1 = x) = some p) (d : F)
    (f : List (State × State) × State → ℚ) : (listImage L x d).mean f = f (L, p.2) := by
  unfold listImage
  rw [hp]
  exact mean_single _ _

theorem listImage_free {L : List (State × State)} {x : State} (hx : L.find? (fun p => p.1 = x) = none) {d : F} (hs : (freeImages L d).Nonempty)
    (f : List (State × State) × State → ℚ) : (listImage L x d).mean f = (∑ y ∈ freeImages L d, f ((x, y) :: L, y)) / (freeImages L d).card := by
  unfold listImage
  rw [hx]
  exact mean_pick hs _ _ _

theorem listPreimage_known {L : List (State × State)} {y : State} {p : State × State} (hp : L.find? (fun p => p.2 = y) = some p) (D : Finset F)
    (f : List (State × State) × State → ℚ) : (listPreimage D L y).mean f = f (L, p.1) := by
  unfold listPreimage
  rw [hp]
  exact mean_single _ _

theorem listPreimage_free {L : List (State × State)} {y : State} (hy : L.find? (fun p => p.2 = y) = none) {D : Finset F} (hs : (freePreimages D L).Nonempty)
    (f : List (State × State) × State → ℚ) :
    (listPreimage D L y).mean f = (∑ x ∈ freePreimages D L, f ((x, y) :: L, x)) / (freePreimages D L).card := by
  unfold listPreimage
  rw [hy]
  exact mean_pick hs _ _ _

/-! ## Permutations and functions that agree with what is known -/

open scoped Classical in
/-- the permutations that agree with the pairs `L` and the digests `C` -/
noncomputable def Agreeing (L : List (State × State)) (C : List (State × F)) : Finset (Equiv.Perm State) :=
  univ.filter fun π => (∀ p ∈ L, π p.1 = p.2) ∧ ∀ p ∈ C, π p.1 1 = p.2

theorem mem_agreeing {L : List (State × State)} {C : List (State × F)} {π : Equiv.Perm State} :
    π ∈ Agreeing L C ↔ (∀ p ∈ L, π p.1 = p.2) ∧ ∀ p ∈ C, π p.1 1 = p.2 := by simp [Agreeing]

/-- the functions that agree with the digests `C` -/
def Functions (C : List (State × F)) : Finset (State → F) := univ.filter fun ρ => ∀ p ∈ C, ρ p.1 = p.2

theorem mem_functions {C : List (State × F)} {ρ : State → F} : ρ ∈ Functions C ↔ ∀ p ∈ C, ρ p.1 = p.2 := by simp [Functions]

/-- the states that occur -/
def known (L : List (State × State)) (C : List (State × F)) : Finset State := (L.map Prod.fst).toFinset ∪ (C.map Prod.fst).toFinset

theorem mem_known {L : List (State × State)} {C : List (State × F)} {x : State} :
    x ∈ known L C ↔ (∃ p ∈ L, p.1 = x) ∨ ∃ p ∈ C, p.1 = x := by simp [known]

variable {D : Finset F}

local notation "Dist" D => Distinguisher (Fin (n + 2) → F) F (fun x => x 0 ∈ D)

/-- how many permutations that agree make `A` say yes -/
noncomputable def yes (L : List (State × State)) (C : List (State × F)) (A : Dist D) : Nat := ((Agreeing L C).filter fun π => A.real π = true).card

/-- the chance of yes for the functions that agree -/
def chance (C : List (State × F)) (L : List (State × State)) (A : Dist D) : ℚ :=
  (∑ ρ ∈ Functions C, A.ideal (listSimulator n D) ρ L) / (Functions C).card

theorem yes_le (L : List (State × State)) (C : List (State × F)) (A : Dist D) : yes L C A ≤ (Agreeing L C).card := card_filter_le _ _

theorem yes_true (L : List (State × State)) (C : List (State × F)) : yes (D := D) L C (.answer true) = (Agreeing L C).card := by
  simp [yes, Distinguisher.real]

theorem chance_nonneg (C : List (State × F)) (L : List (State × State)) (A : Dist D) : 0 ≤ chance C L A :=
  div_nonneg (sum_nonneg fun ρ _ => ideal_nonneg (listSimulator n D) ρ A L) (Nat.cast_nonneg _)

theorem chance_le_one (C : List (State × F)) (L : List (State × State)) (A : Dist D) : chance C L A ≤ 1 := by
  refine div_le_one_of_le₀ ?_ (Nat.cast_nonneg _)
  refine (sum_le_sum fun ρ _ => ideal_le_one (listSimulator n D) ρ A L).trans ?_
  rw [sum_const, nsmul_eq_mul, mul_one]

/-! ### Splitting by an answer -/

theorem agreeing_cons {L : List (State × State)} {C : List (State × F)} {π : Equiv.Perm State} {x y : State} :
    π ∈ Agreeing ((x, y) :: L) C ↔ π ∈ Agreeing L C ∧ π x = y := by
  simp only [mem_agreeing, List.forall_mem_cons]
  tauto

theorem agreeing_digest {L : List (State × State)} {C : List (State × F)} {π : Equiv.Perm State} {x : State} {d : F} :
    π ∈ Agreeing L ((x, d) :: C) ↔ π ∈ Agreeing L C ∧ π x 1 = d := by
  simp only [mem_agreeing, List.forall_mem_cons]
  tauto

theorem yes_ask (L : List (State × State)) (C : List (State × F)) (x : State) (next : State → Dist D) :
    yes L C (.ask x next) = ∑ y, yes ((x, y) :: L) C (next y) := by
  rw [yes, card_eq_sum_card_fiberwise (f := fun π => π x) (t := univ) fun _ _ => mem_univ _]
  refine sum_congr rfl fun y _ => congrArg card ?_
  ext π
  rw [mem_filter, mem_filter, mem_filter, agreeing_cons]
  simp only [Distinguisher.real]
  constructor
  · rintro ⟨⟨h1, h2⟩, rfl⟩; exact ⟨⟨h1, rfl⟩, h2⟩
  · rintro ⟨⟨h1, rfl⟩, h2⟩; exact ⟨⟨h1, h2⟩, rfl⟩

theorem yes_back (L : List (State × State)) (C : List (State × F)) (y : State) (next : State → Dist D) :
    yes L C (.askBack y next) = ∑ x, yes ((x, y) :: L) C (next x) := by
  rw [yes, card_eq_sum_card_fiberwise (f := fun π => π.symm y) (t := univ) fun _ _ => mem_univ _]
  refine sum_congr rfl fun x _ => congrArg card ?_
  ext π
  rw [mem_filter, mem_filter, mem_filter, agreeing_cons]
  simp only [Distinguisher.real]
  constructor
  · rintro ⟨⟨h1, h2⟩, rfl⟩; exact ⟨⟨h1, Equiv.apply_symm_apply _ _⟩, h2⟩
  · rintro ⟨⟨h1, rfl⟩, h2⟩; rw [Equiv.symm_apply_apply]; exact ⟨⟨h1, h2⟩, rfl⟩

theorem yes_hash (L : List (State × State)) (C : List (State × F)) (x : State) (hx : x 0 ∈ D) (next : F → Dist D) :
    yes L C (.hash x hx next) = ∑ d, yes L ((x, d) :: C) (next d) := by
  rw [yes, card_eq_sum_card_fiberwise (f := fun π => π x 1) (t := univ) fun _ _ => mem_univ _]
  refine sum_congr rfl fun d _ => congrArg card ?_
  ext π
  rw [mem_filter, mem_filter, mem_filter, agreeing_digest]
  simp only [Distinguisher.real, digestWith]
  constructor
  · rintro ⟨⟨h1, h2⟩, rfl⟩; exact ⟨⟨h1, rfl⟩, h2⟩
  · rintro ⟨⟨h1, rfl⟩, h2⟩; exact ⟨⟨h1, h2⟩, rfl⟩

theorem yes_digest (L : List (State × State)) (C : List (State × F)) (x : State) (A : Dist D) :
    yes L C A = ∑ d, yes L ((x, d) :: C) A := by
  rw [yes, card_eq_sum_card_fiberwise (f := fun π => π x 1) (t := univ) fun _ _ => mem_univ _]
  refine sum_congr rfl fun d _ => congrArg card ?_
  ext π
  simp only [mem_filter, agreeing_digest]
  tauto

theorem agreeing_card_ask (L : List (State × State)) (C : List (State × F)) (x : State) :
    (Agreeing L C).card = ∑ y, (Agreeing ((x, y) :: L) C).card := by
  have h := yes_ask (D := (∅ : Finset F)) L C x fun _ => .answer true
  simpa only [yes_true, yes, Distinguisher.real, filter_true] using h

theorem agreeing_card_back (L : List (State × State)) (C : List (State × F)) (y : State) :
    (Agreeing L C).card = ∑ x, (Agreeing ((x, y) :: L) C).card := by
  have h := yes_back (D := (∅ : Finset F)) L C y fun _ => .answer true
  simpa only [yes_true, yes, Distinguisher.real, filter_true] using h

theorem agreeing_card_digest (L : List (State × State)) (C : List (State × F)) (x : State) :
    (Agreeing L C).card = ∑ d, (Agreeing L ((x, d) :: C)).card := by
  have h := yes_digest (D := (∅ : Finset F)) L C x (.answer true)
  simpa only [yes_true] using h

/-! ### Symmetry -/

/-- All states in a set of which nothing is known are equally likely to be the preimage. -/
theorem agreeing_fresh {L : List (State × State)} {C : List (State × F)} {X : Finset State} (hX : ∀ x ∈ X, x ∉ known L C) {x : State} (hx : x ∈ X) (y : State) :
    (Agreeing ((x, y) :: L) C).card * X.card ≤ (Agreeing L C).card := by
  rw [agreeing_card_back L C y, mul_comm, ← smul_eq_mul, ← sum_const]
  refine le_trans (sum_le_sum (g := fun x' => (Agreeing ((x', y) :: L) C).card) fun x' hx' => ?_) (sum_le_sum_of_subset (subset_univ X))
  refine card_le_card_of_injOn (fun π => π * Equiv.swap x x') (fun π hπ => ?_) fun π _ π' _ h => mul_right_cancel h
  rw [mem_coe, agreeing_cons] at hπ ⊢
  obtain ⟨h1, h2⟩ := hπ
  have hn := hX x hx
  have hn' := hX x' hx'
  rw [mem_known, not_or] at hn hn'
  rw [mem_agreeing] at h1 ⊢
  refine ⟨⟨fun p hp => ?_, fun p hp => ?_⟩, ?_⟩
  · rw [Equiv.Perm.mul_apply, Equiv.swap_apply_of_ne_of_ne (fun e => hn.1 ⟨p, hp, e⟩) (fun e => hn'.1 ⟨p, hp, e⟩)]
    exact h1.1 p hp
  · rw [Equiv.Perm.mul_apply, Equiv.swap_apply_of_ne_of_ne (fun e => hn.2 ⟨p, hp, e⟩) (fun e => hn'.2 ⟨p, hp, e⟩)]
    exact h1.2 p hp
  · rw [Equiv.Perm.mul_apply, Equiv.swap_apply_right, h2]

/-- All images with the digest in word 1 that are not taken are equally likely. -/
theorem agreeing_image {L : List (State × State)} {C : List (State × F)} (x : State) {d : F} {y : State} (hy : y ∈ freeImages L d) :
    (Agreeing ((x, y) :: L) C).card * (freeImages L d).card ≤ (Agreeing L C).card := by
  rw [agreeing_card_ask L C x, mul_comm, ← smul_eq_mul, ← sum_const]
  refine le_trans (sum_le_sum (g := fun y' => (Agreeing ((x, y') :: L) C).card) fun y' hy' => ?_) (sum_le_sum_of_subset (subset_univ (freeImages L d)))
  refine card_le_card_of_injOn (fun π => Equiv.swap y y' * π) (fun π hπ => ?_) fun π _ π' _ h => mul_left_cancel h
  rw [mem_coe, agreeing_cons] at hπ ⊢
  obtain ⟨h1, h2⟩ := hπ
  simp only [freeImages, mem_filter, mem_univ, true_and] at hy hy'
  rw [mem_agreeing] at h1 ⊢
  have hsame : ∀ z : State, Equiv.swap y y' z 1 = z 1 := by
    intro z
    rw [Equiv.swap_apply_def]
    split
    · next e => rw [e, hy.1, hy'.1]
    · split
      · next e => rw [e, hy.1, hy'.1]
      · rfl
  refine ⟨⟨fun p hp => ?_, fun p hp => ?_⟩, ?_⟩
  · rw [Equiv.Perm.mul_apply, h1.1 p hp, Equiv.swap_apply_of_ne_of_ne (hy.2 p hp) (hy'.2 p hp)]
  · rw [Equiv.Perm.mul_apply, hsame]
    exact h1.2 p hp
  · rw [Equiv.Perm.mul_apply, h2, Equiv.swap_apply_left]

theorem agreeing_empty {L : List (State × State)} {C : List (State × F)} {x y : State} (h : ∀ π ∈ Agreeing L C, π x ≠ y) :
    (Agreeing ((x, y) :: L) C).card = 0 := by
  rw [card_eq_zero, eq_empty_iff_forall_notMem]
  intro π hπ
  rw [agreeing_cons] at hπ
  exact h π hπ.1 hπ.2

/-! ### The chance with a random function -/

theorem functions_cons {C : List (State × F)} {ρ : State → F} {x : State} {d : F} : ρ ∈ Functions ((x, d) :: C) ↔ ρ ∈ Functions C ∧ ρ x = d := by
  simp only [mem_functions, List.forall_mem_cons]
  tauto

theorem sum_functions (C : List (State × F)) (x : State) (f : (State → F) → ℚ) :
    ∑ ρ ∈ Functions C, f ρ = ∑ d, ∑ ρ ∈ Functions ((x, d) :: C), f ρ := by
  rw [← sum_fiberwise_of_maps_to (g := fun ρ => ρ x) (t := univ) fun _ _ => mem_univ _]
  refine sum_congr rfl fun d _ => sum_congr ?_ fun _ _ => rfl
  ext ρ
  rw [mem_filter, functions_cons]

theorem functions_card {C : List (State × F)} {x : State} (hx : ∀ p ∈ C, p.1 ≠ x) (d : F) :
    (Functions C).card = Fintype.card F * (Functions ((x, d) :: C)).card := by
  have h : ∀ d d' : F, (Functions ((x, d) :: C)).card ≤ (Functions ((x, d') :: C)).card := by
    intro d d'
    refine card_le_card_of_injOn (fun ρ => Function.update ρ x d') (fun ρ hρ => ?_) fun ρ hρ ρ' hρ' e => ?_
    · rw [mem_coe, functions_cons] at hρ ⊢
      refine ⟨mem_functions.2 fun p hp => ?_, Function.update_self ..⟩
      show Function.update ρ x d' p.1 = p.2
      rw [Function.update_of_ne (hx p hp)]
      exact mem_functions.1 hρ.1 p hp
    · rw [mem_coe, functions_cons] at hρ hρ'
      funext z
      by_cases hz : z = x
      · rw [hz, hρ.2, hρ'.2]
      · have := congrFun e z
        simpa only [Function.update_of_ne hz] using this
  have h1 : ((Functions C).card : ℚ) = ∑ d', ((Functions ((x, d') :: C)).card : ℚ) := by
    have := sum_functions C x fun _ => 1
    simpa using this
  have h2 : (Functions C).card = ∑ d', (Functions ((x, d') :: C)).card := by exact_mod_cast h1
  rw [h2, sum_congr rfl fun d' _ => le_antisymm (h d' d) (h d d'), sum_const, card_univ, smul_eq_mul]

/-- The digest of a state about which nothing is known is uniformly distributed. -/
theorem chance_fresh {C : List (State × F)} {x : State} (hx : ∀ p ∈ C, p.1 ≠ x) (L : List (State × State)) (A : Dist D) :
    chance C L A = (∑ d, chance ((x, d) :: C) L A) / Fintype.card F := by
  rw [chance, sum_functions C x, sum_div, sum_div]
  refine sum_congr rfl fun d _ => ?_
  rw [functions_card hx d, Nat.cast_mul, chance, div_div, mul_comm]

theorem chance_hash {C : List (State × F)} {x : State} {d : F} (hd : (x, d) ∈ C) (L : List (State × State)) (hx : x 0 ∈ D) (next : F → Dist D) :
    chance C L (.hash x hx next) = chance C L (next d) := by
  rw [chance, chance]
  congr 1
  refine sum_congr rfl fun ρ hρ => ?_
  show (next (ρ x)).ideal (listSimulator n D) ρ L = _
  rw [show ρ x = d from mem_functions.1 hρ _ hd]

theorem mean_swap {A B : Type} (s : Finset A) (t : Finset B) (f : A → B → ℚ) (c e : ℚ) :
    (∑ a ∈ s, (∑ b ∈ t, f a b) / c) / e = (∑ b ∈ t, (∑ a ∈ s, f a b) / e) / c := by
  rw [← sum_div, ← sum_div, sum_comm, div_div, div_div, mul_comm]

theorem chance_ask_known {C : List (State × F)} {L : List (State × State)} {x : State} {p : State × State} (hp : L.find? (fun p => p.1 = x) = some p)
    (next : State → Dist D) : chance C L (.ask x next) = chance C L (next p.2) := by
  rw [chance, chance]
  congr 1
  refine sum_congr rfl fun ρ _ => ?_
  exact listImage_known hp (ρ x) fun r => (next r.2).ideal (listSimulator n D) ρ r.1

theorem chance_ask {C : List (State × F)} {L : List (State × State)} {x : State} (hx : L.find? (fun p => p.1 = x) = none) {d : F} (hd : (x, d) ∈ C)
    (hs : (freeImages L d).Nonempty) (next : State → Dist D) :
    chance C L (.ask x next) = (∑ y ∈ freeImages L d, chance C ((x, y) :: L) (next y)) / (freeImages L d).card := by
  simp only [chance]
  rw [← mean_swap]
  congr 1
  refine sum_congr rfl fun ρ hρ => ?_
  have h := listImage_free hx (d := ρ x) (by rw [show ρ x = d from mem_functions.1 hρ _ hd]; exact hs) fun r => (next r.2).ideal (listSimulator n D) ρ r.1
  rw [show ρ x = d from mem_functions.1 hρ _ hd] at h
  refine Eq.trans ?_ h
  rw [← show ρ x = d from mem_functions.1 hρ _ hd]
  rfl

theorem chance_back_known {C : List (State × F)} {L : List (State × State)} {y : State} {p : State × State} (hp : L.find? (fun p => p.2 = y) = some p)
    (next : State → Dist D) : chance C L (.askBack y next) = chance C L (next p.1) := by
  rw [chance, chance]
  congr 1
  refine sum_congr rfl fun ρ _ => ?_
  exact listPreimage_known hp D fun r => (next r.2).ideal (listSimulator n D) ρ r.1

theorem chance_back {C : List (State × F)} {L : List (State × State)} {y : State} (hy : L.find? (fun p => p.2 = y) = none)
    (hs : (freePreimages D L).Nonempty) (next : State → Dist D) :
    chance C L (.askBack y next) = (∑ x ∈ freePreimages D L, chance C ((x, y) :: L) (next x)) / (freePreimages D L).card := by
  simp only [chance]
  rw [← mean_swap]
  congr 1
  refine sum_congr rfl fun ρ _ => ?_
  exact listPreimage_free hy hs fun r => (next r.2).ideal (listSimulator n D) ρ r.1

/-! ### One question -/

theorem fresh_bound {L : List (State × State)} {C : List (State × F)} {Q : Nat} (hk : (known L C).card ≤ Q) {x : State} (hx : x ∉ known L C) (y : State) :
    ((Agreeing ((x, y) :: L) C).card : ℚ) * ((Fintype.card F ^ (n + 2) : Nat) - Q) ≤ (Agreeing L C).card := by
  have h := agreeing_fresh (L := L) (C := C) (X := (known L C)ᶜ) (fun x hx => mem_compl.1 hx) (mem_compl.2 hx) y
  rw [card_compl, card_state] at h
  have h1 : ((Fintype.card F ^ (n + 2) : Nat) : ℚ) - Q ≤ ((Fintype.card F ^ (n + 2) - (known L C).card : Nat) : ℚ) := by
    have e1 : ((Fintype.card F ^ (n + 2) : Nat) : ℚ) ≤ ((Fintype.card F ^ (n + 2) - (known L C).card : Nat) : ℚ) + (known L C).card := by
      exact_mod_cast (by omega : Fintype.card F ^ (n + 2) ≤ Fintype.card F ^ (n + 2) - (known L C).card + (known L C).card)
    have e2 : ((known L C).card : ℚ) ≤ Q := by exact_mod_cast hk
    linarith
  refine (mul_le_mul_of_nonneg_left h1 (Nat.cast_nonneg _)).trans ?_
  exact_mod_cast h

theorem digest_bound {L : List (State × State)} {C : List (State × F)} {Q : Nat} (hk : (known L C).card ≤ Q) {x : State} (hx : x ∉ known L C) (d : F) :
    ((Agreeing L ((x, d) :: C)).card : ℚ) * ((Fintype.card F ^ (n + 2) : Nat) - Q) ≤ (Fintype.card F ^ (n + 1) : Nat) * (Agreeing L C).card := by
  have h1 : (Agreeing L ((x, d) :: C)).card ≤ ∑ y ∈ univ.filter fun y : State => y 1 = d, (Agreeing ((x, y) :: L) C).card := by
    rw [agreeing_card_ask L _ x, ← sum_filter_add_sum_filter_not univ fun y : State => y 1 = d]
    have h2 : ∑ y ∈ univ.filter (fun y : State => ¬ y 1 = d), (Agreeing ((x, y) :: L) ((x, d) :: C)).card = 0 := by
      refine sum_eq_zero fun y hy => agreeing_empty fun π hπ e => (mem_filter.1 hy).2 ?_
      rw [← e]
      exact (agreeing_digest.1 hπ).2
    rw [h2, add_zero]
    refine sum_le_sum fun y _ => card_le_card fun π hπ => ?_
    exact (agreeing_digest.1 hπ).1
  rcases le_or_gt (((Fintype.card F ^ (n + 2) : Nat) : ℚ) - Q) 0 with h0 | h0
  · exact (mul_nonpos_of_nonneg_of_nonpos (Nat.cast_nonneg _) h0).trans (mul_nonneg (Nat.cast_nonneg _) (Nat.cast_nonneg _))
  · have h2 : ((Agreeing L ((x, d) :: C)).card : ℚ) ≤ ∑ y ∈ univ.filter fun y : State => y 1 = d, ((Agreeing ((x, y) :: L) C).card : ℚ) := by exact_mod_cast h1
    refine (mul_le_mul_of_nonneg_right h2 h0.le).trans ?_
    rw [sum_mul]
    refine (sum_le_sum fun y _ => fresh_bound hk hx y).trans ?_
    rw [sum_const, card_word_eq, nsmul_eq_mul]

/-- a question whose answer is, or contains, a new digest -/
theorem step_digest {L : List (State × State)} {C : List (State × F)} {Q : Nat} (hk : (known L C).card ≤ Q) (hQ : Q < Fintype.card F ^ (n + 1)) {x : State}
    (hx : x ∉ known L C) {f : F → ℚ} (h0 : ∀ d, 0 ≤ f d) (h1 : ∀ d, f d ≤ 1) {e : ℚ} {X : F → Nat}
    (hX : ∀ d, (X d : ℚ) ≤ (f d + e) * (Agreeing L ((x, d) :: C)).card) :
    ((∑ d, X d : Nat) : ℚ) ≤ ((∑ d, f d) / Fintype.card F + (Q / ((Fintype.card F ^ (n + 2) : Nat) - Q) + e)) * (Agreeing L C).card := by
  set N : ℚ := ((Agreeing L C).card : ℚ) with hN
  have hc : (0 : ℚ) < Fintype.card F := by
    rcases Nat.eq_zero_or_pos (Fintype.card F) with h | h
    · rw [h, Nat.zero_pow (Nat.succ_pos _)] at hQ; exact absurd hQ (Nat.not_lt_zero _)
    · exact_mod_cast h
  have hpow : Fintype.card F ^ (n + 1) ≤ Fintype.card F ^ (n + 2) := Nat.pow_le_pow_right (by exact_mod_cast hc) (by omega)
  have hm : (0 : ℚ) < (Fintype.card F ^ (n + 2) : Nat) - Q := sub_pos.2 (by exact_mod_cast lt_of_lt_of_le hQ hpow)
  have h2 : ∑ d, ((Agreeing L ((x, d) :: C)).card : ℚ) = N := by
    rw [hN, agreeing_card_digest L C x]
    push_cast
    rfl
  have h3 : ∀ d, ((Agreeing L ((x, d) :: C)).card : ℚ) ≤ (1 + Q / ((Fintype.card F ^ (n + 2) : Nat) - Q)) / Fintype.card F * N := by
    intro d
    have h := digest_bound hk hx d
    rw [← le_div_iff₀ hm] at h
    refine h.trans (le_of_eq ?_)
    rw [← hN]
    field_simp
    push_cast
    ring
  have h4 : ∑ d, f d * (Agreeing L ((x, d) :: C)).card ≤ ((∑ d, f d) / Fintype.card F + Q / ((Fintype.card F ^ (n + 2) : Nat) - Q)) * N := by
    refine (sum_le_sum fun d _ => mul_le_mul_of_nonneg_left (h3 d) (h0 d)).trans ?_
    rw [← sum_mul]
    have h5 : (∑ d, f d) / Fintype.card F ≤ 1 := by
      rw [div_le_one hc]
      refine (sum_le_sum fun d _ => h1 d).trans ?_
      rw [sum_const, nsmul_eq_mul, mul_one, card_univ]
    have h6 : (0 : ℚ) ≤ Q / ((Fintype.card F ^ (n + 2) : Nat) - Q) := div_nonneg (Nat.cast_nonneg _) hm.le
    have h7 : (0 : ℚ) ≤ N := Nat.cast_nonneg _
    calc (∑ d, f d) * ((1 + Q / ((Fintype.card F ^ (n + 2) : Nat) - Q)) / Fintype.card F * N)
        = ((∑ d, f d) / Fintype.card F + (∑ d, f d) / Fintype.card F * (Q / ((Fintype.card F ^ (n + 2) : Nat) - Q))) * N := by ring
      _ ≤ _ := mul_le_mul_of_nonneg_right (add_le_add_right (mul_le_of_le_one_left h6 h5) _) h7
  push_cast
  refine (sum_le_sum fun d _ => hX d).trans ?_
  simp only [add_mul, sum_add_distrib]
  rw [← mul_sum, h2]
  rw [add_mul] at h4
  push_cast at h4 ⊢
  linarith

/-- a question for the image of a state with a known digest -/
theorem step_image {L : List (State × State)} {C : List (State × F)} {x : State} (hx : L.find? (fun p => p.1 = x) = none) {d : F} (hd : (x, d) ∈ C)
    (hs : (freeImages L d).Nonempty) (next : State → Dist D) {e : ℚ}
    (ih : ∀ y ∈ freeImages L d, (yes ((x, y) :: L) C (next y) : ℚ) ≤ (chance C ((x, y) :: L) (next y) + e) * (Agreeing ((x, y) :: L) C).card) :
    (yes L C (.ask x next) : ℚ) ≤ (chance C L (.ask x next) + e) * (Agreeing L C).card := by
  have h0 : ∀ y, y ∉ freeImages L d → (Agreeing ((x, y) :: L) C).card = 0 := by
    refine fun y hy => agreeing_empty fun π hπ e => hy (mem_filter.2 ⟨mem_univ _, ?_, fun p hp ep => ?_⟩)
    · rw [← e]
      exact (mem_agreeing.1 hπ).2 _ hd
    · have h1 := (mem_agreeing.1 hπ).1 p hp
      have h2 : p.1 = x := π.injective (by rw [h1, ep, e])
      have h3 := List.find?_eq_none.1 hx p hp
      simp only [decide_eq_true_eq] at h3
      exact h3 h2
  have h1 : yes L C (.ask x next) = ∑ y ∈ freeImages L d, yes ((x, y) :: L) C (next y) := by
    rw [yes_ask]
    refine (sum_subset (subset_univ _) fun y _ hy => ?_).symm
    exact Nat.le_zero.1 ((yes_le _ _ _).trans (h0 y hy).le)
  have h2 : ∑ y ∈ freeImages L d, ((Agreeing ((x, y) :: L) C).card : ℚ) = (Agreeing L C).card := by
    rw [agreeing_card_ask L C x]
    push_cast
    refine sum_subset (subset_univ _) fun y _ hy => ?_
    exact_mod_cast h0 y hy
  have hc : (0 : ℚ) < (freeImages L d).card := by exact_mod_cast hs.card_pos
  rw [h1, chance_ask hx hd hs next]
  push_cast
  refine (sum_le_sum ih).trans ?_
  simp only [add_mul, sum_add_distrib]
  rw [← mul_sum, h2, sum_div, sum_mul]
  refine add_le_add_left (sum_le_sum fun y hy => ?_) _
  have h3 : ((Agreeing ((x, y) :: L) C).card : ℚ) * (freeImages L d).card ≤ (Agreeing L C).card := by exact_mod_cast agreeing_image x hy
  rw [div_mul_eq_mul_div, mul_div_assoc]
  refine mul_le_mul_of_nonneg_left ?_ (chance_nonneg _ _ _)
  rwa [le_div_iff₀ hc]

theorem freeImages_card (L : List (State × State)) (d : F) : Fintype.card F ^ (n + 1) ≤ (freeImages L d).card + L.length := by
  have h1 : (univ.filter fun y : State => y 1 = d) ⊆ freeImages L d ∪ (L.map Prod.snd).toFinset := by
    intro y hy
    rw [mem_union]
    by_cases h : y ∈ L.map Prod.snd
    · exact .inr (List.mem_toFinset.2 h)
    · exact .inl (mem_filter.2 ⟨mem_univ _, (mem_filter.1 hy).2, fun p hp e => h (List.mem_map.2 ⟨p, hp, e⟩)⟩)
  have h2 := card_le_card h1
  rw [card_word_eq] at h2
  have h3 := card_union_le (freeImages L d) (L.map Prod.snd).toFinset
  have h4 := List.toFinset_card_le (L.map Prod.snd)
  rw [List.length_map] at h4
  omega

/-- The preimage has a domain separator that is in use -/
theorem back_bound (D : Finset F) {L : List (State × State)} {C : List (State × F)} {Q : Nat} (hk : (known L C).card ≤ Q) (hL : L.length ≤ Q)
    (hQ : Q < Fintype.card F ^ (n + 1)) {y : State} (hy : ∀ p ∈ L, p.2 ≠ y) :
    ∑ x ∈ univ.filter (fun x : State => x 0 ∈ D), ((Agreeing ((x, y) :: L) C).card : ℚ) ≤
      (D.card * (Fintype.card F ^ (n + 1) : Nat) / ((Fintype.card F ^ (n + 2) : Nat) - Q) + Q * (1 / ((Fintype.card F ^ (n + 1) : Nat) - Q))) *
        (Agreeing L C).card := by
  set N : ℚ := ((Agreeing L C).card : ℚ) with hN
  have hc : 0 < Fintype.card F := by
    rcases Nat.eq_zero_or_pos (Fintype.card F) with h | h
    · rw [h, Nat.zero_pow (Nat.succ_pos _)] at hQ; exact absurd hQ (Nat.not_lt_zero _)
    · exact h
  have hpow : Fintype.card F ^ (n + 1) ≤ Fintype.card F ^ (n + 2) := Nat.pow_le_pow_right hc (by omega)
  have hm : (0 : ℚ) < (Fintype.card F ^ (n + 2) : Nat) - Q := sub_pos.2 (by exact_mod_cast lt_of_lt_of_le hQ hpow)
  have hm' : (0 : ℚ) < (Fintype.card F ^ (n + 1) : Nat) - Q := sub_pos.2 (by exact_mod_cast hQ)
  have hN0 : (0 : ℚ) ≤ N := Nat.cast_nonneg _
  have h1 : ∀ x ∉ known L C, ((Agreeing ((x, y) :: L) C).card : ℚ) ≤ N / ((Fintype.card F ^ (n + 2) : Nat) - Q) := by
    intro x hx
    rw [le_div_iff₀ hm]
    exact fresh_bound hk hx y
  have h2 : ∀ x ∈ known L C, ((Agreeing ((x, y) :: L) C).card : ℚ) ≤ N / ((Fintype.card F ^ (n + 1) : Nat) - Q) := by
    intro x hx
    rw [mem_known] at hx
    have hz : (Agreeing ((x, y) :: L) C).card = 0 → ((Agreeing ((x, y) :: L) C).card : ℚ) ≤ N / ((Fintype.card F ^ (n + 1) : Nat) - Q) := by
      intro h
      rw [h, Nat.cast_zero]
      exact div_nonneg hN0 hm'.le
    rcases hx with ⟨p, hp, rfl⟩ | ⟨p, hp, rfl⟩
    · exact hz (agreeing_empty fun π hπ e => hy p hp (by rw [← e, (mem_agreeing.1 hπ).1 p hp]))
    · by_cases hd : y 1 = p.2
      · rw [le_div_iff₀ hm']
        have h3 : y ∈ freeImages L p.2 := mem_filter.2 ⟨mem_univ _, hd, hy⟩
        have h4 : ((Agreeing ((p.1, y) :: L) C).card : ℚ) * (freeImages L p.2).card ≤ N := by rw [hN]; exact_mod_cast agreeing_image (C := C) p.1 h3
        refine (mul_le_mul_of_nonneg_left ?_ (Nat.cast_nonneg _)).trans h4
        have h5 : ((Fintype.card F ^ (n + 1) : Nat) : ℚ) ≤ (freeImages L p.2).card + L.length := by exact_mod_cast freeImages_card L p.2
        have h6 : (L.length : ℚ) ≤ Q := by exact_mod_cast hL
        linarith
      · exact hz (agreeing_empty fun π hπ e => hd (by rw [← e, (mem_agreeing.1 hπ).2 p hp]))
  have h3 : ∀ x ∈ univ.filter (fun x : State => x 0 ∈ D), ((Agreeing ((x, y) :: L) C).card : ℚ) ≤
      N / ((Fintype.card F ^ (n + 2) : Nat) - Q) + if x ∈ known L C then N / ((Fintype.card F ^ (n + 1) : Nat) - Q) else 0 := by
    intro x _
    split
    · next h => exact (h2 x h).trans (le_add_of_nonneg_left (div_nonneg hN0 hm.le))
    · next h => rw [add_zero]; exact h1 x h
  refine (sum_le_sum h3).trans ?_
  rw [sum_add_distrib, sum_const, card_word, nsmul_eq_mul, ← sum_filter, sum_const, nsmul_eq_mul, add_mul]
  refine add_le_add (le_of_eq ?_) ?_
  · push_cast
    ring
  · rw [mul_assoc, one_div_mul_eq_div]
    refine mul_le_mul_of_nonneg_right ?_ (div_nonneg hN0 hm'.le)
    exact_mod_cast (card_le_card fun x hx => (mem_filter.1 hx).2 : (filter (fun x => x ∈ known L C) (univ.filter fun x : State => x 0 ∈ D)).card ≤ (known L C).card).trans hk

/-! ### All questions -/

/-- The digests of the known pairs with domain separators in use are known; all digests are of such states or belong to known pairs. -/
structure Recorded (D : Finset F) (L : List (State × State)) (C : List (State × F)) : Prop where
  pairs : ∀ p ∈ L, p.1 0 ∈ D → (p.1, p.2 1) ∈ C
  digests : ∀ p ∈ C, p.1 0 ∈ D ∨ ∃ p' ∈ L, p'.1 = p.1

theorem known_digest (L : List (State × State)) (C : List (State × F)) (x : State) (d : F) : (known L ((x, d) :: C)).card ≤ (known L C).card + 1 := by
  refine (card_le_card (t := insert x (known L C)) fun z hz => ?_).trans (card_insert_le _ _)
  rw [mem_insert, mem_known]
  rw [mem_known] at hz
  simp only [List.mem_cons, exists_eq_or_imp] at hz
  rcases hz with h | h | h
  exacts [.inr (.inl h), .inl h.symm, .inr (.inr h)]

theorem known_pair (L : List (State × State)) (C : List (State × F)) (x y : State) : (known ((x, y) :: L) C).card ≤ (known L C).card + 1 := by
  refine (card_le_card (t := insert x (known L C)) fun z hz => ?_).trans (card_insert_le _ _)
  rw [mem_insert, mem_known]
  rw [mem_known] at hz
  simp only [List.mem_cons, exists_eq_or_imp] at hz
  rcases hz with (h | h) | h
  exacts [.inl h.symm, .inr (.inl h), .inr (.inr h)]

theorem known_both (L : List (State × State)) (C : List (State × F)) (x y : State) (d : F) : (known ((x, y) :: L) ((x, d) :: C)).card ≤ (known L C).card + 1 := by
  refine (card_le_card (t := insert x (known L C)) fun z hz => ?_).trans (card_insert_le _ _)
  rw [mem_insert, mem_known]
  rw [mem_known] at hz
  simp only [List.mem_cons, exists_eq_or_imp] at hz
  rcases hz with (h | h) | h | h
  exacts [.inl h.symm, .inr (.inl h), .inl h.symm, .inr (.inr h)]

theorem real_le {Q₀ : Nat} (hQ₀ : Q₀ < Fintype.card F ^ (n + 1)) {ε : ℚ} (hε : 0 ≤ ε)
    (hκ : (Q₀ : ℚ) / ((Fintype.card F ^ (n + 2) : Nat) - Q₀) ≤ ε)
    (hδ : (D.card * (Fintype.card F ^ (n + 1) : Nat) / ((Fintype.card F ^ (n + 2) : Nat) - Q₀) + Q₀ * (1 / ((Fintype.card F ^ (n + 1) : Nat) - Q₀)) : ℚ) ≤ ε) :
    ∀ (A : Dist D) (Q : Nat) (L : List (State × State)) (C : List (State × F)), A.Within Q → Recorded D L C → (known L C).card + Q ≤ Q₀ → L.length + Q ≤ Q₀ →
      (yes L C A : ℚ) ≤ (chance C L A + Q * ε) * (Agreeing L C).card := by
  have mono : ∀ {X c N : ℚ} {Q : Nat}, 0 ≤ N → X ≤ (c + Q * ε) * N → X ≤ (c + (Q + 1 : Nat) * ε) * N := by
    intro X c N Q hN h
    refine h.trans (mul_le_mul_of_nonneg_right ?_ hN)
    push_cast
    linarith
  intro A
  induction A with
  | answer b =>
    intro Q L C _ _ _ _
    cases b with
    | false =>
      have h : yes L C (.answer false : Dist D) = 0 := by simp [yes, Distinguisher.real]
      rw [h, Nat.cast_zero]
      exact mul_nonneg (add_nonneg (chance_nonneg _ _ _) (mul_nonneg (Nat.cast_nonneg _) hε)) (Nat.cast_nonneg _)
    | true =>
      rw [yes_true]
      rcases (Agreeing L C).eq_empty_or_nonempty with h | ⟨π, hπ⟩
      · rw [h, card_empty, Nat.cast_zero, mul_zero]
      · have h1 : ((Functions C).card : ℚ) ≠ 0 := by
          have : (Functions C).Nonempty := ⟨fun x => π x 1, mem_functions.2 (mem_agreeing.1 hπ).2⟩
          exact_mod_cast this.card_pos.ne'
        have h2 : chance C L (.answer true : Dist D) = 1 := by
          rw [chance]
          have h3 : ∀ ρ : State → F, (Distinguisher.answer true : Dist D).ideal (listSimulator n D) ρ L = 1 := fun ρ => rfl
          simp only [h3, sum_const, nsmul_eq_mul, mul_one]
          exact div_self h1
        rw [h2]
        refine le_mul_of_one_le_left (Nat.cast_nonneg _) ?_
        have : (0 : ℚ) ≤ Q * ε := mul_nonneg (Nat.cast_nonneg _) hε
        linarith
  | hash x hx next ih =>
    intro Q L C hA hF hK hL
    cases Q with
    | zero => exact hA.elim
    | succ Q =>
    by_cases h : ∃ p ∈ C, p.1 = x
    · obtain ⟨⟨_, d⟩, hp, rfl⟩ := h
      have e : yes L C (.hash _ hx next) = yes L C (next d) := by
        refine congrArg card (filter_congr fun π hπ => ?_)
        show (next (π _ 1)).real π = true ↔ _
        rw [(mem_agreeing.1 hπ).2 _ hp]
      rw [e, chance_hash hp L hx next]
      exact mono (Nat.cast_nonneg _) (ih d Q L C (hA d) hF (by omega) (by omega))
    · have hn : x ∉ known L C := by
        rw [mem_known, not_or]
        exact ⟨fun ⟨p, hp, e⟩ => h ⟨_, hF.pairs p hp (e ▸ hx), e⟩, h⟩
      have h1 := step_digest (by omega : (known L C).card ≤ Q₀) hQ₀ hn (f := fun d => chance ((x, d) :: C) L (next d)) (fun d => chance_nonneg _ _ _)
        (fun d => chance_le_one _ _ _) (e := Q * ε) (X := fun d => yes L ((x, d) :: C) (next d)) fun d => by
          have := known_digest L C x d
          refine ih d Q L ((x, d) :: C) (hA d) ⟨fun p hp hp0 => List.mem_cons_of_mem _ (hF.pairs p hp hp0), fun p hp => ?_⟩ (by omega) (by omega)
          rcases List.mem_cons.1 hp with rfl | hp
          · exact .inl hx
          · exact hF.digests p hp
      rw [← yes_hash] at h1
      refine h1.trans (mul_le_mul_of_nonneg_right ?_ (Nat.cast_nonneg _))
      rw [chance_fresh (fun p hp e => h ⟨p, hp, e⟩) L (.hash x hx next), sum_congr rfl fun d _ => chance_hash (List.mem_cons_self (a := (x, d)) (l := C)) L hx next]
      push_cast at hκ ⊢
      linarith
  | ask x next ih =>
    intro Q L C hA hF hK hL
    cases Q with
    | zero => exact hA.elim
    | succ Q =>
    have hfree : ∀ d, (freeImages L d).Nonempty := by
      intro d
      rw [← card_pos]
      have := freeImages_card L d
      omega
    cases hf : L.find? (fun p => p.1 = x) with
    | some p =>
      have hp := List.mem_of_find?_eq_some hf
      have hpx : p.1 = x := by simpa using List.find?_some hf
      have e : yes L C (.ask x next) = yes L C (next p.2) := by
        refine congrArg card (filter_congr fun π hπ => ?_)
        show (next (π x)).real π = true ↔ _
        rw [← hpx, (mem_agreeing.1 hπ).1 _ hp]
      rw [e, chance_ask_known hf]
      exact mono (Nat.cast_nonneg _) (ih p.2 Q L C (hA _) hF (by omega) (by omega))
    | none =>
      by_cases h : ∃ p ∈ C, p.1 = x
      · obtain ⟨⟨_, d⟩, hp, rfl⟩ := h
        refine mono (Nat.cast_nonneg _) (step_image hf hp (hfree d) next fun y hy => ?_)
        refine ih y Q _ C (hA y) ⟨fun p' hp' h0 => ?_, fun p' hp' => ?_⟩ ?_ (by rw [List.length_cons]; omega)
        · rcases List.mem_cons.1 hp' with rfl | hp'
          · show (_, y 1) ∈ C
            rw [(mem_filter.1 hy).2.1]; exact hp
          · exact hF.pairs p' hp' h0
        · rcases hF.digests p' hp' with h1 | ⟨p'', h1, h2⟩
          · exact .inl h1
          · exact .inr ⟨p'', List.mem_cons_of_mem _ h1, h2⟩
        · exact le_trans (Nat.add_le_add_right (known_pair L C _ y) _) (by omega)
      · have hn : x ∉ known L C := by
          rw [mem_known, not_or]
          refine ⟨fun ⟨p, hp, e⟩ => ?_, h⟩
          have := List.find?_eq_none.1 hf p hp
          simp only [decide_eq_true_eq] at this
          exact this e
        have h1 := step_digest (by omega : (known L C).card ≤ Q₀) hQ₀ hn (f := fun d => chance ((x, d) :: C) L (.ask x next)) (fun d => chance_nonneg _ _ _)
          (fun d => chance_le_one _ _ _) (e := Q * ε) (X := fun d => yes L ((x, d) :: C) (.ask x next)) fun d => by
            refine step_image hf List.mem_cons_self (hfree d) next fun y hy => ?_
            have := known_both L C x y d
            refine ih y Q _ _ (hA y) ⟨fun p' hp' h0 => ?_, fun p' hp' => ?_⟩ (by omega) (by rw [List.length_cons]; omega)
            · rcases List.mem_cons.1 hp' with rfl | hp'
              · show (_, y 1) ∈ _
                rw [(mem_filter.1 hy).2.1]; exact List.mem_cons_self
              · exact List.mem_cons_of_mem _ (hF.pairs p' hp' h0)
            · rcases List.mem_cons.1 hp' with rfl | hp'
              · exact .inr ⟨_, List.mem_cons_self, rfl⟩
              · rcases hF.digests p' hp' with h1 | ⟨p'', h1, h2⟩
                · exact .inl h1
                · exact .inr ⟨p'', List.mem_cons_of_mem _ h1, h2⟩
        rw [← yes_digest] at h1
        refine h1.trans (mul_le_mul_of_nonneg_right ?_ (Nat.cast_nonneg _))
        rw [chance_fresh (fun p hp e => h ⟨p, hp, e⟩) L (.ask x next)]
        push_cast at hκ ⊢
        linarith
  | askBack y next ih =>
    intro Q L C hA hF hK hL
    cases Q with
    | zero => exact hA.elim
    | succ Q =>
    cases hf : L.find? (fun p => p.2 = y) with
    | some p =>
      have hp := List.mem_of_find?_eq_some hf
      have hpx : p.2 = y := by simpa using List.find?_some hf
      have e : yes L C (.askBack y next) = yes L C (next p.1) := by
        refine congrArg card (filter_congr fun π hπ => ?_)
        show (next (π.symm y)).real π = true ↔ _
        rw [← hpx, ← (mem_agreeing.1 hπ).1 _ hp, Equiv.symm_apply_apply]
      rw [e, chance_back_known hf]
      exact mono (Nat.cast_nonneg _) (ih p.1 Q L C (hA _) hF (by omega) (by omega))
    | none =>
      have hy : ∀ p ∈ L, p.2 ≠ y := by
        intro p hp
        have := List.find?_eq_none.1 hf p hp
        simpa only [decide_eq_true_eq] using this
      have h0 : (0 : ℚ) ≤ (Agreeing L C).card := Nat.cast_nonneg _
      have h1 : ∑ x ∈ univ.filter (fun x : State => x 0 ∈ D), (yes ((x, y) :: L) C (next x) : ℚ) ≤ ε * (Agreeing L C).card := by
        refine (sum_le_sum fun x _ => ?_).trans ((back_bound D (by omega) (by omega) hQ₀ hy).trans (mul_le_mul_of_nonneg_right hδ h0))
        exact_mod_cast yes_le _ _ _
      have h2 : ∑ x ∈ univ.filter (fun x : State => x 0 ∉ D), (yes ((x, y) :: L) C (next x) : ℚ) =
          ∑ x ∈ freePreimages D L, (yes ((x, y) :: L) C (next x) : ℚ) := by
        refine (sum_subset (fun x hx => ?_) fun x hx hn => ?_).symm
        · rw [freePreimages, mem_filter] at hx
          exact mem_filter.2 ⟨mem_univ _, hx.2.1⟩
        · rw [freePreimages, mem_filter, not_and, not_and] at hn
          have h3 := hn (mem_univ _) (mem_filter.1 hx).2
          simp only [not_forall, not_not] at h3
          obtain ⟨p, hp, rfl⟩ := h3
          have h4 : (Agreeing ((p.1, y) :: L) C).card = 0 := agreeing_empty fun π hπ e => hy p hp (by rw [← e, (mem_agreeing.1 hπ).1 p hp])
          exact_mod_cast Nat.le_zero.1 ((yes_le _ _ _).trans h4.le)
      have h3 : ∑ x ∈ freePreimages D L, (yes ((x, y) :: L) C (next x) : ℚ) ≤ (chance C L (.askBack y next) + Q * ε) * (Agreeing L C).card := by
        rcases (freePreimages D L).eq_empty_or_nonempty with hs | hs
        · rw [hs, sum_empty]
          exact mul_nonneg (add_nonneg (chance_nonneg _ _ _) (mul_nonneg (Nat.cast_nonneg _) hε)) h0
        · have hc : (0 : ℚ) < (freePreimages D L).card := by exact_mod_cast hs.card_pos
          rw [chance_back hf hs next]
          refine (sum_le_sum fun x hx => ih x Q ((x, y) :: L) C (hA x) ⟨fun p' hp' hp0 => ?_, fun p' hp' => ?_⟩ ?_ (by rw [List.length_cons]; omega)).trans ?_
          · rcases List.mem_cons.1 hp' with rfl | hp'
            · rw [freePreimages, mem_filter] at hx
              exact absurd hp0 hx.2.1
            · exact hF.pairs p' hp' hp0
          · rcases hF.digests p' hp' with h1 | ⟨p'', h1, h2⟩
            · exact .inl h1
            · exact .inr ⟨p'', List.mem_cons_of_mem _ h1, h2⟩
          · have := known_pair L C x y
            omega
          simp only [add_mul, sum_add_distrib]
          rw [← mul_sum, sum_div, sum_mul]
          refine add_le_add (sum_le_sum fun x hx => ?_) (mul_le_mul_of_nonneg_left ?_ (mul_nonneg (Nat.cast_nonneg _) hε))
          · have h5 : ((Agreeing ((x, y) :: L) C).card : ℚ) * (freePreimages D L).card ≤ (Agreeing L C).card := by
              refine mod_cast agreeing_fresh (fun x hx => ?_) hx y
              rw [freePreimages, mem_filter] at hx
              rw [mem_known, not_or]
              refine ⟨fun ⟨p, hp, e⟩ => hx.2.2 p hp e, fun ⟨p, hp, e⟩ => ?_⟩
              rcases hF.digests p hp with h6 | ⟨p', h6, h7⟩
              · exact hx.2.1 (e ▸ h6)
              · exact hx.2.2 p' h6 (h7.trans e)
            rw [div_mul_eq_mul_div, mul_div_assoc]
            refine mul_le_mul_of_nonneg_left ?_ (chance_nonneg _ _ _)
            rwa [le_div_iff₀ hc]
          · rw [agreeing_card_back L C y]
            push_cast
            exact sum_le_sum_of_subset_of_nonneg (subset_univ _) fun _ _ _ => Nat.cast_nonneg _
      rw [yes_back]
      push_cast
      rw [← sum_filter_add_sum_filter_not univ fun x : State => x 0 ∈ D, h2]
      have h4 := add_le_add h1 h3
      refine h4.trans (le_of_eq ?_)
      ring

end Poseidon
