import Verif.Spec.Program
import Verif.Proofs.Hash
import Mathlib.Algebra.BigOperators.Fin
import Mathlib.Algebra.Polynomial.Roots

/-! # Programs for the permutations, forwards and backwards -/

set_option linter.unusedSectionVars false

namespace Poseidon

open Matrix

variable {F : Type} [Field F]

/-! ## Building programs -/

section
variable {X : Type}

/-- `e` is a constant, or a sum or product of functions in `S` -/
inductive OneStep (S : List (X → F)) : (X → F) → Prop
  | const (c : F) : OneStep S fun _ => c
  | add {a b : X → F} (ha : a ∈ S) (hb : b ∈ S) : OneStep S fun x => a x + b x
  | mul {a b : X → F} (ha : a ∈ S) (hb : b ∈ S) : OneStep S fun x => a x * b x

inductive Steps : List (X → F) → List (X → F) → Prop
  | nil (S) : Steps S []
  | cons {S e E} (h : OneStep S e) (hE : Steps (S ++ [e]) E) : Steps S (e :: E)

theorem Steps.append {S E E' : List (X → F)} (h : Steps S E) (h' : Steps (S ++ E) E') : Steps S (E ++ E') := by
  induction h with
  | nil S => simpa using h'
  | cons h hE ih => exact .cons h (ih (by simpa using h'))

theorem Steps.program {S E : List (X → F)} (h : Steps S E) :
    ∃ P : List (Instr F), P.length = E.length ∧ ∀ x, runProgram P (S.map (· x)) = some ((S ++ E).map (· x)) := by
  induction h with
  | nil S => exact ⟨[], rfl, fun x => by simp [runProgram]⟩
  | @cons S e E h hE ih =>
    obtain ⟨P, h1, h2⟩ := ih
    have : ∃ s : Instr F, ∀ x, s.value (S.map (· x)) = some (e x) := by
      have key : ∀ {a : X → F}, a ∈ S → ∃ i : Nat, ∀ x, (S.map (· x))[i]? = some (a x) := by
        intro a ha
        obtain ⟨i, hi, rfl⟩ := List.getElem_of_mem ha
        exact ⟨i, fun x => by simp [hi]⟩
      cases h with
      | const c => exact ⟨.const c, fun x => rfl⟩
      | add ha hb =>
        obtain ⟨i, hi⟩ := key ha
        obtain ⟨j, hj⟩ := key hb
        exact ⟨.add i j, fun x => by rw [Instr.value, hi, hj]⟩
      | mul ha hb =>
        obtain ⟨i, hi⟩ := key ha
        obtain ⟨j, hj⟩ := key hb
        exact ⟨.mul i j, fun x => by rw [Instr.value, hi, hj]⟩
    obtain ⟨s, hs⟩ := this
    refine ⟨s :: P, by simp [h1], fun x => ?_⟩
    rw [runProgram, hs]
    have := h2 x
    simp only [List.map_append, List.map_cons, List.map_nil, List.append_assoc, List.cons_append, List.nil_append] at this ⊢
    exact this

/-- From the functions in `A` one gets those in `B` in `N` steps. -/
def Makes (N : Nat) (A B : Set (X → F)) : Prop :=
  ∀ S : List (X → F), (∀ a ∈ A, a ∈ S) → ∃ E, E.length ≤ N ∧ Steps S E ∧ ∀ b ∈ B, b ∈ S ++ E

variable {A B C : Set (X → F)} {N M : Nat}

theorem Makes.trans (h : Makes N A B) (h' : Makes M B C) : Makes (N + M) A C := by
  intro S hS
  obtain ⟨E, h1, h2, h3⟩ := h S hS
  obtain ⟨E', h4, h5, h6⟩ := h' (S ++ E) h3
  exact ⟨E ++ E', by simp; omega, h2.append h5, by simpa using h6⟩

theorem Makes.of_subset (h : B ⊆ A) : Makes 0 A B :=
  fun S hS => ⟨[], le_rfl, .nil S, fun b hb => by simpa using hS b (h hb)⟩

theorem Makes.mono (h : Makes N A B) (hN : N ≤ M) : Makes M A B := fun S hS =>
  let ⟨E, h1, h2⟩ := h S hS
  ⟨E, h1.trans hN, h2⟩

theorem Makes.left (h : Makes N A B) {A' : Set (X → F)} (hA : A ⊆ A') : Makes N A' B := fun S hS => h S fun a ha => hS a (hA ha)

theorem Makes.right (h : Makes N A B) {B' : Set (X → F)} (hB : B' ⊆ B) : Makes N A B' := fun S hS =>
  let ⟨E, h1, h2, h3⟩ := h S hS
  ⟨E, h1, h2, fun b hb => h3 b (hB hb)⟩

theorem Makes.union (h : Makes N A B) (h' : Makes M A C) : Makes (N + M) A (B ∪ C) := by
  intro S hS
  obtain ⟨E, h1, h2, h3⟩ := h S hS
  obtain ⟨E', h4, h5, h6⟩ := h' (S ++ E) fun a ha => by simp [hS a ha]
  refine ⟨E ++ E', by simp; omega, h2.append h5, ?_⟩
  rintro b (hb | hb)
  · rw [← List.append_assoc]
    exact List.mem_append_left _ (h3 b hb)
  · simpa using h6 b hb

theorem Makes.const (c : F) : Makes 1 A {fun _ => c} :=
  fun S _ => ⟨[_], le_rfl, .cons (.const c) (.nil _), by simp⟩

theorem Makes.add {a b : X → F} (ha : a ∈ A) (hb : b ∈ A) : Makes 1 A {fun x => a x + b x} :=
  fun S hS => ⟨[_], le_rfl, .cons (.add (hS a ha) (hS b hb)) (.nil _), by simp⟩

theorem Makes.mul {a b : X → F} (ha : a ∈ A) (hb : b ∈ A) : Makes 1 A {fun x => a x * b x} :=
  fun S hS => ⟨[_], le_rfl, .cons (.mul (hS a ha) (hS b hb)) (.nil _), by simp⟩

/-- what is there stays there -/
theorem Makes.keep (h : Makes N A B) : Makes N A (A ∪ B) :=
  ((Makes.of_subset (subset_refl A)).union h).mono (by omega)

theorem Makes.add_const {a : X → F} (ha : a ∈ A) (c : F) : Makes 2 A {fun x => a x + c} :=
  ((Makes.const c).keep.trans (Makes.add (Or.inl ha) (Or.inr rfl)))

theorem Makes.mul_const {a : X → F} (ha : a ∈ A) (c : F) : Makes 2 A {fun x => c * a x} :=
  ((Makes.const c).keep.trans (Makes.mul (Or.inr rfl) (Or.inl ha)))

theorem Makes.iUnion {m : Nat} {B : Fin m → Set (X → F)} (N : Fin m → Nat) (h : ∀ i, Makes (N i) A (B i)) :
    Makes (∑ i, N i) A (⋃ i, B i) := by
  induction m with
  | zero => exact (Makes.of_subset (by simp)).mono (Nat.zero_le _)
  | succ m ih =>
    rw [Fin.sum_univ_succ]
    refine ((h 0).union (ih (fun i => N i.succ) fun i => h i.succ)).right ?_
    intro b hb
    obtain ⟨i, hi⟩ := Set.mem_iUnion.1 hb
    rcases Fin.eq_zero_or_eq_succ i with rfl | ⟨i, rfl⟩
    · exact Or.inl hi
    · exact Or.inr (Set.mem_iUnion.2 ⟨i, hi⟩)

/-- powers by squaring -/
theorem Makes.pow {a : X → F} (ha : a ∈ A) (k : Nat) (n : Nat) (h0 : 0 < n) (hn : n < 2 ^ (k + 1)) : Makes (2 * k) A {fun x => a x ^ n} := by
  induction k generalizing n with
  | zero =>
    have : n = 1 := by omega
    subst this
    refine Makes.of_subset ?_
    simpa using ha
  | succ k ih =>
    rcases Nat.lt_or_ge n 2 with h | h
    · exact (ih n h0 (by rw [pow_succ]; have := Nat.one_le_two_pow (n := k); omega)).mono (by omega)
    have h1 := (ih (n / 2) (by omega) (by rw [pow_succ] at hn; omega)).keep
    have h2 : Makes 1 (A ∪ {fun x => a x ^ (n / 2)}) {fun x => a x ^ (n / 2) * a x ^ (n / 2)} := Makes.mul (Or.inr rfl) (Or.inr rfl)
    rcases Nat.even_or_odd n with hp | hp
    · refine ((h1.trans h2).right ?_).mono (by omega)
      rw [Set.singleton_subset_iff]
      refine Set.mem_singleton_iff.2 (funext fun x => ?_)
      rw [← pow_add]
      congr 1
      obtain ⟨m, rfl⟩ := hp
      omega
    · have h3 : Makes 1 (A ∪ {fun x => a x ^ (n / 2)} ∪ {fun x => a x ^ (n / 2) * a x ^ (n / 2)})
          {fun x => a x ^ (n / 2) * a x ^ (n / 2) * a x} := Makes.mul (Or.inr rfl) (Or.inl (Or.inl ha))
      refine (((h1.trans h2.keep).trans h3).right ?_).mono (by omega)
      rw [Set.singleton_subset_iff]
      refine Set.mem_singleton_iff.2 (funext fun x => ?_)
      rw [← pow_add, ← pow_succ]
      congr 1
      obtain ⟨m, rfl⟩ := hp
      omega

/-- the words of a state -/
def wordsOf {t : Nat} (y : X → Fin t → F) : Set (X → F) := Set.range fun j x => y x j

theorem Makes.words {t : Nat} {y : X → Fin t → F} (N : Fin t → Nat) (h : ∀ j, Makes (N j) A {fun x => y x j}) :
    Makes (∑ i, N i) A (wordsOf y) := by
  refine (Makes.iUnion N h).right ?_
  rintro _ ⟨j, rfl⟩
  exact Set.mem_iUnion.2 ⟨j, rfl⟩

/-- linear combinations -/
theorem Makes.dot {t : Nat} {y : X → Fin t → F} (c : Fin t → F) : Makes (3 * t + 1) (wordsOf y) {fun x => ∑ j, c j * y x j} := by
  have h : ∀ m (hm : m ≤ t), Makes (3 * m + 1) (wordsOf y) {fun x => ∑ j : Fin m, c (j.castLE hm) * y x (j.castLE hm)} := by
    intro m
    induction m with
    | zero =>
      intro hm
      refine (Makes.const 0).right ?_
      simp
    | succ m ih =>
      intro hm
      have h1 := (ih (by omega)).keep
      have h2 : Makes 2 (wordsOf y ∪ {fun x => ∑ j : Fin m, c (j.castLE (by omega)) * y x (j.castLE (by omega))})
          {fun x => c ⟨m, hm⟩ * y x ⟨m, hm⟩} := Makes.mul_const (a := fun x => y x ⟨m, hm⟩) (Or.inl ⟨⟨m, hm⟩, rfl⟩) _
      have h3 := h1.trans (h2.keep.trans (Makes.add (a := fun x => ∑ j : Fin m, c (j.castLE (by omega)) * y x (j.castLE (by omega)))
        (b := fun x => c ⟨m, hm⟩ * y x ⟨m, hm⟩) (Or.inl (Or.inr rfl)) (Or.inr rfl)))
      refine (h3.right ?_).mono (by omega)
      rw [Set.singleton_subset_iff]
      refine Set.mem_singleton_iff.2 (funext fun x => ?_)
      rw [Fin.sum_univ_castSucc]
      rfl
  exact h t le_rfl

theorem Makes.mulVec {t s : Nat} {y : X → Fin t → F} (M : Matrix (Fin s) (Fin t) F) :
    Makes (s * (3 * t + 1)) (wordsOf y) (wordsOf fun x => M.mulVec (y x)) := by
  refine (Makes.words (fun _ => 3 * t + 1) fun j => Makes.dot (M j)).mono (by simp)

end

/-- From a construction to a program -/
theorem Makes.hasProgram {n m N : Nat} {f : (Fin n → F) → (Fin m → F)} (h : Makes N (wordsOf id) (wordsOf f)) : HasProgram N f := by
  obtain ⟨E, h1, h2, h3⟩ := h (List.ofFn fun j (x : Fin n → F) => x j) (by
    rintro _ ⟨j, rfl⟩
    exact List.mem_ofFn.2 ⟨j, rfl⟩)
  obtain ⟨P, h4, h5⟩ := h2.program
  have h6 : ∀ j : Fin m, ∃ i : Nat, ∀ x, ((List.ofFn (fun j (x : Fin n → F) => x j) ++ E).map (· x))[i]? = some (f x j) := by
    intro j
    obtain ⟨i, hi, e⟩ := List.getElem_of_mem (h3 (fun x => f x j) ⟨j, rfl⟩)
    refine ⟨i, fun x => ?_⟩
    rw [List.getElem?_map, List.getElem?_eq_getElem hi, e]
    rfl
  choose out hout using h6
  refine ⟨P, out, by omega, fun x => ⟨_, ?_, fun j => hout j x⟩⟩
  rw [← h5 x]
  congr 1
  rw [List.map_ofFn]
  rfl

/-! ## Rounds -/

section
variable [DecidableEq F] {t : Nat}

/-- the number of S-boxes in a round -/
def activeWords (full : Bool) (t : Nat) : Nat := if full then t else min t 1

theorem sum_active (full : Bool) (c : Nat) : (∑ i : Fin t, if Active full i then c else 0) = activeWords full t * c := by
  cases full with
  | true => simp [Active, activeWords]
  | false =>
    cases t with
    | zero => simp [activeWords]
    | succ t =>
      rw [Fin.sum_univ_succ]
      simp [Active, activeWords]

theorem Makes.roundE {X : Type} {y : X → Fin t → F} {e k : Nat} (h0 : 0 < e) (hk : e < 2 ^ (k + 1)) (M : Matrix (Fin t) (Fin t) F) (full : Bool)
    (c : Fin t → F) :
    Makes (activeWords full t * (2 * k) + t * (3 * t + 3)) (wordsOf y) (wordsOf fun x => roundE e M full c (y x)) := by
  have h1 : Makes (∑ i : Fin t, (2 + if Active full i then 2 * k else 0)) (wordsOf y)
      (wordsOf fun x i => if Active full i then (y x i + c i) ^ e else y x i + c i) := by
    refine Makes.words _ fun j => ?_
    have h2 : Makes 2 (wordsOf y) {fun x => y x j + c j} := Makes.add_const (a := fun x => y x j) (Set.mem_range_self j) _
    split_ifs with h
    · exact h2.trans (Makes.pow (Set.mem_singleton _) k e h0 hk)
    · exact h2
  have h2 := h1.trans (Makes.mulVec M)
  refine h2.mono ?_
  rw [Finset.sum_add_distrib, sum_active]
  simp
  ring_nf
  omega

/-- A round backwards: `N` is the inverse of the matrix and `d` the inverse of the exponent. -/
def unroundE (d : Nat) (N : Matrix (Fin t) (Fin t) F) (full : Bool) (c y : Fin t → F) : Fin t → F :=
  fun i => (if Active full i then N.mulVec y i ^ d else N.mulVec y i) + -c i

theorem unroundE_roundE {e d : Nat} {M N : Matrix (Fin t) (Fin t) F} (hM : N * M = 1) (hd : ∀ x : F, (x ^ e) ^ d = x) (full : Bool) (c x : Fin t → F) :
    unroundE d N full c (roundE e M full c x) = x := by
  funext i
  rw [unroundE, roundE, Matrix.mulVec_mulVec, hM, Matrix.one_mulVec]
  split_ifs
  · rw [hd]; ring
  · ring

theorem Makes.unroundE {X : Type} {y : X → Fin t → F} {d k : Nat} (h0 : 0 < d) (hk : d < 2 ^ (k + 1)) (N : Matrix (Fin t) (Fin t) F) (full : Bool)
    (c : Fin t → F) :
    Makes (activeWords full t * (2 * k) + t * (3 * t + 3)) (wordsOf y) (wordsOf fun x => unroundE d N full c (y x)) := by
  have h1 : Makes (t * (3 * t + 1)) (wordsOf y) (wordsOf fun x => N.mulVec (y x)) := Makes.mulVec N
  have h2 : Makes (∑ i : Fin t, ((if Active full i then 2 * k else 0) + 2)) (wordsOf fun x => N.mulVec (y x))
      (wordsOf fun x => Poseidon.unroundE d N full c (y x)) := by
    refine Makes.words _ fun j => ?_
    have h3 : Makes (if Active full j then 2 * k else 0) (wordsOf fun x => N.mulVec (y x))
        {fun x => if Active full j then N.mulVec (y x) j ^ d else N.mulVec (y x) j} := by
      split_ifs with h
      · exact Makes.pow (a := fun x => N.mulVec (y x) j) (Set.mem_range_self j) k d h0 hk
      · exact Makes.of_subset (Set.singleton_subset_iff.2 (Set.mem_range_self j))
    exact h3.trans (Makes.add_const (Set.mem_singleton _) _)
  refine (h1.trans h2).mono ?_
  rw [Finset.sum_add_distrib, sum_active]
  simp
  ring_nf
  omega

/-- a permutation backwards -/
def unpermE (d : Nat) (N : Matrix (Fin t) (Fin t) F) (rf rp : Nat) (C : Fin (rf + rp + rf) → Fin t → F) (y : Fin t → F) : Fin t → F :=
  (List.finRange (rf + rp + rf)).foldr
    (fun r y => unroundE d N (decide (r.val < rf ∨ rf + rp ≤ r.val)) (C r) y) y

theorem unpermE_permE {e d : Nat} {M N : Matrix (Fin t) (Fin t) F} (hM : N * M = 1) (hd : ∀ x : F, (x ^ e) ^ d = x) (rf rp : Nat)
    (C : Fin (rf + rp + rf) → Fin t → F) (x : Fin t → F) : unpermE d N rf rp C (permE e M rf rp C x) = x := by
  unfold unpermE permE
  generalize List.finRange (rf + rp + rf) = l
  induction l generalizing x with
  | nil => rfl
  | cons r l ih => rw [List.foldl_cons, List.foldr_cons, ih, unroundE_roundE hM hd]

theorem count_full (rf rp : Nat) : ((List.finRange (rf + rp + rf)).map fun r =>
    activeWords (decide (r.val < rf ∨ rf + rp ≤ r.val)) t).sum = 2 * rf * t + rp * min t 1 := by
  rw [← Fin.sum_univ_def, Fin.sum_univ_add, Fin.sum_univ_add]
  have h1 : ∀ i : Fin rf, decide (((Fin.castAdd rf (Fin.castAdd rp i)).val < rf) ∨ rf + rp ≤ (Fin.castAdd rf (Fin.castAdd rp i)).val) = true :=
    fun i => by simp
  have h2 : ∀ i : Fin rp, decide (((Fin.castAdd rf (Fin.natAdd rf i)).val < rf) ∨ rf + rp ≤ (Fin.castAdd rf (Fin.natAdd rf i)).val) = false :=
    fun i => by simp
  have h3 : ∀ i : Fin rf, decide (((Fin.natAdd (rf + rp) i).val < rf) ∨ rf + rp ≤ (Fin.natAdd (rf + rp) i).val) = true :=
    fun i => by simp
  simp only [h1, h2, h3, Finset.sum_const, Finset.card_univ, Fintype.card_fin, smul_eq_mul]
  simp only [activeWords, if_true, Bool.false_eq_true, if_false]
  ring

/-- the length of the programs below -/
def programLength (t rf rp k : Nat) : Nat := (2 * rf * t + rp) * (2 * k) + (2 * rf + rp) * (t * (3 * t + 3))

theorem rounds_length (rf rp k : Nat) :
    ((List.finRange (rf + rp + rf)).map fun r =>
      activeWords (decide (r.val < rf ∨ rf + rp ≤ r.val)) t * (2 * k) + t * (3 * t + 3)).sum ≤ programLength t rf rp k := by
  rw [List.sum_map_add, List.sum_map_mul_right, count_full, programLength]
  have : rp * min t 1 ≤ rp * 1 := Nat.mul_le_mul_left _ (Nat.min_le_right _ _)
  rw [mul_one] at this
  refine Nat.add_le_add (Nat.mul_le_mul_right _ (by omega)) ?_
  simp
  exact le_of_eq (by ring)

theorem Makes.permE {X : Type} {y : X → Fin t → F} {e k : Nat} (h0 : 0 < e) (hk : e < 2 ^ (k + 1)) (M : Matrix (Fin t) (Fin t) F) (rf rp : Nat)
    (C : Fin (rf + rp + rf) → Fin t → F) :
    Makes (programLength t rf rp k) (wordsOf y) (wordsOf fun x => permE e M rf rp C (y x)) := by
  refine Makes.mono ?_ (rounds_length rf rp k)
  unfold Poseidon.permE
  generalize List.finRange (rf + rp + rf) = l
  induction l generalizing y with
  | nil => exact Makes.of_subset (subset_refl _)
  | cons r l ih => exact (Makes.roundE h0 hk M _ (C r)).trans (ih (y := fun x => Poseidon.roundE e M _ (C r) (y x)))

theorem Makes.unpermE {X : Type} {y : X → Fin t → F} {d k : Nat} (h0 : 0 < d) (hk : d < 2 ^ (k + 1)) (N : Matrix (Fin t) (Fin t) F) (rf rp : Nat)
    (C : Fin (rf + rp + rf) → Fin t → F) :
    Makes (programLength t rf rp k) (wordsOf y) (wordsOf fun x => unpermE d N rf rp C (y x)) := by
  refine Makes.mono ?_ (rounds_length rf rp k)
  unfold Poseidon.unpermE
  generalize List.finRange (rf + rp + rf) = l
  induction l with
  | nil => exact Makes.of_subset (subset_refl _)
  | cons r l ih =>
    refine (ih.trans (Makes.unroundE h0 hk N _ (C r))).mono ?_
    simp
    omega

end

/-! ## Programs compute polynomials -/

open Polynomial

theorem value_poly {r : List F[X]} {D : Nat} (hr : ∀ p ∈ r, p.natDegree ≤ D) (s : Instr F) :
    (∀ z : F, s.value (r.map (eval z)) = none) ∨
    ∃ p : F[X], (∀ z, s.value (r.map (eval z)) = some (p.eval z)) ∧ p.natDegree ≤ D * 2 ^ multiplications [s] := by
  cases s with
  | const c => exact Or.inr ⟨C c, fun z => by simp [Instr.value], by simp⟩
  | add i j =>
    by_cases hi : i < r.length
    · by_cases hj : j < r.length
      · refine Or.inr ⟨r[i] + r[j], fun z => by simp [Instr.value, hi, hj], ?_⟩
        have h1 := hr _ (List.getElem_mem hi)
        have h2 := hr _ (List.getElem_mem hj)
        simpa [multiplications] using (natDegree_add_le _ _).trans (max_le h1 h2)
      · exact Or.inl fun z => by simp [Instr.value, hi, hj]
    · exact Or.inl fun z => by simp [Instr.value, hi]
  | mul i j =>
    by_cases hi : i < r.length
    · by_cases hj : j < r.length
      · refine Or.inr ⟨r[i] * r[j], fun z => by simp [Instr.value, hi, hj], ?_⟩
        have h1 := hr _ (List.getElem_mem hi)
        have h2 := hr _ (List.getElem_mem hj)
        simp only [multiplications]
        exact natDegree_mul_le.trans (by omega)
      · exact Or.inl fun z => by simp [Instr.value, hi, hj]
    · exact Or.inl fun z => by simp [Instr.value, hi]

theorem multiplications_cons (s : Instr F) (P : List (Instr F)) : multiplications (s :: P) = multiplications [s] + multiplications P := by
  cases s <;> simp [multiplications, Nat.add_comm]

/-- The registers at the end are polynomials of the input, of degree at most `2` to the number of multiplications. -/
theorem run_poly (P : List (Instr F)) {r : List F[X]} {D : Nat} (hD : 1 ≤ D) (hr : ∀ p ∈ r, p.natDegree ≤ D) :
    (∀ z : F, runProgram P (r.map (eval z)) = none) ∨
    ∃ r' : List F[X], (∀ z, runProgram P (r.map (eval z)) = some (r'.map (eval z))) ∧ ∀ p ∈ r', p.natDegree ≤ D * 2 ^ multiplications P := by
  induction P generalizing r D with
  | nil => exact Or.inr ⟨r, fun z => rfl, by simpa [multiplications] using hr⟩
  | cons s P ih =>
    rcases value_poly hr s with h | ⟨p, h1, h2⟩
    · exact Or.inl fun z => by rw [runProgram, h]
    · have h3 : 1 ≤ D * 2 ^ multiplications [s] := Nat.mul_pos hD (by positivity)
      have h4 : ∀ p' ∈ r ++ [p], p'.natDegree ≤ D * 2 ^ multiplications [s] := by
        intro p' hp'
        rcases List.mem_append.1 hp' with h | h
        · exact (hr _ h).trans (Nat.le_mul_of_pos_right _ (by positivity))
        · rw [List.mem_singleton.1 h]; exact h2
      have e : ∀ z : F, (r ++ [p]).map (eval z) = r.map (eval z) ++ [p.eval z] := fun z => by simp
      rw [multiplications_cons, pow_add, ← mul_assoc]
      rcases ih h3 h4 with h | ⟨r', h5, h6⟩
      · refine Or.inl fun z => ?_
        rw [runProgram, h1, ← h z, e]
      · refine Or.inr ⟨r', fun z => ?_, h6⟩
        rw [runProgram, h1, ← h5 z, e]

/-- A polynomial is given by a program with few multiplications only at few points. -/
theorem few_right (g : F[X]) (P : List (Instr F)) (out : Fin 1 → Nat) (h : 2 ^ multiplications P < g.natDegree) :
    {z | Outputs P out (fun _ : Fin 1 => z) fun _ => g.eval z}.ncard ≤ g.natDegree := by
  have hx : ∀ z : F, List.ofFn (fun _ : Fin 1 => z) = [(X : Polynomial F)].map (eval z) := fun z => by simp
  rcases run_poly (r := [(X : Polynomial F)]) P (le_refl 1) (by simp) with hn | ⟨r', h1, h2⟩
  · have : {z | Outputs P out (fun _ : Fin 1 => z) fun _ => g.eval z} = ∅ := by
      ext z
      simp only [Set.mem_ofPred_eq, Set.mem_empty_iff_false, iff_false]
      rintro ⟨r, hr, -⟩
      rw [hx, hn] at hr
      cases hr
    rw [this]
    simp
  · rcases Nat.lt_or_ge (out 0) r'.length with hi | hi
    · have hd := h2 _ (List.getElem_mem hi)
      rw [one_mul] at hd
      have hne : g - r'[out 0] ≠ 0 := by
        intro h0
        rw [sub_eq_zero] at h0
        rw [← h0] at hd
        omega
      classical
      refine (Set.ncard_le_ncard (t := ((g - r'[out 0]).roots.toFinset : Set F)) ?_ (Finset.finite_toSet _)).trans ?_
      · rintro z ⟨r, hr, ho⟩
        rw [hx, h1] at hr
        have ho := ho 0
        rw [← Option.some.inj hr] at ho
        simp only [List.getElem?_map, List.getElem?_eq_getElem hi, Option.map_some, Option.some.injEq] at ho
        simp [hne, ho]
      · rw [Set.ncard_coe_finset]
        refine (Multiset.toFinset_card_le _).trans ((card_roots' _).trans ?_)
        exact (natDegree_sub_le _ _).trans (max_le le_rfl (by omega))
    · have : {z | Outputs P out (fun _ : Fin 1 => z) fun _ => g.eval z} = ∅ := by
        ext z
        simp only [Set.mem_ofPred_eq, Set.mem_empty_iff_false, iff_false]
        rintro ⟨r, hr, ho⟩
        rw [hx, h1] at hr
        have ho := ho 0
        rw [← Option.some.inj hr] at ho
        simp [hi] at ho
      rw [this]
      simp

end Poseidon
