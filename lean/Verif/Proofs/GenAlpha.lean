import Verif.Model.GenAlpha
import Verif.Spec.AddChain
import Verif.Proofs.Eval
import Mathlib.Data.Finset.Max
import Mathlib.Data.Finset.Card
import Mathlib.FieldTheory.Finite.Basic
import Mathlib.Tactic.IntervalCases

/-! # The table of shortest addition chains, and the choice of the exponent -/

set_option linter.unusedSectionVars false

namespace Poseidon

/-! ## Increasing chains -/

/-- Strictly increasing chains with `d` additions, the largest member first. -/
inductive IncChain : Nat → List Nat → Prop
  | one : IncChain 0 [1]
  | step {d : Nat} {c : List Nat} {a b : Nat} : IncChain d c → a ∈ c → b ∈ c → b ≤ a →
      (∀ x ∈ c, x < a + b) → IncChain (d + 1) ((a + b) :: c)

/-- The members of a chain: closed under "is a sum of two members". -/
structure ClosedSet (S : Finset Nat) : Prop where
  one : 1 ∈ S
  pos : ∀ x ∈ S, 0 < x
  sum : ∀ x ∈ S, x ≠ 1 → ∃ a ∈ S, ∃ b ∈ S, a + b = x

theorem AddChain.closed {l : List Nat} (h : AddChain l) : ClosedSet l.toFinset := by
  induction h with
  | one => exact ⟨by simp, by simp, by simp⟩
  | @step c a b _ ha hb ih =>
    refine ⟨by simpa using Or.inr (by simpa using ih.one), ?_, ?_⟩
    · intro x hx
      rcases List.mem_cons.1 (List.mem_toFinset.1 hx) with rfl | hx
      · have := ih.pos a (by simpa using ha); omega
      · exact ih.pos x (by simpa using hx)
    · intro x hx h1
      rcases List.mem_cons.1 (List.mem_toFinset.1 hx) with rfl | hx
      · exact ⟨a, by simp [ha], b, by simp [hb], rfl⟩
      · obtain ⟨a', ha', b', hb', h⟩ := ih.sum x (by simpa using hx) h1
        exact ⟨a', by simpa using Or.inr (by simpa using ha'), b', by simpa using Or.inr (by simpa using hb'), h⟩

theorem ClosedSet.incChain {d : Nat} : ∀ {S : Finset Nat}, ClosedSet S → S.card = d + 1 →
    ∃ c, IncChain d c ∧ ∀ x, x ∈ c ↔ x ∈ S := by
  induction d with
  | zero =>
    intro S hS hc
    obtain ⟨y, hy⟩ := Finset.card_eq_one.1 hc
    have h1 : 1 = y := by have := hS.one; rw [hy] at this; simpa using this
    subst h1
    exact ⟨[1], .one, by simp [hy]⟩
  | succ d ih =>
    intro S hS hc
    have hne : S.Nonempty := ⟨1, hS.one⟩
    set m := S.max' hne with hm
    have hmS : m ∈ S := Finset.max'_mem _ _
    have hle : ∀ x ∈ S, x ≤ m := fun x hx => Finset.le_max' _ _ hx
    have hm1 : m ≠ 1 := by
      intro h
      have : S ⊆ {1} := by
        intro x hx
        have h1 := hle x hx
        have h2 := hS.pos x hx
        simp; omega
      have := Finset.card_le_card this
      simp at this; omega
    have hclosed : ClosedSet (S.erase m) := by
      refine ⟨Finset.mem_erase.2 ⟨hm1.symm, hS.one⟩, fun x hx => hS.pos x (Finset.mem_of_mem_erase hx), ?_⟩
      intro x hx h1
      obtain ⟨hxm, hxS⟩ := Finset.mem_erase.1 hx
      obtain ⟨a, ha, b, hb, h⟩ := hS.sum x hxS h1
      have := hle x hxS
      have := hS.pos a ha
      have := hS.pos b hb
      exact ⟨a, Finset.mem_erase.2 ⟨by omega, ha⟩, b, Finset.mem_erase.2 ⟨by omega, hb⟩, h⟩
    obtain ⟨c, hc', hmem⟩ := ih hclosed (by rw [Finset.card_erase_of_mem hmS]; omega)
    obtain ⟨a, ha, b, hb, hab⟩ := hS.sum m hmS hm1
    have ha0 := hS.pos a ha
    have hb0 := hS.pos b hb
    have hac : a ∈ c := (hmem a).2 (Finset.mem_erase.2 ⟨by omega, ha⟩)
    have hbc : b ∈ c := (hmem b).2 (Finset.mem_erase.2 ⟨by omega, hb⟩)
    have hlt : ∀ x ∈ c, x < m := by
      intro x hx
      obtain ⟨h1, h2⟩ := Finset.mem_erase.1 ((hmem x).1 hx)
      have := hle x h2
      omega
    have hiff : ∀ x, x ∈ m :: c ↔ x ∈ S := by
      intro x
      rw [List.mem_cons, hmem, Finset.mem_erase]
      constructor
      · rintro (rfl | h)
        · exact hmS
        · exact h.2
      · intro h
        by_cases hx : x = m
        · exact Or.inl hx
        · exact Or.inr ⟨hx, h⟩
    refine ⟨m :: c, ?_, hiff⟩
    rcases Nat.le_total b a with h | h
    · rw [← hab]; exact .step hc' hac hbc h (by rw [hab]; exact hlt)
    · rw [← hab, Nat.add_comm a b]; exact .step hc' hbc hac h (by rw [Nat.add_comm, hab]; exact hlt)

/-! ## Enumeration of increasing chains -/

/-- One-step extensions of an increasing chain. -/
def extendChain (c : List Nat) : List (List Nat) :=
  c.flatMap fun a => c.flatMap fun b => force (a + b) fun s =>
    Bool.rec (motive := fun _ => List (List Nat)) [] [s :: c] (Nat.ble b a && Nat.blt (c.headD 0) s)

/-- All increasing chains with `d` additions (with repetitions). -/
def chainLevel : Nat → List (List Nat)
  | 0 => [[1]]
  | d + 1 => (chainLevel d).flatMap extendChain

theorem IncChain.mem_level {d : Nat} {c : List Nat} (h : IncChain d c) : c ∈ chainLevel d ∧ c ≠ [] := by
  induction h with
  | one => simp [chainLevel]
  | @step d c a b _ ha hb hba hlt ih =>
    refine ⟨?_, by simp⟩
    rw [chainLevel, List.mem_flatMap]
    refine ⟨c, ih.1, ?_⟩
    rw [extendChain, List.mem_flatMap]
    refine ⟨a, ha, ?_⟩
    rw [List.mem_flatMap]
    refine ⟨b, hb, ?_⟩
    rw [force_eq, show (Nat.ble b a && Nat.blt (c.headD 0) (a + b)) = true from ?_]
    · simp
    · rw [Bool.and_eq_true_iff, Nat.ble_eq, Nat.blt_eq]
      refine ⟨hba, hlt _ ?_⟩
      obtain ⟨x, xs, rfl⟩ := List.exists_cons_of_ne_nil ih.2
      simp

/-- The numbers the table lists at depth `d`; 1 and 2 have depths 0 and 1. -/
def tableAt : Nat → List Nat
  | 0 => [1]
  | 1 => [2]
  | 2 => depth2
  | 3 => depth3
  | 4 => depth4
  | 5 => depth5
  | 6 => depth6
  | 7 => depth7
  | _ => []

/-- The numbers listed at depths up to `d`. -/
def tableUpTo : Nat → List Nat
  | 0 => tableAt 0
  | d + 1 => tableUpTo d ++ tableAt (d + 1)

/-- A set of numbers as a bit mask. -/
def maskOf (l : List Nat) : Nat := l.foldr (fun n acc => acc ||| 2 ^ n) 0

theorem testBit_maskOf (l : List Nat) (n : Nat) : (maskOf l).testBit n = true ↔ n ∈ l := by
  induction l with
  | nil => simp [maskOf]
  | cons x xs ih =>
    rw [show maskOf (x :: xs) = maskOf xs ||| 2 ^ x from rfl, Nat.testBit_or, Bool.or_eq_true, ih,
      Nat.testBit_two_pow, List.mem_cons]
    simp only [decide_eq_true_eq]
    tauto

theorem level_heads_mask : ∀ d, d ≤ 7 →
    force (maskOf (tableUpTo d)) (fun m => (chainLevel d).all fun c => Nat.testBit m (c.headD 0)) = true := by
  intro d hd
  interval_cases d <;> decide +kernel

theorem level_heads (d : Nat) (hd : d ≤ 7) (c : List Nat) (hc : c ∈ chainLevel d) : c.headD 0 ∈ tableUpTo d := by
  have h := level_heads_mask d hd
  rw [force_eq] at h
  exact (testBit_maskOf _ _).1 (List.all_eq_true.1 h c hc)

theorem mem_tableUpTo {n d : Nat} : n ∈ tableUpTo d ↔ ∃ e, e ≤ d ∧ n ∈ tableAt e := by
  induction d with
  | zero =>
    constructor
    · intro h; exact ⟨0, le_rfl, h⟩
    · rintro ⟨e, he, h⟩
      rw [Nat.le_zero.1 he] at h; exact h
  | succ d ih =>
    rw [tableUpTo, List.mem_append, ih]
    constructor
    · rintro (⟨e, he, h⟩ | h)
      · exact ⟨e, by omega, h⟩
      · exact ⟨d + 1, le_rfl, h⟩
    · rintro ⟨e, he, h⟩
      rcases Nat.lt_or_ge e (d + 1) with h1 | h1
      · exact Or.inl ⟨e, by omega, h⟩
      · exact Or.inr (by rw [show d + 1 = e by omega]; exact h)

theorem tableUpTo_mono {n d e : Nat} (h : d ≤ e) (hn : n ∈ tableUpTo d) : n ∈ tableUpTo e := by
  obtain ⟨f, hf, h1⟩ := mem_tableUpTo.1 hn
  exact mem_tableUpTo.2 ⟨f, by omega, h1⟩

/-- Every number with a chain of at most 7 additions is in the table at that depth or before. -/
theorem reachable_mem {n d : Nat} (hd : d ≤ 7) (h : ReachableIn n d) : n ∈ tableUpTo d := by
  obtain ⟨c, hc, hlen⟩ := h
  have hcl := hc.closed
  -- the members up to n form a closed set whose largest member is n
  set S := (n :: c).toFinset.filter (· ≤ n) with hS
  have hn : n ∈ S := by rw [hS, Finset.mem_filter]; simp
  have hS' : ClosedSet S := by
    refine ⟨?_, fun x hx => hcl.pos x (Finset.mem_of_mem_filter _ hx), ?_⟩
    · rw [hS, Finset.mem_filter]; exact ⟨hcl.one, hcl.pos n (by simp)⟩
    · intro x hx h1
      obtain ⟨hx1, hx2⟩ := Finset.mem_filter.1 hx
      obtain ⟨a, ha, b, hb, h⟩ := hcl.sum x hx1 h1
      exact ⟨a, Finset.mem_filter.2 ⟨ha, by omega⟩, b, Finset.mem_filter.2 ⟨hb, by omega⟩, h⟩
  have hcard : S.card ≤ d + 1 := by
    calc S.card ≤ (n :: c).toFinset.card := Finset.card_filter_le _ _
      _ ≤ (n :: c).length := List.toFinset_card_le _
      _ = d + 1 := by simp [hlen]
  have hpos : 0 < S.card := Finset.card_pos.2 ⟨n, hn⟩
  obtain ⟨e, he⟩ : ∃ e, S.card = e + 1 := ⟨S.card - 1, by omega⟩
  obtain ⟨c', hc', hmem⟩ := hS'.incChain he
  obtain ⟨hlev, hne⟩ := hc'.mem_level
  have h1 := level_heads e (by omega) c' hlev
  obtain ⟨x, xs, rfl⟩ := List.exists_cons_of_ne_nil hne
  have hx : x = n := by
    have hxS : x ∈ S := (hmem x).1 (by simp)
    have hxn : x ≤ n := (Finset.mem_filter.1 hxS).2
    have hnx : n ∈ x :: xs := (hmem n).2 hn
    rcases List.mem_cons.1 hnx with h | h
    · exact h.symm
    · cases hc' with
      | one => simp at h
      | step _ _ _ _ hlt => have := hlt n h; omega
  subst hx
  exact tableUpTo_mono (d := e) (by omega) (by simpa using h1)

/-! ## Witnesses -/

/-- Boolean check that a list is an addition chain. -/
def chainOk : List Nat → Bool
  | [] => false
  | [x] => x == 1
  | x :: c => c.any (fun a => c.any fun b => a + b == x) && chainOk c

theorem chainOk_sound : ∀ {l : List Nat}, chainOk l = true → AddChain l
  | [], h => by simp [chainOk] at h
  | [x], h => by
    have : x = 1 := by simpa [chainOk] using h
    subst this; exact .one
  | x :: y :: c, h => by
    rw [chainOk] at h
    · obtain ⟨h1, h2⟩ := Bool.and_eq_true_iff.1 h
      obtain ⟨a, ha, h3⟩ := List.any_eq_true.1 h1
      obtain ⟨b, hb, h4⟩ := List.any_eq_true.1 h3
      have : a + b = x := by simpa using h4
      subst this
      exact .step (chainOk_sound h2) ha hb
    · simp

/-- A chain for every number of the table. -/
def witnesses : List (List Nat) := [
  [1], [2, 1],
  [4, 2, 1],
  [3, 2, 1],
  [8, 4, 2, 1],
  [6, 4, 2, 1],
  [5, 4, 2, 1],
  [16, 8, 4, 2, 1],
  [12, 8, 4, 2, 1],
  [10, 8, 4, 2, 1],
  [9, 8, 4, 2, 1],
  [7, 6, 4, 2, 1],
  [32, 16, 8, 4, 2, 1],
  [24, 16, 8, 4, 2, 1],
  [20, 16, 8, 4, 2, 1],
  [18, 16, 8, 4, 2, 1],
  [17, 16, 8, 4, 2, 1],
  [15, 10, 5, 4, 2, 1],
  [14, 12, 8, 4, 2, 1],
  [13, 12, 8, 4, 2, 1],
  [11, 10, 8, 4, 2, 1],
  [64, 32, 16, 8, 4, 2, 1],
  [48, 32, 16, 8, 4, 2, 1],
  [40, 32, 16, 8, 4, 2, 1],
  [36, 32, 16, 8, 4, 2, 1],
  [34, 32, 16, 8, 4, 2, 1],
  [33, 32, 16, 8, 4, 2, 1],
  [30, 20, 10, 8, 4, 2, 1],
  [28, 24, 16, 8, 4, 2, 1],
  [27, 18, 9, 8, 4, 2, 1],
  [26, 24, 16, 8, 4, 2, 1],
  [25, 24, 16, 8, 4, 2, 1],
  [23, 18, 9, 5, 4, 2, 1],
  [22, 20, 16, 8, 4, 2, 1],
  [21, 20, 16, 8, 4, 2, 1],
  [19, 18, 16, 8, 4, 2, 1],
  [128, 64, 32, 16, 8, 4, 2, 1],
  [96, 64, 32, 16, 8, 4, 2, 1],
  [80, 64, 32, 16, 8, 4, 2, 1],
  [72, 64, 32, 16, 8, 4, 2, 1],
  [68, 64, 32, 16, 8, 4, 2, 1],
  [66, 64, 32, 16, 8, 4, 2, 1],
  [65, 64, 32, 16, 8, 4, 2, 1],
  [60, 40, 20, 16, 8, 4, 2, 1],
  [56, 48, 32, 16, 8, 4, 2, 1],
  [54, 36, 18, 16, 8, 4, 2, 1],
  [52, 48, 32, 16, 8, 4, 2, 1],
  [51, 34, 17, 16, 8, 4, 2, 1],
  [50, 48, 32, 16, 8, 4, 2, 1],
  [49, 48, 32, 16, 8, 4, 2, 1],
  [46, 36, 18, 10, 8, 4, 2, 1],
  [45, 36, 18, 9, 8, 4, 2, 1],
  [44, 40, 32, 16, 8, 4, 2, 1],
  [43, 34, 17, 9, 8, 4, 2, 1],
  [42, 40, 32, 16, 8, 4, 2, 1],
  [41, 40, 32, 16, 8, 4, 2, 1],
  [39, 26, 13, 12, 8, 4, 2, 1],
  [38, 36, 32, 16, 8, 4, 2, 1],
  [37, 36, 32, 16, 8, 4, 2, 1],
  [35, 34, 32, 16, 8, 4, 2, 1],
  [31, 30, 20, 10, 8, 4, 2, 1],
  [29, 28, 24, 16, 8, 4, 2, 1]]

theorem table_reachable : ∀ d, d ≤ 7 → ∀ n ∈ tableAt d, ReachableIn n d := by
  have h : ∀ d, d ≤ 7 → ∀ n ∈ tableAt d, witnesses.any (fun c =>
      c.headD 0 == n && chainOk c && c.length == d + 1) = true := by
    intro d hd
    interval_cases d <;> decide +kernel
  intro d hd n hn
  obtain ⟨c, -, hc⟩ := List.any_eq_true.1 (h d hd n hn)
  simp only [Bool.and_eq_true, beq_iff_eq] at hc
  obtain ⟨⟨h1, h2⟩, h3⟩ := hc
  cases c with
  | nil => simp at h3
  | cons x xs =>
    have : x = n := by simpa using h1
    subst this
    exact ⟨xs, chainOk_sound h2, by simpa using h3⟩

theorem tableAt_disjoint : ∀ d, d ≤ 7 → ∀ e, e < d → ∀ n ∈ tableAt d, n ∉ tableAt e := by
  intro d hd e he
  interval_cases d <;> interval_cases e <;> decide

theorem shortest_of_mem {n d : Nat} (hd : d ≤ 7) (hn : n ∈ tableAt d) : ShortestChain n d := by
  refine ⟨table_reachable d hd n hn, fun d' h => ?_⟩
  by_contra hlt
  obtain ⟨e, he, h1⟩ := mem_tableUpTo.1 (reachable_mem (by omega) h)
  exact tableAt_disjoint d hd e (by omega) n hn h1

theorem ShortestChain.unique {n d e : Nat} (h1 : ShortestChain n d) (h2 : ShortestChain n e) : d = e :=
  le_antisymm (h1.2 e h2.1) (h2.2 d h1.1)

theorem mem_of_shortest {n d : Nat} (hd : d ≤ 7) (h : ShortestChain n d) : n ∈ tableAt d := by
  obtain ⟨e, he, h1⟩ := mem_tableUpTo.1 (reachable_mem hd h.1)
  rwa [h.unique (shortest_of_mem (by omega) h1)]

end Poseidon
