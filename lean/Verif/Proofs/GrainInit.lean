import Mathlib.Data.Nat.Digits.Lemmas
import Verif.Proofs.Grain

/-! # Proofs about the start of the Grain generator -/

namespace Poseidon

open Grain

/-- The arguments fit into the fields of the start. -/
structure Grain.Arguments.Fits (a : Arguments) : Prop where
  field : a.field < 2 ^ 2
  sbox : a.sbox < 2 ^ 4
  fieldSize : a.fieldSize < 2 ^ 12
  numCells : a.numCells < 2 ^ 12
  rF : a.rF < 2 ^ 10
  rP : a.rP < 2 ^ 10

/-- The `w` low bits of `x`, the highest first -/
def bitsN (w x : Nat) : List Bool := (List.range w).map fun i => x.testBit (w - 1 - i)

theorem bitsN_succ (w x : Nat) : bitsN (w + 1) x = bitsN w (x / 2) ++ [x % 2 == 1] := by
  rw [bitsN, List.range_succ, List.map_append, bitsN]
  congr 1
  · refine List.map_congr_left fun i hi => ?_
    have := List.mem_range.1 hi
    rw [show w + 1 - 1 - i = w - 1 - i + 1 by omega, Nat.testBit_succ]
  · rw [List.map_singleton, show w + 1 - 1 - w = 0 by omega, Nat.testBit_zero]
    rfl

theorem binZfill_zero {w : Nat} (hw : 1 ≤ w) : binZfill w 0 = List.replicate w false := by
  rw [binZfill, if_pos rfl, List.length_singleton]
  conv_rhs => rw [show w = w - 1 + 1 by omega, List.replicate_add]
  rfl

theorem binZfill_succ {w : Nat} (hw : 1 ≤ w) (x : Nat) : binZfill (w + 1) x = binZfill w (x / 2) ++ [x % 2 == 1] := by
  by_cases h0 : x = 0
  · subst h0
    rw [binZfill_zero (by omega), Nat.zero_div, binZfill_zero hw, List.replicate_succ']
    rfl
  · by_cases h1 : x / 2 = 0
    · have : x = 1 := by omega
      subst this
      rw [h1, binZfill_zero hw]
      simp [binZfill]
    · rw [binZfill, if_neg h0, Nat.digits_def' (by omega) (by omega), binZfill, if_neg h1]
      simp

theorem binZfill_eq {w x : Nat} (hw : 1 ≤ w) (hx : x < 2 ^ w) : binZfill w x = bitsN w x := by
  induction w, hw using Nat.le_induction generalizing x with
  | base =>
    have : x = 0 ∨ x = 1 := by omega
    rcases this with rfl | rfl
    · rfl
    · simp [binZfill, bitsN]
  | succ w hw ih => rw [binZfill_succ hw, bitsN_succ, ih (by rw [pow_succ] at hx; omega)]

theorem binZfill_length {w : Nat} (hw : 1 ≤ w) (x : Nat) : w ≤ (binZfill w x).length ∧ ((binZfill w x).length = w ↔ x < 2 ^ w) := by
  by_cases h0 : x = 0
  · subst h0
    rw [binZfill_zero hw, List.length_replicate]
    exact ⟨le_rfl, by simp⟩
  · have : (binZfill w x).length = w - (Nat.digits 2 x).length + (Nat.digits 2 x).length := by
      rw [binZfill, if_neg h0]; simp
    rw [this, ← Nat.digits_length_le_iff (by omega)]
    omega

theorem intOfBits_append (l m : List Bool) : intOfBits (l ++ m) = intOfBits l * 2 ^ m.length + intOfBits m := by
  have key : ∀ (m : List Bool) (a : Nat), m.foldl (fun a b => 2 * a + b.toNat) a = a * 2 ^ m.length + intOfBits m := by
    intro m
    induction m with
    | nil => intro a; simp [intOfBits]
    | cons b m ih =>
      intro a
      have e : intOfBits (b :: m) = b.toNat * 2 ^ m.length + intOfBits m := by
        show m.foldl (fun a b => 2 * a + b.toNat) (2 * 0 + b.toNat) = _
        rw [ih]; ring
      rw [List.foldl_cons, ih, e, List.length_cons, pow_succ]
      ring
  rw [intOfBits, List.foldl_append, key]
  rfl

theorem intOfBits_replicate (n : Nat) : intOfBits (List.replicate n false) = 0 := by
  induction n with
  | zero => rfl
  | succ n ih => rw [List.replicate_succ', intOfBits_append, ih]; rfl

theorem intOfBits_binZfill (w x : Nat) : intOfBits (binZfill w x) = x := by
  rw [binZfill, intOfBits_append, intOfBits_replicate, zero_mul, zero_add]
  by_cases h0 : x = 0
  · rw [if_pos h0, h0]; rfl
  · rw [if_neg h0]
    clear h0
    induction x using Nat.strongRecOn with
    | ind x ih =>
      by_cases h0 : x = 0
      · subst h0; rfl
      · rw [Nat.digits_def' (by omega) (by omega), List.reverse_cons, List.map_append, intOfBits_append, ih (x / 2) (by omega)]
        rcases Nat.mod_two_eq_zero_or_one x with h | h
        · rw [h]; show x / 2 * 2 + 0 = x; omega
        · rw [h]; show x / 2 * 2 + 1 = x; omega

theorem initSequence_length (a : Arguments) : (initSequence a).length = 80 ↔ a.Fits := by
  obtain ⟨l1, e1⟩ := binZfill_length (show 1 ≤ 2 by omega) a.field
  obtain ⟨l2, e2⟩ := binZfill_length (show 1 ≤ 4 by omega) a.sbox
  obtain ⟨l3, e3⟩ := binZfill_length (show 1 ≤ 12 by omega) a.fieldSize
  obtain ⟨l4, e4⟩ := binZfill_length (show 1 ≤ 12 by omega) a.numCells
  obtain ⟨l5, e5⟩ := binZfill_length (show 1 ≤ 10 by omega) a.rF
  obtain ⟨l6, e6⟩ := binZfill_length (show 1 ≤ 10 by omega) a.rP
  simp only [initSequence, List.length_append, List.length_replicate]
  constructor
  · intro h
    exact ⟨e1.1 (by omega), e2.1 (by omega), e3.1 (by omega), e4.1 (by omega), e5.1 (by omega), e6.1 (by omega)⟩
  · rintro ⟨h1, h2, h3, h4, h5, h6⟩
    rw [e1.2 h1, e2.2 h2, e3.2 h3, e4.2 h4, e5.2 h5, e6.2 h6]

theorem initSequence_value {a : Arguments} (h : a.Fits) : intOfBits (initSequence a) = a.field * 2 ^ 78 + a.sbox * 2 ^ 74 +
    a.fieldSize * 2 ^ 62 + a.numCells * 2 ^ 50 + a.rF * 2 ^ 40 + a.rP * 2 ^ 30 + (2 ^ 30 - 1) := by
  have l2 := (binZfill_length (show 1 ≤ 4 by omega) a.sbox).2.2 h.sbox
  have l3 := (binZfill_length (show 1 ≤ 12 by omega) a.fieldSize).2.2 h.fieldSize
  have l4 := (binZfill_length (show 1 ≤ 12 by omega) a.numCells).2.2 h.numCells
  have l5 := (binZfill_length (show 1 ≤ 10 by omega) a.rF).2.2 h.rF
  have l6 := (binZfill_length (show 1 ≤ 10 by omega) a.rP).2.2 h.rP
  rw [initSequence, intOfBits_append, intOfBits_append, intOfBits_append, intOfBits_append, intOfBits_append, intOfBits_append,
    intOfBits_binZfill, intOfBits_binZfill, intOfBits_binZfill, intOfBits_binZfill, intOfBits_binZfill, intOfBits_binZfill, l2, l3, l4, l5, l6,
    List.length_replicate, show intOfBits (List.replicate 30 true) = 2 ^ 30 - 1 by decide +kernel]
  ring

/-- The start, in a form that is fast in the kernel -/
theorem initSequence_eq {a : Arguments} (h : a.Fits) : initSequence a = bitsN 2 a.field ++ bitsN 4 a.sbox ++ bitsN 12 a.fieldSize ++
    bitsN 12 a.numCells ++ bitsN 10 a.rF ++ bitsN 10 a.rP ++ List.replicate 30 true := by
  rw [initSequence, binZfill_eq (by omega) h.field, binZfill_eq (by omega) h.sbox, binZfill_eq (by omega) h.fieldSize,
    binZfill_eq (by omega) h.numCells, binZfill_eq (by omega) h.rF, binZfill_eq (by omega) h.rP]

/-- The register of the arguments never stops. -/
theorem exists_grain {a : Arguments} (h : a.Fits) : ∃ s, IsRegister (initSequence a) s ∧ (Set.ofPred (Taken s)).Infinite := by
  have hl := (initSequence_length a).2 h
  obtain ⟨s, hs⟩ := exists_register _ hl
  refine ⟨s, hs, taken_infinite hs (i := 79) ?_⟩
  have h79 : ∀ l : List Bool, l.length = 50 → (l ++ List.replicate 30 true)[79]? = some true := by
    intro l hl
    rw [List.getElem?_append_right (by omega), hl]
    rfl
  have h1 := h79 _ (show (binZfill 2 a.field ++ binZfill 4 a.sbox ++ binZfill 12 a.fieldSize ++ binZfill 12 a.numCells ++
    binZfill 10 a.rF ++ binZfill 10 a.rP).length = 50 by rw [initSequence, List.length_append, List.length_replicate] at hl; omega)
  have h2 : (initSequence a)[79]? = some true := h1
  rw [hs.init 79 (by omega)]
  rw [List.getElem?_eq_getElem (by omega)] at h2
  exact Option.some.inj h2

end Poseidon
