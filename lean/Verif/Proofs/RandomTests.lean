import Verif.Model.RandomTests
import Verif.Props.Native
import Verif.Props.Matrix
import Verif.Proofs.KeyFile
import Mathlib.Data.Int.CardIntervalMod
import Mathlib.Data.Set.Card
import Mathlib.SetTheory.Cardinal.Finite

/-!
# Lemmas for the tests on random inputs
-/

namespace Poseidon

open Poseidon.Groth16

theorem fqStrategy_eq {n : Nat} (v : Vector UInt8 n) : fqStrategy v = ((number v.toList : Nat) : Fq) := by
  rw [fqStrategy, fromLeBytesModOrder, leNat_eq]

theorem vnumber_lt {n : Nat} (v : Vector UInt8 n) : number v.toList < 256 ^ n := by
  have := number_lt v.toList
  rwa [Vector.length_toList] at this

theorem vnumber_inj {n : Nat} {v w : Vector UInt8 n} (h : number v.toList = number w.toList) : v = w :=
  Vector.toList_inj.1 (number_inj (by simp) h)

/-- Arrays of `n` bytes and the numbers below `256 ^ n`. -/
noncomputable def bytesEquiv (n : Nat) : Vector UInt8 n ≃ Fin (256 ^ n) :=
  Equiv.ofBijective (fun v => ⟨number v.toList, vnumber_lt v⟩) ⟨fun _ _ h => vnumber_inj (congrArg Fin.val h), fun x =>
    ⟨⟨(leBytes n x.val).toArray, by simp [leBytes_length]⟩, Fin.ext (number_leBytes n x.val x.isLt)⟩⟩

instance (n : Nat) : Finite (Vector UInt8 n) := Finite.of_equiv _ (bytesEquiv n).symm

theorem card_bytes (n : Nat) : Nat.card (Vector UInt8 n) = 256 ^ n := by
  rw [Nat.card_congr (bytesEquiv n), Nat.card_fin]

/-- How many arrays of bytes denote a number in a residue class. -/
theorem ncard_residue (n m v : Nat) (hm : 0 < m) :
    {b : Vector UInt8 n | number b.toList ≡ v [MOD m]}.ncard = 256 ^ n / m + if v % m < 256 ^ n % m then 1 else 0 := by
  rw [← Nat.count_modEq_card (256 ^ n) hm v, Nat.count_eq_card_filter_range]
  rw [← Set.ncard_coe_finset]
  refine Set.ncard_congr (fun b _ => number b.toList) ?_ ?_ ?_
  · intro b hb
    rw [Finset.mem_coe, Finset.mem_filter, Finset.mem_range]
    exact ⟨vnumber_lt b, hb⟩
  · intro a b _ _ h
    exact vnumber_inj h
  · intro x hx
    rw [Finset.mem_coe, Finset.mem_filter, Finset.mem_range] at hx
    refine ⟨⟨(leBytes n x).toArray, by simp [leBytes_length]⟩, ?_, number_leBytes n x hx.1⟩
    show number (leBytes n x) ≡ v [MOD m]
    rw [number_leBytes n x hx.1]
    exact hx.2

/-- Singular 2×2 matrices with entries from a set of the field: their number. -/
theorem ncard_singular {V F : Type} [Finite V] [Field F] (f : V → F) (hf : Function.Injective f) :
    {x : V × V × V × V | f x.1 * f x.2.2.2 = f x.2.1 * f x.2.2.1}.ncard ≤ Nat.card V ^ 3 + 2 * Nat.card V ^ 2 := by
  have h1 : {x : V × V × V × V | f x.1 ≠ 0 ∧ f x.1 * f x.2.2.2 = f x.2.1 * f x.2.2.1}.ncard ≤ Nat.card V ^ 3 := by
    have e : Nat.card V ^ 3 = (Set.univ : Set (V × V × V)).ncard := by
      rw [Set.ncard_univ, Nat.card_prod, Nat.card_prod]
      ring
    rw [e]
    refine Set.ncard_le_ncard_of_injOn (fun x => (x.1, x.2.1, x.2.2.1)) (fun _ _ => Set.mem_univ _) ?_ Set.finite_univ
    rintro ⟨a, b, c, d⟩ ⟨h0, h1⟩ ⟨a', b', c', d'⟩ ⟨-, h1'⟩ h
    obtain ⟨rfl, h⟩ := Prod.mk.inj h
    obtain ⟨rfl, rfl⟩ := Prod.mk.inj h
    dsimp only at h0 h1 h1'
    have : f d = f d' := mul_left_cancel₀ h0 (h1.trans h1'.symm)
    rw [hf this]
  have h2 : {x : V × V × V × V | f x.1 = 0 ∧ f x.2.1 = 0}.ncard ≤ Nat.card V ^ 2 := by
    have e : Nat.card V ^ 2 = (Set.univ : Set (V × V)).ncard := by
      rw [Set.ncard_univ, Nat.card_prod]
      ring
    rw [e]
    refine Set.ncard_le_ncard_of_injOn (fun x => x.2.2) (fun _ _ => Set.mem_univ _) ?_ Set.finite_univ
    rintro ⟨a, b, c⟩ ⟨h0, h1⟩ ⟨a', b', c'⟩ ⟨h0', h1'⟩ h
    dsimp only at h0 h1 h0' h1' h
    rw [hf (h0.trans h0'.symm), hf (h1.trans h1'.symm), h]
  have h3 : {x : V × V × V × V | f x.1 = 0 ∧ f x.2.2.1 = 0}.ncard ≤ Nat.card V ^ 2 := by
    have e : Nat.card V ^ 2 = (Set.univ : Set (V × V)).ncard := by
      rw [Set.ncard_univ, Nat.card_prod]
      ring
    rw [e]
    refine Set.ncard_le_ncard_of_injOn (fun x => (x.2.1, x.2.2.2)) (fun _ _ => Set.mem_univ _) ?_ Set.finite_univ
    rintro ⟨a, b, c, d⟩ ⟨h0, h1⟩ ⟨a', b', c', d'⟩ ⟨h0', h1'⟩ h
    dsimp only at h0 h1 h0' h1' h
    obtain ⟨rfl, rfl⟩ := Prod.mk.inj h
    rw [hf (h0.trans h0'.symm), hf (h1.trans h1'.symm)]
  have hsub : {x : V × V × V × V | f x.1 * f x.2.2.2 = f x.2.1 * f x.2.2.1} ⊆
      {x | f x.1 ≠ 0 ∧ f x.1 * f x.2.2.2 = f x.2.1 * f x.2.2.1} ∪ ({x | f x.1 = 0 ∧ f x.2.1 = 0} ∪ {x | f x.1 = 0 ∧ f x.2.2.1 = 0}) := by
    intro x hx
    by_cases h0 : f x.1 = 0
    · have hx' : f x.1 * f x.2.2.2 = f x.2.1 * f x.2.2.1 := hx
      rw [h0, zero_mul] at hx'
      rcases mul_eq_zero.1 hx'.symm with h | h
      · exact .inr (.inl ⟨h0, h⟩)
      · exact .inr (.inr ⟨h0, h⟩)
    · exact .inl ⟨h0, hx⟩
  have := Set.ncard_le_ncard hsub (Set.toFinite _)
  have u1 := Set.ncard_union_le {x : V × V × V × V | f x.1 ≠ 0 ∧ f x.1 * f x.2.2.2 = f x.2.1 * f x.2.2.1}
    ({x | f x.1 = 0 ∧ f x.2.1 = 0} ∪ {x | f x.1 = 0 ∧ f x.2.2.1 = 0})
  have u2 := Set.ncard_union_le {x : V × V × V × V | f x.1 = 0 ∧ f x.2.1 = 0} {x | f x.1 = 0 ∧ f x.2.2.1 = 0}
  omega

theorem pow16_lt_q : 256 ^ 16 < q := by decide +kernel

theorem fqStrategy16_inj : Function.Injective (fqStrategy : Vector UInt8 16 → Fq) := by
  intro v w h
  rw [fqStrategy_eq, fqStrategy_eq, ZMod.natCast_eq_natCast_iff'] at h
  rw [Nat.mod_eq_of_lt ((vnumber_lt v).trans pow16_lt_q), Nat.mod_eq_of_lt ((vnumber_lt w).trans pow16_lt_q)] at h
  exact vnumber_inj h

end Poseidon
