import Verif.Spec.R1cs
import Verif.Spec.AddChain
import Mathlib.Data.Nat.Bits
import Mathlib.Data.Nat.Size

/-! # Square-and-multiply as an addition chain -/

namespace Poseidon

open R1cs

theorem count_bits_pos : ∀ {n : Nat}, n ≠ 0 → 1 ≤ (Nat.bits n).count true := by
  intro n
  induction n using Nat.binaryRec' with
  | zero => exact fun h => absurd rfl h
  | bit b m hb ih =>
    intro _
    rw [Nat.bits_append_bit m b hb]
    cases b with
    | true => simp
    | false =>
      have : m ≠ 0 := fun h => by simpa using hb h
      simpa using ih this

theorem sboxCost_bit (b : Bool) {m : Nat} (hm : m ≠ 0) : sboxCost (Nat.bit b m) = sboxCost m + 1 + b.toNat := by
  have h0 : Nat.bit b m ≠ 0 := by cases b <;> (simp [Nat.bit]; try omega)
  have h1 := Nat.size_bit h0
  have h2 := Nat.bits_append_bit m b (fun h => absurd h hm)
  have h3 := count_bits_pos hm
  have h4 : 1 ≤ Nat.size m := Nat.size_pos.2 (Nat.pos_of_ne_zero hm)
  unfold sboxCost
  rw [h1, h2, List.count_cons]
  cases b <;> simp <;> omega

theorem AddChain.one_mem {c : List Nat} (h : AddChain c) : 1 ∈ c := by
  induction h with
  | one => simp
  | step _ _ _ ih => exact List.mem_cons_of_mem _ ih

/-- The exponentiation of the gadget is an addition chain. -/
theorem reachable_sboxCost : ∀ {n : Nat}, n ≠ 0 → ReachableIn n (sboxCost n) := by
  intro n
  induction n using Nat.binaryRec' with
  | zero => exact fun h => absurd rfl h
  | bit b m hb ih =>
    intro _
    by_cases hm : m = 0
    · subst hm
      rw [hb rfl]
      exact ⟨[], .one, by decide⟩
    · obtain ⟨c, hc, hl⟩ := ih hm
      rw [sboxCost_bit b hm]
      have hd : AddChain ((m + m) :: m :: c) := .step hc List.mem_cons_self List.mem_cons_self
      cases b with
      | false =>
        refine ⟨m :: c, ?_, by simp [hl]⟩
        have : Nat.bit false m = m + m := by simp [Nat.bit]; omega
        rw [this]; exact hd
      | true =>
        refine ⟨(m + m) :: m :: c, ?_, by simp [hl]⟩
        have : Nat.bit true m = (m + m) + 1 := by simp [Nat.bit]; omega
        rw [this]
        exact .step hd List.mem_cons_self hd.one_mem

end Poseidon
