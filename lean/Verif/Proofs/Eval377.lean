import Verif.Props.Native

/-! # Evaluating the shipped permutations on naturals -/

namespace Poseidon

open Matrix

/-- The state over `Fq` of a list of naturals. -/
def natV (t : Nat) (l : List Nat) : Fin t → Fq := fun i => ((nth l i : Nat) : Fq)

/-- `a ^ 17` modulo `q` -/
def pow17N (a : Nat) : Nat :=
  force a fun a => force (a * a % q) fun a2 => force (a2 * a2 % q) fun a4 => force (a4 * a4 % q) fun a8 =>
    a8 * a8 % q * a % q

theorem pow17N_cast (a : Nat) : ((pow17N a : Nat) : Fq) = (a : Fq) ^ 17 := by
  simp only [pow17N, force_eq, cast_mod, Nat.cast_mul]
  ring

/-- One round on naturals; `c` is the row of constants. -/
def roundN (t : Nat) (m : List Nat) (full : Bool) (c : Nat → Nat) (x : List Nat) : List Nat :=
  forceL (tabN t fun i => bif full || Nat.beq i 0 then pow17N (nth x i + c i) else nth x i + c i) fun y =>
    forceL (tabN t fun i => sumN t (fun j => ent t m i j * nth y j) % q) fun z => z

theorem roundN_cast (t : Nat) (m : List Nat) (full : Bool) (c : Nat → Nat) (x : List Nat) :
    natV t (roundN t m full c x) = roundE 17 (natM t t m) full (fun i => ((c i : Nat) : Fq)) (natV t x) := by
  rw [roundN, forceL_eq, forceL_eq, roundE]
  funext i
  rw [natV, nth_tabN _ i.isLt, cast_mod, sumN_cast, Matrix.mulVec, _root_.dotProduct]
  apply Finset.sum_congr rfl
  intro j _
  rw [nth_tabN _ j.isLt, Nat.cast_mul, natM, Matrix.of_apply]
  congr 1
  by_cases h : Active full j
  · rw [if_pos h]
    have : (full || Nat.beq j.val 0) = true := by
      rcases h with h | h
      · rw [h]; rfl
      · rw [h]; simp
    rw [this, cond_true, pow17N_cast]
    simp [natV]
  · rw [if_neg h]
    have : (full || Nat.beq j.val 0) = false := by
      have h1 : ¬ full = true := fun hh => h (Or.inl hh)
      have h2 : ¬ j.val = 0 := fun hh => h (Or.inr hh)
      have h3 : Nat.beq j.val 0 = false := Bool.eq_false_iff.2 fun hh => h2 (Nat.eq_of_beq_eq_true hh)
      rw [Bool.eq_false_iff.2 h1, h3]; rfl
    rw [this, cond_false]
    simp [natV]

/-- The permutation on naturals. -/
def permN (t : Nat) (m c : List Nat) (x : List Nat) : List Nat :=
  (List.range 39).foldl (fun x r => roundN t m (Nat.blt r 4 || Nat.ble 35 r) (fun i => nth c (r * t + i)) x) x

theorem permN_cast (t : Nat) (m c : List Nat) (C : Fin (4 + 31 + 4) → Fin t → Fq) (M : Matrix (Fin t) (Fin t) Fq)
    (hM : M = natM t t m) (hC : ∀ r i, C r i = ((nth c (r.val * t + i.val) : Nat) : Fq)) (x : List Nat) :
    permE 17 M 4 31 C (natV t x) = natV t (permN t m c x) := by
  subst hM
  rw [permE, permN, ← List.map_coe_finRange_eq_range]
  show List.foldl _ _ (List.finRange 39) = _
  generalize List.finRange 39 = l
  induction l generalizing x with
  | nil => rfl
  | cons r l ih =>
    rw [List.foldl_cons, List.map_cons, List.foldl_cons, ← ih, roundN_cast]
    congr 2
    · rw [Bool.eq_iff_iff]
      simp [Nat.blt, Nat.ble_eq]
    · funext i; exact hC r i

end Poseidon
