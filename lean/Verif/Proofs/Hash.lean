import Verif.Proofs.Shipped
import Mathlib.FieldTheory.Finite.Basic
import Mathlib.LinearAlgebra.Matrix.NonsingularInverse

/-! # Hash functions, bijectivity -/

set_option linter.unusedSectionVars false

namespace Poseidon

open Matrix

variable {F : Type _} [Field F] [DecidableEq F] {t : Nat}

/-! ## Exponent S-boxes: the textbook permutation is total -/

/-- A textbook round with S-box `x ^ e`. -/
def roundE (e : Nat) (M : Matrix (Fin t) (Fin t) F) (full : Bool) (c x : Fin t → F) : Fin t → F :=
  M.mulVec fun i => if Active full i then (x i + c i) ^ e else x i + c i

theorem textbookRound_exponent (e : Nat) (M : Matrix (Fin t) (Fin t) F) (full : Bool) (c x : Fin t → F) :
    textbookRound (.exponent e) M full c x = some (roundE e M full c x) := by
  rw [textbookRound, if_pos]
  · rfl
  · intro i _; trivial

/-- The textbook permutation with S-box `x ^ e` as a total function. -/
def permE (e : Nat) (M : Matrix (Fin t) (Fin t) F) (rf rp : Nat)
    (C : Fin (rf + rp + rf) → Fin t → F) (x : Fin t → F) : Fin t → F :=
  (List.finRange (rf + rp + rf)).foldl
    (fun x r => roundE e M (decide (r.val < rf ∨ rf + rp ≤ r.val)) (C r) x) x

theorem textbook_exponent (e : Nat) (M : Matrix (Fin t) (Fin t) F) (rf rp : Nat)
    (C : Fin (rf + rp + rf) → Fin t → F) (x : Fin t → F) :
    textbook (.exponent e) M rf rp C x = some (permE e M rf rp C x) := by
  rw [textbook, permE]
  generalize List.finRange (rf + rp + rf) = l
  induction l generalizing x with
  | nil => rfl
  | cons r l ih =>
    rw [List.foldlM_cons, textbookRound_exponent, List.foldl_cons]
    exact ih _

/-- `x ^ e` is a bijection of a finite field when `e` is coprime to the order of the unit group. -/
theorem pow_bijective [Fintype F] {e : Nat} (h : Nat.Coprime e (Fintype.card F - 1)) (he : 0 < e) :
    Function.Bijective fun x : F => x ^ e := by
  rw [← Finite.injective_iff_bijective]
  intro x y hxy
  simp only at hxy
  by_cases hx : x = 0
  · subst hx
    rw [zero_pow he.ne'] at hxy
    exact (pow_eq_zero_iff he.ne').1 hxy.symm |>.symm
  by_cases hy : y = 0
  · subst hy
    rw [zero_pow he.ne'] at hxy
    exact (pow_eq_zero_iff he.ne').1 hxy
  have h1 : (x / y) ^ e = 1 := by rw [div_pow, hxy, div_self (pow_ne_zero _ hy)]
  have h2 : (x / y) ^ (Fintype.card F - 1) = 1 :=
    FiniteField.pow_card_sub_one_eq_one _ (div_ne_zero hx hy)
  have h3 : orderOf (x / y) ∣ Nat.gcd e (Fintype.card F - 1) :=
    Nat.dvd_gcd (orderOf_dvd_of_pow_eq_one h1) (orderOf_dvd_of_pow_eq_one h2)
  rw [h, Nat.dvd_one, orderOf_eq_one_iff] at h3
  exact (div_eq_one_iff_eq hy).1 h3

theorem mulVec_bijective {M N : Matrix (Fin t) (Fin t) F} (h : M * N = 1) :
    Function.Bijective M.mulVec := by
  have h' : N * M = 1 := mul_eq_one_comm.1 h
  refine Function.bijective_iff_has_inverse.2 ⟨N.mulVec, ?_, ?_⟩
  · intro x; rw [Matrix.mulVec_mulVec, h', Matrix.one_mulVec]
  · intro x; rw [Matrix.mulVec_mulVec, h, Matrix.one_mulVec]

theorem roundE_bijective {e : Nat} {M N : Matrix (Fin t) (Fin t) F} (hM : M * N = 1)
    (he : Function.Bijective fun x : F => x ^ e) (full : Bool) (c : Fin t → F) :
    Function.Bijective (roundE e M full c) := by
  have h1 : Function.Bijective fun (x : Fin t → F) (i : Fin t) =>
      if Active full i then (x i + c i) ^ e else x i + c i := by
    have key : ∀ i : Fin t, Function.Bijective fun y : F => if Active full i then (y + c i) ^ e else y + c i := by
      intro i
      by_cases h : Active full i
      · simp only [h, if_true]
        exact he.comp (AddGroup.addRight_bijective (c i))
      · simp only [h, if_false]
        exact AddGroup.addRight_bijective (c i)
    exact Function.Bijective.piMap key
  exact (mulVec_bijective hM).comp h1

theorem permE_bijective {e : Nat} {M N : Matrix (Fin t) (Fin t) F} (hM : M * N = 1)
    (he : Function.Bijective fun x : F => x ^ e) (rf rp : Nat) (C : Fin (rf + rp + rf) → Fin t → F) :
    Function.Bijective (permE e M rf rp C) := by
  unfold permE
  generalize List.finRange (rf + rp + rf) = l
  induction l with
  | nil => exact Function.bijective_id
  | cons r l ih => exact ih.comp (roundE_bijective hM he _ _)

/-! ## Instances -/

theorem setState_eq (s input : Vector F t) : setState s input = .ok input := by
  obtain ⟨a, h1, h2⟩ := forList_spec (fun q (acc : Vector F t) => ∀ p (hp : p < t), p < q → acc[p] = input[p])
    (body := fun (e : F × Nat) acc => aset acc e.2 e.1) input.toList.zipIdx 0 s
    (fun _ _ hh => by omega) (by
      intro j hj acc hinv
      have hj' : j < t := by simpa using hj
      refine ⟨acc.set j input[j] hj', ?_, ?_⟩
      · rw [List.getElem_zipIdx]
        simp only [Nat.zero_add]
        rw [aset_lt _ _ hj']
        simp
      · intro p hp hp'
        rw [Vector.getElem_set]
        split
        · next heq => subst heq; rfl
        · next hne => exact hinv p hp (by omega))
  refine Eq.trans h1 ?_
  congr 1
  ext p hp
  exact h2 p hp (by simpa using hp)

variable {k nmds nhat rows nround npart : Nat} {F : Type} [Field F] [DecidableEq F]

theorem nTo1FixedHash_eq (p : Params F (k + 1) k nmds nhat rows (k + 1) nround npart)
    (hm : nmds = (k + 1) * (k + 1)) (ha : nround = rows * (k + 1)) (hc : Consistent p hm ha)
    (hk : 1 < k + 1) (s : Vector F (k + 1)) (x : Fin (k + 1) → F) :
    Instance.nTo1FixedHash ⟨p, s⟩ (Vector.ofFn x) =
      (reported (textbook p.alpha (p.mds.toM hm) (p.rounds.rF / 2)
      p.rounds.rP (fun r => p.arc.toM ha ⟨r.val, lt_of_lt_of_le r.isLt hc.rows_le⟩) x)).map
        (fun y => (y[1], ⟨p, y⟩)) := by
  rw [Instance.nTo1FixedHash, setState_eq, ok_bind]
  dsimp only
  rw [permute_eq p hm ha hc]
  cases textbook p.alpha (p.mds.toM hm) (p.rounds.rF / 2)
      p.rounds.rP (fun r => p.arc.toM ha ⟨r.val, lt_of_lt_of_le r.isLt hc.rows_le⟩) x with
  | none => rfl
  | some y =>
    rw [reported, ok_bind, aget_lt _ hk, ok_bind]
    rfl

end Poseidon
