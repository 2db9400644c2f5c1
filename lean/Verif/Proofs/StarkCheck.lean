import Verif.Proofs.StarkMds
import Verif.Proofs.ShippedLift
import Mathlib.FieldTheory.Finite.Basic

/-!
# Certificates for the matrices of `generate_mds.sage` over `decaf377::Fq`

A vector is an eigenvector of `M` over the field with `q` elements only if `M^q - M` maps it to zero.  So an inverse of `M^q - M` shows that
there is none; `M^q` is computed by squaring.
-/

namespace Poseidon

open Matrix

/-- A table of rows -/
def tabLL (m : Nat) (f : Nat → List Nat) : List (List Nat) := (List.range m).map f

theorem nthL_tabLL {m i : Nat} (f : Nat → List Nat) (h : i < m) : nthL (tabLL m f) i = f i := by
  rw [nthL_lt (by simpa [tabLL] using h)]; simp [tabLL]

/-- The product of two matrices modulo `q` -/
def matMulN (m : Nat) (A B : List (List Nat)) : List (List Nat) :=
  tabLL m fun i => tabN m fun j => (sumN m fun k => nth (nthL A i) k * nth (nthL B k) j) % q

/-- `acc^(2^i) T^(q mod 2^i)`: the last `i` steps of computing `T^q` -/
def powQ {α : Type} (m : Nat) (T : List (List Nat)) (f : List (List Nat) → α) : Nat → List (List Nat) → α
  | 0, acc => f acc
  | i + 1, acc => forceLL (matMulN m acc acc) fun acc => bif Nat.testBit q i then
      forceLL (matMulN m acc T) fun acc => powQ m T f i acc else powQ m T f i acc

/-- The matrix of a table -/
def toFqM (m : Nat) (A : List (List Nat)) : Matrix (Fin m) (Fin m) Fq := Matrix.of fun i j => (nth (nthL A i) j : Fq)

theorem toFqM_mul (m : Nat) (A B : List (List Nat)) : toFqM m (matMulN m A B) = toFqM m A * toFqM m B := by
  ext i j
  rw [toFqM, Matrix.of_apply, matMulN, nthL_tabLL _ i.isLt, nth_tabN _ j.isLt, cast_mod, sumN_cast, Matrix.mul_apply]
  refine Finset.sum_congr rfl fun k _ => ?_
  rw [Nat.cast_mul]
  rfl

theorem powQ_eq {α : Type} (m : Nat) (T : List (List Nat)) (f : List (List Nat) → α) (i : Nat) (acc : List (List Nat))
    (hacc : toFqM m acc = toFqM m T ^ (q / 2 ^ i)) : ∃ A, powQ m T f i acc = f A ∧ toFqM m A = toFqM m T ^ q := by
  induction i generalizing acc with
  | zero => exact ⟨acc, rfl, by rw [hacc, pow_zero, Nat.div_one]⟩
  | succ i ih =>
    rw [powQ, forceLL_eq]
    have h2 : q / 2 ^ i = 2 * (q / 2 ^ (i + 1)) + q / 2 ^ i % 2 := by
      rw [pow_succ, ← Nat.div_div_eq_div_mul]; omega
    have hb : Nat.testBit q i = decide (q / 2 ^ i % 2 = 1) := by rw [Nat.testBit_eq_decide_div_mod_eq]
    have hsq : toFqM m (matMulN m acc acc) = toFqM m T ^ (2 * (q / 2 ^ (i + 1))) := by
      rw [toFqM_mul, hacc, ← pow_add]; congr 1; omega
    by_cases h1 : q / 2 ^ i % 2 = 1
    · rw [hb, decide_eq_true h1, cond_true, forceLL_eq]
      refine ih _ ?_
      rw [toFqM_mul, hsq, ← pow_succ]
      congr 1; omega
    · rw [hb, decide_eq_false h1, cond_false]
      refine ih _ ?_
      rw [hsq]
      congr 1; omega

/-- `B (A - T) = 1` modulo `q` -/
def invN (m : Nat) (A T B : List (List Nat)) : Bool :=
  forceLL (tabLL m fun i => tabN m fun j => (nth (nthL A i) j + (q - nth (nthL T i) j % q)) % q) fun D =>
    allN m fun i => allN m fun j => Nat.beq ((sumN m fun k => nth (nthL B i) k * nth (nthL D k) j) % q) (if i = j then 1 else 0)

theorem invN_sound {m : Nat} {A T B : List (List Nat)} (h : invN m A T B = true) : toFqM m B * (toFqM m A - toFqM m T) = 1 := by
  rw [invN, forceLL_eq] at h
  ext i j
  have := Nat.eq_of_beq_eq_true (allN_iff.1 (allN_iff.1 h i i.isLt) j j.isLt)
  have hc := congrArg (Nat.cast (R := Fq)) this
  rw [cast_mod, sumN_cast] at hc
  rw [Matrix.mul_apply, Matrix.one_apply]
  have e : ((if (i : Nat) = (j : Nat) then 1 else 0 : Nat) : Fq) = if i = j then 1 else 0 := by
    by_cases hij : i = j
    · simp [hij]
    · rw [if_neg hij, if_neg (fun h => hij (Fin.ext h))]; simp
  rw [← e, ← hc]
  refine Finset.sum_congr rfl fun k _ => ?_
  rw [nthL_tabLL _ k.isLt, nth_tabN _ j.isLt, Nat.cast_mul, cast_mod, Nat.cast_add,
    Nat.cast_sub (Nat.le_of_lt (Nat.mod_lt _ (by norm_num [q]))), cast_mod, ZMod.natCast_self, zero_sub, ← sub_eq_add_neg]
  rfl

/-- No eigenvectors, by the inverse `B` of `T^q - T` -/
def noEigenN (m : Nat) (T B : List (List Nat)) : Bool :=
  powQ m T (fun A => invN m A T B) 253 (tabLL m fun i => tabN m fun j => if i = j then 1 else 0)

theorem noEigenN_sound {m : Nat} {T B : List (List Nat)} (h : noEigenN m T B = true) : ¬ HasEigenvector (toFqM m T) := by
  rintro ⟨c, v, hv, he⟩
  obtain ⟨A, hA, hp⟩ := powQ_eq m T (fun A => invN m A T B) 253 (tabLL m fun i => tabN m fun j => if i = j then 1 else 0) (by
    rw [show q / 2 ^ 253 = 0 by decide +kernel, pow_zero]
    ext i j
    rw [toFqM, Matrix.of_apply, nthL_tabLL _ i.isLt, nth_tabN _ j.isLt, Matrix.one_apply]
    by_cases hij : i = j
    · simp [hij]
    · rw [if_neg hij, if_neg (fun h => hij (Fin.ext h))]; simp)
  rw [noEigenN, hA] at h
  have hinv := invN_sound h
  have hpow : ∀ n, toFqM m T ^ n *ᵥ v = c ^ n • v := by
    intro n
    induction n with
    | zero => simp
    | succ n ih => rw [pow_succ, ← Matrix.mulVec_mulVec, he, Matrix.mulVec_smul, ih, smul_smul, pow_succ, mul_comm]
  have h0 : (toFqM m A - toFqM m T) *ᵥ v = 0 := by
    rw [Matrix.sub_mulVec, hp, hpow, he, ZMod.pow_card, sub_self]
  apply hv
  rw [← Matrix.one_mulVec v, ← hinv, ← Matrix.mulVec_mulVec, h0, Matrix.mulVec_zero]

/-- `T v = c v` modulo `q`, and `v` has an entry 1. -/
def eigenN (m : Nat) (T : List (List Nat)) (c : Nat) (v : List Nat) (one : Nat) : Bool :=
  Nat.blt one m && Nat.beq (nth v one) 1 &&
    allN m fun i => Nat.beq ((sumN m fun j => nth (nthL T i) j * nth v j) % q) (c * nth v i % q)

theorem eigenN_sound {m : Nat} {T : List (List Nat)} {c : Nat} {v : List Nat} {one : Nat} (h : eigenN m T c v one = true) :
    HasEigenvector (toFqM m T) := by
  rw [eigenN, Bool.and_eq_true, Bool.and_eq_true] at h
  obtain ⟨⟨h1, h2⟩, h3⟩ := h
  refine ⟨(c : Fq), fun i => (nth v i : Fq), fun h0 => ?_, ?_⟩
  · have hlt : one < m := by simpa [Nat.blt_eq] using h1
    have := congrFun h0 ⟨one, hlt⟩
    rw [Pi.zero_apply] at this
    simp only [Nat.eq_of_beq_eq_true h2, Nat.cast_one] at this
    exact one_ne_zero this
  · ext i
    have := Nat.eq_of_beq_eq_true (allN_iff.1 h3 i i.isLt)
    have hc := cast_eq_of_mod this
    rw [sumN_cast, Nat.cast_mul] at hc
    rw [Pi.smul_apply, smul_eq_mul, ← hc]
    show ∑ j, toFqM m T i j * (nth v j : Fq) = _
    refine Finset.sum_congr rfl fun j _ => ?_
    rw [Nat.cast_mul]
    rfl

/-- The elements for rows or columns, modulo `q` -/
def elementsN (h : List Nat → Nat) (name : List Char) (suffix : Char) (m a : Nat) : List Nat :=
  tabN m fun i => h ((name ++ [suffix] ++ Nat.toDigits 10 (a * m + i)).map Char.toNat) % q

/-- `T` is the Cauchy matrix of attempt `a`, and its elements are different. -/
def starkCauchyN (h : List Nat → Nat) (name : List Char) (m a : Nat) (T : List (List Nat)) : Bool :=
  forceL (elementsN h name 'x' m a) fun xs => forceL (elementsN h name 'y' m a) fun ys =>
    (allN m fun i => allN m fun j => Nat.beq (nth (nthL T i) j * (nth xs i + (q - nth ys j)) % q) 1) &&
    (allN m fun i => allN m fun j => Nat.beq i j || (!Nat.beq (nth xs i) (nth xs j) && !Nat.beq (nth ys i) (nth ys j)))

theorem starkCauchyN_sound {h : List Nat → Nat} {name : List Char} {m a : Nat} {T : List (List Nat)} (hc : starkCauchyN h name m a T = true) :
    StarkDistinct Fq h name m a ∧ starkMatrix Fq h name m a = toFqM m T := by
  rw [starkCauchyN, forceL_eq, forceL_eq, Bool.and_eq_true] at hc
  obtain ⟨h1, h2⟩ := hc
  have hq : 0 < q := by norm_num [q]
  have hx : ∀ i : Fin m, starkRows Fq h name m a i = (nth (elementsN h name 'x' m a) i : Fq) := fun i => by
    rw [elementsN, nth_tabN _ i.isLt, cast_mod]; rfl
  have hy : ∀ i : Fin m, starkColumns Fq h name m a i = (nth (elementsN h name 'y' m a) i : Fq) := fun i => by
    rw [elementsN, nth_tabN _ i.isLt, cast_mod]; rfl
  have lx : ∀ i : Fin m, nth (elementsN h name 'x' m a) i < q := fun i => by
    rw [elementsN, nth_tabN _ i.isLt]; exact Nat.mod_lt _ hq
  have ly : ∀ i : Fin m, nth (elementsN h name 'y' m a) i < q := fun i => by
    rw [elementsN, nth_tabN _ i.isLt]; exact Nat.mod_lt _ hq
  have hT : ∀ i j : Fin m, toFqM m T i j * (starkRows Fq h name m a i - starkColumns Fq h name m a j) = 1 := by
    intro i j
    have := congrArg (Nat.cast (R := Fq)) (Nat.eq_of_beq_eq_true (allN_iff.1 (allN_iff.1 h1 i i.isLt) j j.isLt))
    rw [cast_mod, Nat.cast_mul, Nat.cast_add, Nat.cast_sub (ly j).le, ZMod.natCast_self, zero_sub, ← sub_eq_add_neg, ← hx, ← hy, Nat.cast_one] at this
    exact this
  have hd : ∀ i j : Fin m, i ≠ j → nth (elementsN h name 'x' m a) i ≠ nth (elementsN h name 'x' m a) j ∧
      nth (elementsN h name 'y' m a) i ≠ nth (elementsN h name 'y' m a) j := by
    intro i j hij
    have := allN_iff.1 (allN_iff.1 h2 i i.isLt) j j.isLt
    rw [Bool.or_eq_true, Bool.and_eq_true, Bool.not_eq_true', Bool.not_eq_true'] at this
    rcases this with h | ⟨ha, hb⟩
    · exact absurd (Fin.ext (Nat.eq_of_beq_eq_true h)) hij
    · exact ⟨Nat.ne_of_beq_eq_false ha, Nat.ne_of_beq_eq_false hb⟩
  refine ⟨⟨fun i j e => ?_, fun i j e => ?_, fun i j e => ?_⟩, ?_⟩
  · by_contra hij
    rw [hx, hx] at e
    exact (hd i j hij).1 (cast_inj_lt (lx i) (lx j) e)
  · by_contra hij
    rw [hy, hy] at e
    exact (hd i j hij).2 (cast_inj_lt (ly i) (ly j) e)
  · have := hT i j
    rw [e, sub_self, mul_zero] at this
    exact zero_ne_one this
  · ext i j
    rw [starkMatrix, Matrix.of_apply, one_div]
    exact inv_eq_of_mul_eq_one_left (hT i j)

end Poseidon
