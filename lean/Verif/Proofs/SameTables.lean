import Mathlib.RingTheory.Polynomial.Content
import Mathlib.Algebra.Polynomial.Derivative
import Verif.Proofs.MatrixChange

/-! # Which tables of round constants give the same permutation -/

set_option linter.unusedSectionVars false

namespace Poseidon

open Polynomial

variable {F : Type} [Field F] [DecidableEq F] {k t e n : Nat}

/-! ## Two powers do not differ by a constant -/

theorem pow_add_const {p : Nat} [Fact p.Prime] [CharP F p] (he : 2 ≤ e) (hep : e < p) {Q R : F[X]} (hQ : 1 ≤ Q.natDegree) (hQp : Q.natDegree < p) {ε : F}
    (h : R ^ e = Q ^ e + C ε) : ε = 0 := by
  by_contra hε
  have hdeg : R.natDegree = Q.natDegree := by
    have h1 := congrArg natDegree h
    rw [natDegree_add_C, natDegree_pow, natDegree_pow] at h1
    exact Nat.eq_of_mul_eq_mul_left (by omega) h1
  have hcop : IsCoprime Q R := by
    have h1 : IsCoprime (Q ^ e) (R ^ e) := by
      refine ⟨-C ε⁻¹, C ε⁻¹, ?_⟩
      rw [h, mul_add, ← C_mul, inv_mul_cancel₀ hε, C_1]
      ring
    exact (IsCoprime.pow_iff (by omega) (by omega)).1 h1
  have he0 : ((e : Nat) : F) ≠ 0 := by
    rw [Ne, CharP.cast_eq_zero_iff F p]
    exact Nat.not_dvd_of_pos_of_lt (by omega) hep
  have hd := congrArg derivative h
  rw [derivative_add, derivative_C, add_zero, derivative_pow, derivative_pow, mul_assoc, mul_assoc] at hd
  have hd := mul_left_cancel₀ (C_ne_zero.2 he0) hd
  have hdvd : Q ^ (e - 1) ∣ derivative R := (IsCoprime.pow (m := e - 1) (n := e - 1) hcop).dvd_of_dvd_mul_left ⟨derivative Q, hd⟩
  have hR : derivative R ≠ 0 := by
    intro h0
    have h1 := congrArg (fun P : F[X] => P.coeff (R.natDegree - 1)) h0
    simp only [coeff_derivative, coeff_zero] at h1
    rw [Nat.sub_add_cancel (by omega), coeff_natDegree, ← Nat.cast_succ, Nat.succ_eq_add_one, Nat.sub_add_cancel (by omega)] at h1
    rcases mul_eq_zero.1 h1 with h2 | h2
    · rw [leadingCoeff_eq_zero] at h2
      rw [h2, natDegree_zero] at hdeg
      omega
    · rw [CharP.cast_eq_zero_iff F p] at h2
      exact Nat.not_dvd_of_pos_of_lt (by omega) (by omega) h2
  have h1 := natDegree_le_of_dvd hdvd hR
  rw [natDegree_pow] at h1
  have h2 := natDegree_derivative_lt (p := R) (by omega)
  have h3 : 1 * Q.natDegree ≤ (e - 1) * Q.natDegree := Nat.mul_le_mul_right _ (by omega)
  omega

/-! ## What is left of a difference between two tables -/

/-- The difference of two tables before the S-boxes of round `r`, those of the rounds before having been carried on. -/
def gap (M : Matrix (Fin t) (Fin t) F) (c c' : Nat → Fin t → F) : Nat → Fin t → F
  | 0 => c' 0 - c 0
  | r + 1 => c' (r + 1) - c (r + 1) + M.mulVec (gap M c c' r)

/-- What the rounds before `r` carry on. -/
def carried (M : Matrix (Fin t) (Fin t) F) (g : Nat → Fin t → F) : Nat → Fin t → F
  | 0 => 0
  | r + 1 => M.mulVec (g r)

theorem gap_eq (M : Matrix (Fin t) (Fin t) F) (c c' : Nat → Fin t → F) (r : Nat) : gap M c c' r = c' r - c r + carried M (gap M c c') r := by
  cases r with
  | zero => rw [gap, carried, add_zero]
  | succ r => rw [gap, carried]

theorem textE_succ (M : Matrix (Fin t) (Fin t) F) (full : Nat → Bool) (c : Nat → Fin t → F) (m : Nat) (x : Fin t → F) :
    textE e M full c (List.range (m + 1)) x = roundE e M (full m) (c m) (textE e M full c (List.range m) x) := by
  rw [List.range_succ, textE_append]
  rfl

/-- A gap that no S-box sees is carried on. -/
theorem round_gap (M : Matrix (Fin t) (Fin t) F) (full : Nat → Bool) (c c' : Nat → Fin t → F) (m : Nat) (h : ∀ j, Active (full m) j → gap M c c' m j = 0) (y : Fin t → F) :
    roundE e M (full m) (c' m) (y + carried M (gap M c c') m) = roundE e M (full m) (c m) y + M.mulVec (gap M c c' m) := by
  rw [roundE, roundE, ← Matrix.mulVec_add]
  congr 1
  funext j
  have hg := congrFun (gap_eq M c c' m) j
  simp only [Pi.add_apply, Pi.sub_apply] at hg ⊢
  by_cases hj : Active (full m) j
  · rw [if_pos hj, if_pos hj, h j hj, add_zero]
    rw [h j hj] at hg
    congr 1
    linear_combination -hg
  · rw [if_neg hj, if_neg hj, hg]
    ring

theorem text_gap (M : Matrix (Fin t) (Fin t) F) (full : Nat → Bool) (c c' : Nat → Fin t → F) (m : Nat) (h : ∀ r, r < m → ∀ j, Active (full r) j → gap M c c' r j = 0) (x : Fin t → F) :
    textE e M full c' (List.range m) x = textE e M full c (List.range m) x + carried M (gap M c c') m := by
  induction m with
  | zero => exact (add_zero x).symm
  | succ m ih => rw [textE_succ, textE_succ, ih fun r hr => h r (by omega), round_gap M full c c' m (h m (by omega))]; rfl

/-- If the states differ by a constant, no S-box sees a gap. -/
theorem gap_text {M N : Matrix (Fin t) (Fin t) F} (hM : N * M = 1) (hinj : Function.Injective fun x : F => x ^ e) (full : Nat → Bool) (c c' : Nat → Fin t → F)
    (hpow : ∀ m, m < n → ∀ j, ∀ ε, (∀ x, (textE e M full c' (List.range m) x j + c' m j) ^ e = (textE e M full c (List.range m) x j + c m j) ^ e + ε) → ε = 0) :
    ∀ m, m ≤ n → ∀ δ, (∀ x, textE e M full c' (List.range m) x = textE e M full c (List.range m) x + δ) → ∀ r, r < m → ∀ j, Active (full r) j → gap M c c' r j = 0 := by
  intro m
  induction m with
  | zero =>
    intro _ _ _ r hr
    exact absurd hr (Nat.not_lt_zero r)
  | succ m ih =>
    intro hm δ h
    -- the words after the S-boxes differ by a constant
    have h1 : ∀ x j, (if Active (full m) j then (textE e M full c' (List.range m) x j + c' m j) ^ e else textE e M full c' (List.range m) x j + c' m j) =
        (if Active (full m) j then (textE e M full c (List.range m) x j + c m j) ^ e else textE e M full c (List.range m) x j + c m j) + N.mulVec δ j := by
      intro x j
      have h2 := h x
      rw [textE_succ, textE_succ, roundE, roundE] at h2
      have h3 := congrArg N.mulVec h2
      rw [Matrix.mulVec_add, Matrix.mulVec_mulVec, Matrix.mulVec_mulVec, hM, Matrix.one_mulVec, Matrix.one_mulVec] at h3
      exact congrFun h3 j
    have h0 : ∀ j, Active (full m) j → N.mulVec δ j = 0 := by
      intro j hj
      refine hpow m (by omega) j _ fun x => ?_
      have := h1 x j
      rwa [if_pos hj, if_pos hj] at this
    have h4 : ∀ x, textE e M full c' (List.range m) x = textE e M full c (List.range m) x + (c m - c' m + N.mulVec δ) := by
      intro x
      funext j
      simp only [Pi.add_apply, Pi.sub_apply]
      have h5 := h1 x j
      by_cases hj : Active (full m) j
      · rw [if_pos hj, if_pos hj, h0 j hj, add_zero] at h5
        rw [h0 j hj]
        have h6 : textE e M full c' (List.range m) x j + c' m j = textE e M full c (List.range m) x j + c m j := hinj h5
        linear_combination h6
      · rw [if_neg hj, if_neg hj] at h5
        linear_combination h5
    have h5 := ih (by omega) _ h4
    intro r hr j hj
    rcases Nat.lt_or_ge r m with h6 | h6
    · exact h5 r h6 j hj
    · obtain rfl : r = m := by omega
      have h7 := text_gap (e := e) M full c c' r h5 0
      rw [h4 0] at h7
      have h8 := congrFun (add_left_cancel h7) j
      simp only [Pi.add_apply, Pi.sub_apply, h0 j hj, add_zero] at h8
      rw [gap_eq, Pi.add_apply, Pi.sub_apply, ← h8]
      ring

/-! ## Counting -/

/-- A table as a function on all naturals. -/
def extend (A : (Fin n → Fin t → F)) (r : Nat) : Fin t → F := if h : r < n then A ⟨r, h⟩ else 0

theorem extend_lt (A : (Fin n → Fin t → F)) {r : Nat} (h : r < n) : extend A r = A ⟨r, h⟩ := dif_pos h

theorem carried_congr (M : Matrix (Fin t) (Fin t) F) {g g' : Nat → Fin t → F} (r : Nat) (h : ∀ r', r' < r → g r' = g' r') : carried M g r = carried M g' r := by
  cases r with
  | zero => rfl
  | succ r => rw [carried, carried, h r (by omega)]

/-- Tables and their gaps to a given table. -/
def gapEquiv (M : Matrix (Fin t) (Fin t) F) (A : (Fin n → Fin t → F)) : (Fin n → Fin t → F) ≃ (Fin n → Fin t → F) where
  toFun A' := fun r => gap M (extend A) (extend A') r
  invFun D := fun r => D r + A r - carried M (extend D) r
  left_inv A' := by
    funext r
    have h : carried M (extend (n := n) fun r : Fin n => gap M (extend A) (extend A') r) r = carried M (gap M (extend A) (extend A')) r :=
      carried_congr M r.val fun r' hr' => extend_lt _ (by omega)
    dsimp only
    rw [h, gap_eq, extend_lt A r.isLt, extend_lt A' r.isLt]
    abel
  right_inv D := by
    have key : ∀ r, r < n → gap M (extend A) (extend (n := n) fun r : Fin n => D r + A r - carried M (extend D) r) r = extend D r := by
      intro r
      induction r using Nat.strong_induction_on with
      | _ r ih =>
        intro hr
        rw [gap_eq, carried_congr M r fun r' hr' => ih r' hr' (by omega), extend_lt A hr, extend_lt D hr, extend_lt _ hr]
        abel
    funext r
    exact (key r r.isLt).trans (extend_lt D r.isLt)

/-! ## Plain and optimized tables -/

/-- The two tables belong together: the relation of `OptRel`. -/
def Moved (M : Matrix (Fin (k + 1)) (Fin (k + 1)) F) (rf rp : Nat) (c o : Nat → Fin (k + 1) → F) : Prop :=
  ∃ d : Nat → Fin (k + 1) → F, d 0 = o rf ∧ d (rp - 1) = c (rf + (rp - 1)) ∧
    ∀ r, r < rp - 1 → d r 0 = c (rf + r) 0 ∧ M.mulVec (d r - c (rf + r) + Pi.single 0 (o (rf + r + 1) 0)) = d (r + 1)

/-- The plain table of an optimized one: the constant of word 0 after the S-box of a round is a multiple of column 0 in the next. -/
def plainOf (M : Matrix (Fin (k + 1)) (Fin (k + 1)) F) (rf rp : Nat) (o : Nat → Fin (k + 1) → F) (r : Nat) : Fin (k + 1) → F :=
  if rf < r ∧ r < rf + rp then M.mulVec (Pi.single 0 (o r 0)) else o r

theorem plainOf_moved (M : Matrix (Fin (k + 1)) (Fin (k + 1)) F) (rf rp : Nat) (o : Nat → Fin (k + 1) → F) : Moved M rf rp (plainOf M rf rp o) o := by
  refine ⟨fun r => plainOf M rf rp o (rf + r), ?_, rfl, fun r hr => ⟨rfl, ?_⟩⟩
  · dsimp only
    rw [plainOf, if_neg (by omega)]
    rfl
  · dsimp only
    rw [sub_self, zero_add, ← Nat.add_assoc, plainOf, if_pos (by omega)]

/-- The constants moved back to `s` rounds before the last partial round. -/
def movedBack (N : Matrix (Fin (k + 1)) (Fin (k + 1)) F) (last : Nat) (c : Nat → Fin (k + 1) → F) : Nat → Fin (k + 1) → F
  | 0 => c last
  | s + 1 => c (last - (s + 1)) - Pi.single 0 (N.mulVec (movedBack N last c s) 0) + N.mulVec (movedBack N last c s)

/-- The optimized table of a plain one. -/
def optimizedOf (N : Matrix (Fin (k + 1)) (Fin (k + 1)) F) (rf rp : Nat) (c : Nat → Fin (k + 1) → F) (r : Nat) : Fin (k + 1) → F :=
  if r = rf then movedBack N (rf + (rp - 1)) c (rp - 1) else if rf < r ∧ r < rf + rp then Pi.single 0 (N.mulVec (movedBack N (rf + (rp - 1)) c (rf + (rp - 1) - r)) 0) else c r

theorem optimizedOf_moved {M N : Matrix (Fin (k + 1)) (Fin (k + 1)) F} (h : M * N = 1) (rf rp : Nat) (c : Nat → Fin (k + 1) → F) : Moved M rf rp c (optimizedOf N rf rp c) := by
  refine ⟨fun r => movedBack N (rf + (rp - 1)) c (rp - 1 - r), ?_, ?_, fun r hr => ?_⟩
  · rw [optimizedOf, if_pos rfl]
    rfl
  · dsimp only
    rw [Nat.sub_self, movedBack]
  · dsimp only
    obtain ⟨s, hs⟩ : ∃ s, rp - 1 - r = s + 1 := ⟨rp - 1 - r - 1, by omega⟩
    rw [hs, show rp - 1 - (r + 1) = s by omega, movedBack, show rf + (rp - 1) - (s + 1) = rf + r by omega, optimizedOf, if_neg (by omega), if_pos (by omega),
      show rf + (rp - 1) - (rf + r + 1) = s by omega]
    constructor
    · rw [Pi.add_apply, Pi.sub_apply, Pi.single_eq_same, sub_add_cancel]
    · rw [Pi.single_eq_same, show ∀ a b x : Fin (k + 1) → F, a - b + x - a + b = x from fun a b x => by abel, Matrix.mulVec_mulVec, h, Matrix.one_mulVec]

end Poseidon
