import Verif.Params.KrylovCauchy
import Verif.Proofs.Cauchy
import Verif.Spec.Poseidon

/-!
# The Cauchy matrix `1 / (i + j + t)` has no inactive trail, for every field of large characteristic

The first rows of the powers of the matrix, scaled by the least common multiple of the denominators, are integer vectors; they are
independent because an integer matrix times them is a non-zero integer `D`.
-/

namespace Poseidon

open Matrix

/-- Entry of a table. -/
def intEnt (m : List (List Int)) (i j : Nat) : Int := (m.getD i []).getD j 0

/-- The integer statements about the tables. -/
def CheckKrylov (t : Nat) (l D : Int) (K N : List (List Int)) : Prop :=
  (∀ j : Fin t, intEnt K 0 j = if j.val = 0 then 1 else 0) ∧
  (∀ i j : Fin t, l / ((i.val + j.val + t : Nat) : Int) * ((i.val + j.val + t : Nat) : Int) = l) ∧
  (∀ (n : Fin (t - 1)) (j : Fin t), intEnt K (n + 1) j = ∑ i : Fin t, intEnt K n i * (l / ((i.val + j.val + t : Nat) : Int))) ∧
  (∀ i j : Fin t, ∑ n : Fin t, intEnt N i n * intEnt K n j = if i = j then D else 0)

instance (t : Nat) (l D : Int) (K N : List (List Int)) : Decidable (CheckKrylov t l D K N) := by
  unfold CheckKrylov; infer_instance

variable {F : Type _} [Field F]

theorem krylov_of_int {k : Nat} {l D : Int} {K N : List (List Int)} (hc : CheckKrylov (k + 1) l D K N)
    (hl : (l : F) ≠ 0) (hD : (D : F) ≠ 0) (x : Fin (k + 1) → F) (hx : x ≠ 0) :
    ∃ n, n < k + 1 ∧ ((cauchyMds F (k + 1)) ^ n).mulVec x 0 ≠ 0 := by
  obtain ⟨h0, hA, hs, hN⟩ := hc
  set M := cauchyMds F (k + 1) with hM
  -- the integer matrix is `l * M`
  have hA' : ∀ i j : Fin (k + 1), ((l / ((i.val + j.val + (k + 1) : Nat) : Int) : Int) : F) = l * M i j := by
    intro i j
    have h1 := congrArg (Int.cast (R := F)) (hA i j)
    rw [Int.cast_mul, Int.cast_natCast] at h1
    have h2 : ((i.val + j.val + (k + 1) : Nat) : F) ≠ 0 := fun h => hl (by rw [← h1, h, mul_zero])
    rw [hM, cauchyMds, Matrix.of_apply, ← div_eq_mul_inv, eq_div_iff h2, h1]
  have row : ∀ n (hn : n < k + 1) (j : Fin (k + 1)), (intEnt K n j : F) = (l : F) ^ n * (M ^ n) 0 j := by
    intro n
    induction n with
    | zero =>
      intro _ j
      rw [h0 j, pow_zero, pow_zero, one_mul, Matrix.one_apply]
      rcases Nat.eq_zero_or_pos j.val with hj | hj
      · rw [if_pos hj, if_pos (Fin.ext hj.symm), Int.cast_one]
      · rw [if_neg (by omega), if_neg (fun h => by rw [← h] at hj; exact absurd hj (lt_irrefl _)), Int.cast_zero]
    | succ n ih =>
      intro hn j
      rw [hs ⟨n, by omega⟩ j, Int.cast_sum, pow_succ (M := Matrix (Fin (k + 1)) (Fin (k + 1)) F), Matrix.mul_apply, Finset.mul_sum]
      refine Finset.sum_congr rfl fun i _ => ?_
      rw [Int.cast_mul, ih (by omega) i, hA' i j]
      ring
  by_contra hall
  push Not at hall
  apply hx
  have hK : ∀ n : Fin (k + 1), ∑ j : Fin (k + 1), (intEnt K n j : F) * x j = 0 := by
    intro n
    have h1 := hall n.val n.isLt
    rw [Matrix.mulVec, _root_.dotProduct] at h1
    have h2 : ∀ j : Fin (k + 1), (intEnt K n j : F) * x j = (l : F) ^ n.val * ((M ^ n.val) 0 j * x j) := by
      intro j; rw [row n.val n.isLt j, mul_assoc]
    rw [Finset.sum_congr rfl fun j _ => h2 j, ← Finset.mul_sum, h1, mul_zero]
  funext i
  have h1 : ∑ n : Fin (k + 1), (intEnt N i n : F) * ∑ j : Fin (k + 1), (intEnt K n j : F) * x j = (D : F) * x i := by
    have h2 : ∀ j : Fin (k + 1), ∑ n : Fin (k + 1), (intEnt N i n : F) * (intEnt K n j : F) = if i = j then (D : F) else 0 := by
      intro j
      have := congrArg (Int.cast (R := F)) (hN i j)
      rw [Int.cast_sum] at this
      simp only [Int.cast_mul] at this
      rw [this]
      split <;> simp
    calc _ = ∑ j : Fin (k + 1), (∑ n : Fin (k + 1), (intEnt N i n : F) * (intEnt K n j : F)) * x j := by
          simp only [Finset.mul_sum, Finset.sum_mul]
          rw [Finset.sum_comm]
          exact Finset.sum_congr rfl fun j _ => Finset.sum_congr rfl fun n _ => by ring
      _ = _ := by simp only [h2, ite_mul, zero_mul, Finset.sum_ite_eq, Finset.mem_univ, if_true]
  simp only [hK, mul_zero, Finset.sum_const_zero] at h1
  exact (mul_eq_zero.1 h1.symm).resolve_left hD

/-- A divisor of a power of `19!` does not vanish if `19!` does not. -/
theorem cast_ne_zero_of_dvd (h : ((Nat.factorial 19 : Nat) : F) ≠ 0) {D : Int} (hD : D ∣ ((Nat.factorial 19 : Nat) : Int) ^ 22) :
    (D : F) ≠ 0 := by
  obtain ⟨c, hc⟩ := hD
  intro h0
  have h1 := congrArg (Int.cast (R := F)) hc
  rw [Int.cast_pow, Int.cast_natCast, Int.cast_mul, h0, zero_mul] at h1
  exact h (pow_eq_zero_iff (by norm_num)|>.1 h1)

theorem dvd_of_mod {a b : Int} (h : b % a = 0) : a ∣ b := Int.dvd_of_emod_eq_zero h

/-- Widths 2 to 8, characteristic zero or above 19: two different states are told apart by word 0 after fewer than `t`
multiplications by the Cauchy matrix. -/
theorem cauchy_krylov (h : ((Nat.factorial 19 : Nat) : F) ≠ 0) {t : Nat} (h2 : 2 ≤ t) (h8 : t ≤ 8) (i0 : Fin t) (hi0 : i0.val = 0)
    (x : Fin t → F) (hx : x ≠ 0) : ∃ n, n < t ∧ ((cauchyMds F t) ^ n).mulVec x i0 ≠ 0 := by
  have hi : ∀ k (i0 : Fin (k + 1)), i0.val = 0 → i0 = 0 := fun k i0 h => Fin.ext h
  interval_cases t
  · rw [hi _ i0 hi0]
    exact krylov_of_int (l := 12) (D := 4) (K := kryK2) (N := kryN2) (by decide +kernel)
      (cast_ne_zero_of_dvd h (dvd_of_mod (by decide +kernel))) (cast_ne_zero_of_dvd h (dvd_of_mod (by decide +kernel))) x hx
  · rw [hi _ i0 hi0]
    exact krylov_of_int (l := 420) (D := 3150) (K := kryK3) (N := kryN3) (by decide +kernel)
      (cast_ne_zero_of_dvd h (dvd_of_mod (by decide +kernel))) (cast_ne_zero_of_dvd h (dvd_of_mod (by decide +kernel))) x hx
  · rw [hi _ i0 hi0]
    exact krylov_of_int (l := 2520) (D := 564480) (K := kryK4) (N := kryN4) (by decide +kernel)
      (cast_ne_zero_of_dvd h (dvd_of_mod (by decide +kernel))) (cast_ne_zero_of_dvd h (dvd_of_mod (by decide +kernel))) x hx
  · rw [hi _ i0 hi0]
    exact krylov_of_int (l := 360360) (D := 6093243231075000) (K := kryK5) (N := kryN5) (by decide +kernel)
      (cast_ne_zero_of_dvd h (dvd_of_mod (by decide +kernel))) (cast_ne_zero_of_dvd h (dvd_of_mod (by decide +kernel))) x hx
  · rw [hi _ i0 hi0]
    exact krylov_of_int (l := 720720) (D := 6005500528547520000) (K := kryK6) (N := kryN6) (by decide +kernel)
      (cast_ne_zero_of_dvd h (dvd_of_mod (by decide +kernel))) (cast_ne_zero_of_dvd h (dvd_of_mod (by decide +kernel))) x hx
  · rw [hi _ i0 hi0]
    exact krylov_of_int (l := 232792560) (D := 47101677127318099719810596130912000) (K := kryK7) (N := kryN7) (by decide +kernel)
      (cast_ne_zero_of_dvd h (dvd_of_mod (by decide +kernel))) (cast_ne_zero_of_dvd h (dvd_of_mod (by decide +kernel))) x hx
  · rw [hi _ i0 hi0]
    exact krylov_of_int (l := 232792560) (D := 2726819919647053304738832309760819200) (K := kryK8) (N := kryN8) (by decide +kernel)
      (cast_ne_zero_of_dvd h (dvd_of_mod (by decide +kernel))) (cast_ne_zero_of_dvd h (dvd_of_mod (by decide +kernel))) x hx

end Poseidon
