import Verif.Spec.Mds
import Verif.Spec.Poseidon2
import Verif.Proofs.GenV2
import Mathlib.Tactic.IntervalCases

/-! # MDS criteria for small integer matrices -/

namespace Poseidon

open scoped Matrix

variable {F : Type _} [Field F]

/-- 2×2 minor of rows `a`, `b` and columns `c`, `d`. -/
def minor2 {n : Nat} {R : Type _} [CommRing R] (f : Matrix (Fin n) (Fin n) R) (a b c d : Fin n) : R :=
  f a c * f b d - f a d * f b c

/-- 3×3 minor of rows `a`, `b`, `c` and columns `d`, `e`, `g`. -/
def minor3 {n : Nat} {R : Type _} [CommRing R] (f : Matrix (Fin n) (Fin n) R) (a b c d e g : Fin n) : R :=
  f a d * f b e * f c g - f a d * f b g * f c e - f a e * f b d * f c g + f a e * f b g * f c d
    + f a g * f b d * f c e - f a g * f b e * f c d

theorem det_sub1 {n : Nat} (M : Matrix (Fin n) (Fin n) F) (r c : Fin 1 → Fin n) :
    (M.submatrix r c).det = M (r 0) (c 0) := by
  rw [Matrix.det_fin_one]; rfl

theorem det_sub2 {n : Nat} (M : Matrix (Fin n) (Fin n) F) (r c : Fin 2 → Fin n) :
    (M.submatrix r c).det = minor2 M (r 0) (r 1) (c 0) (c 1) := by
  rw [Matrix.det_fin_two]; rfl

theorem det_sub3 {n : Nat} (M : Matrix (Fin n) (Fin n) F) (r c : Fin 3 → Fin n) :
    (M.submatrix r c).det = minor3 M (r 0) (r 1) (r 2) (c 0) (c 1) (c 2) := by
  rw [Matrix.det_fin_three]; rfl

/-- Full-size submatrices are row and column permutations. -/
theorem det_sub_full {n : Nat} (M : Matrix (Fin n) (Fin n) F) (r c : Fin n → Fin n) (hr : Function.Injective r)
    (hc : Function.Injective c) (h : M.det ≠ 0) : (M.submatrix r c).det ≠ 0 := by
  have hr' : Function.Bijective r := Finite.injective_iff_bijective.1 hr
  have hc' : Function.Bijective c := Finite.injective_iff_bijective.1 hc
  have e : M.submatrix r c = (M.submatrix (Equiv.ofBijective r hr') id).submatrix id (Equiv.ofBijective c hc') := by
    rw [Matrix.submatrix_submatrix]; rfl
  rw [e, Matrix.det_permute', Matrix.det_permute]
  refine mul_ne_zero ?_ (mul_ne_zero ?_ h)
  · rcases Int.units_eq_one_or (Equiv.Perm.sign (Equiv.ofBijective c hc')) with h | h <;> simp [h]
  · rcases Int.units_eq_one_or (Equiv.Perm.sign (Equiv.ofBijective r hr')) with h | h <;> simp [h]

theorem ne_zero_of_dvd {N z : ℤ} (h : N % z = 0) (hN : (N : F) ≠ 0) : (z : F) ≠ 0 := by
  intro hz
  obtain ⟨k, hk⟩ := Int.dvd_of_emod_eq_zero h
  exact hN (by rw [hk, Int.cast_mul, hz, zero_mul])

theorem inj2 {n : Nat} {r : Fin 2 → Fin n} (h : Function.Injective r) : r 0 ≠ r 1 := fun e => absurd (h e) (by decide)
theorem inj3 {n : Nat} {r : Fin 3 → Fin n} (h : Function.Injective r) : r 0 ≠ r 1 ∧ r 0 ≠ r 2 ∧ r 1 ≠ r 2 :=
  ⟨fun e => absurd (h e) (by decide), fun e => absurd (h e) (by decide), fun e => absurd (h e) (by decide)⟩

theorem minor2_map {n : Nat} (A : Matrix (Fin n) (Fin n) ℤ) (a b c d : Fin n) :
    minor2 (A.map (Int.cast : ℤ → F)) a b c d = ((minor2 A a b c d : ℤ) : F) := by
  simp [minor2]

theorem minor3_map {n : Nat} (A : Matrix (Fin n) (Fin n) ℤ) (a b c d e g : Fin n) :
    minor3 (A.map (Int.cast : ℤ → F)) a b c d e g = ((minor3 A a b c d e g : ℤ) : F) := by
  simp [minor3]

/-- The integer versions. -/
def zM4 : Matrix (Fin 4) (Fin 4) ℤ := !![5, 7, 1, 3; 4, 6, 1, 1; 1, 3, 5, 7; 1, 1, 4, 6]
def zI2 : Matrix (Fin 2) (Fin 2) ℤ := !![2, 1; 1, 3]
def zI3 : Matrix (Fin 3) (Fin 3) ℤ := !![2, 1, 1; 1, 2, 1; 1, 1, 3]

theorem zM4_map : Spec.M4 F = zM4.map (Int.cast : ℤ → F) := by
  ext i j; fin_cases i <;> fin_cases j <;> simp [Spec.M4, zM4]
theorem zI2_map : Spec.Internal2 F = zI2.map (Int.cast : ℤ → F) := by
  ext i j; fin_cases i <;> fin_cases j <;> simp [Spec.Internal2, zI2]
theorem zI3_map : Spec.Internal3 F = zI3.map (Int.cast : ℤ → F) := by
  ext i j; fin_cases i <;> fin_cases j <;> simp [Spec.Internal3, zI3]

/-- Common multiple of the minors. -/
def nM4 : ℤ := 64 * 27 * 5 * 7 * 11 * 13 * 19 * 23

theorem zM4_1 : ∀ a b : Fin 4, nM4 % zM4 a b = 0 := by decide +kernel
theorem zM4_2 : ∀ a b c d : Fin 4, a ≠ b → c ≠ d → nM4 % minor2 zM4 a b c d = 0 := by decide +kernel
theorem zM4_3 : ∀ a b c d e g : Fin 4, (a ≠ b ∧ a ≠ c ∧ b ≠ c) ∧ (d ≠ e ∧ d ≠ g ∧ e ≠ g) →
    nM4 % minor3 zM4 a b c d e g = 0 := by decide +kernel
theorem zI2_1 : ∀ a b : Fin 2, 30 % zI2 a b = 0 := by decide +kernel
theorem zI3_1 : ∀ a b : Fin 3, 210 % zI3 a b = 0 := by decide +kernel
theorem zI3_2 : ∀ a b c d : Fin 3, a ≠ b → c ≠ d → 210 % minor2 zI3 a b c d = 0 := by decide +kernel

theorem m4_mds (h : (nM4 : F) ≠ 0) (hdet : (Spec.M4 F).det ≠ 0) : IsMDS (Spec.M4 F) := by
  intro k r c hr hc
  have hk : k ≤ 4 := by simpa using Fintype.card_le_of_injective r hr
  interval_cases k
  · rw [Matrix.det_fin_zero]; exact one_ne_zero
  · rw [det_sub1, zM4_map]; exact ne_zero_of_dvd (zM4_1 _ _) h
  · rw [det_sub2, zM4_map, minor2_map]
    exact ne_zero_of_dvd (zM4_2 _ _ _ _ (inj2 hr) (inj2 hc)) h
  · rw [det_sub3, zM4_map, minor3_map]
    exact ne_zero_of_dvd (zM4_3 _ _ _ _ _ _ ⟨inj3 hr, inj3 hc⟩) h
  · exact det_sub_full _ r c hr hc hdet

theorem i2_mds (h : ((30 : ℤ) : F) ≠ 0) (hdet : (Spec.Internal2 F).det ≠ 0) : IsMDS (Spec.Internal2 F) := by
  intro k r c hr hc
  have hk : k ≤ 2 := by simpa using Fintype.card_le_of_injective r hr
  interval_cases k
  · rw [Matrix.det_fin_zero]; exact one_ne_zero
  · rw [det_sub1, zI2_map]; exact ne_zero_of_dvd (zI2_1 _ _) h
  · exact det_sub_full _ r c hr hc hdet

theorem i3_mds (h : ((210 : ℤ) : F) ≠ 0) (hdet : (Spec.Internal3 F).det ≠ 0) : IsMDS (Spec.Internal3 F) := by
  intro k r c hr hc
  have hk : k ≤ 3 := by simpa using Fintype.card_le_of_injective r hr
  interval_cases k
  · rw [Matrix.det_fin_zero]; exact one_ne_zero
  · rw [det_sub1, zI3_map]; exact ne_zero_of_dvd (zI3_1 _ _) h
  · rw [det_sub2, zI3_map, minor2_map]
    exact ne_zero_of_dvd (zI3_2 _ _ _ _ (inj2 hr) (inj2 hc)) h
  · exact det_sub_full _ r c hr hc hdet

/-- A minor of an MDS matrix is non-zero. -/
theorem IsMDS.entry {n : Nat} {M : Matrix (Fin n) (Fin n) F} (h : IsMDS M) (a b : Fin n) : M a b ≠ 0 := by
  have := h 1 (fun _ => a) (fun _ => b) (Function.injective_of_subsingleton _) (Function.injective_of_subsingleton _)
  rwa [det_sub1] at this

theorem IsMDS.minor2 {n : Nat} {M : Matrix (Fin n) (Fin n) F} (h : IsMDS M) {a b c d : Fin n} (hab : a ≠ b) (hcd : c ≠ d) :
    minor2 M a b c d ≠ 0 := by
  have key : ∀ x y : Fin n, x ≠ y → Function.Injective ![x, y] := by
    intro x y hxy i j hij
    fin_cases i <;> fin_cases j <;> simp_all
  have := h 2 ![a, b] ![c, d] (key a b hab) (key c d hcd)
  rwa [det_sub2] at this

end Poseidon
