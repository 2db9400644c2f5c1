import Verif.Spec.Mds
import Verif.Spec.Poseidon
import Mathlib.Algebra.CharP.Defs
import Mathlib.LinearAlgebra.Lagrange
import Mathlib.LinearAlgebra.Matrix.ToLinearEquiv
import Mathlib.Tactic.LinearCombination
import Mathlib.Tactic.FieldSimp

/-! # Cauchy matrices are MDS; MDS matrices have maximal branch number -/

namespace Poseidon

open Matrix Polynomial

variable {F : Type _} [Field F] {t : Nat}

/-- A Cauchy matrix `1/(x i + y j)` with distinct `x`, distinct `y` and no vanishing sum is invertible. -/
theorem cauchy_det_ne_zero {k : Nat} (x y : Fin k → F) (hx : Function.Injective x)
    (hy : Function.Injective y) (hxy : ∀ i j, x i + y j ≠ 0) :
    (Matrix.of fun i j => (x i + y j)⁻¹ : Matrix (Fin k) (Fin k) F).det ≠ 0 := by
  intro h0
  obtain ⟨v, hv0, hv⟩ := Matrix.exists_mulVec_eq_zero_iff.2 h0
  apply hv0
  -- the numerator polynomial
  set P : F[X] := ∑ j, C (v j) * ∏ l ∈ Finset.univ.erase j, (X + C (y l)) with hP
  have hdeg : P.degree < Fintype.card (Fin k) := by
    rw [Fintype.card_fin]
    refine lt_of_le_of_lt (Polynomial.degree_sum_le _ _) ?_
    rw [Finset.sup_lt_iff (by exact WithBot.bot_lt_coe k)]
    intro j _
    refine lt_of_le_of_lt (Polynomial.degree_mul_le _ _) ?_
    refine lt_of_le_of_lt (add_le_add Polynomial.degree_C_le le_rfl) ?_
    rw [zero_add, Polynomial.degree_prod]
    simp only [Polynomial.degree_X_add_C, Finset.sum_const, Finset.card_erase_of_mem (Finset.mem_univ j),
      Finset.card_univ, Fintype.card_fin]
    have hk : 0 < k := lt_of_le_of_lt (Nat.zero_le _) j.isLt
    rw [nsmul_one]
    exact_mod_cast Nat.sub_lt hk Nat.one_pos
  have heval : ∀ i, P.eval (x i) = 0 := by
    intro i
    have h1 := congrFun hv i
    simp only [Matrix.mulVec, _root_.dotProduct, Matrix.of_apply, Pi.zero_apply] at h1
    have h2 : P.eval (x i) = (∏ l, (x i + y l)) * ∑ j, (x i + y j)⁻¹ * v j := by
      rw [hP, Polynomial.eval_finsetSum, Finset.mul_sum]
      apply Finset.sum_congr rfl
      intro j _
      rw [← Finset.mul_prod_erase _ _ (Finset.mem_univ j)]
      simp only [Polynomial.eval_mul, Polynomial.eval_C, Polynomial.eval_prod, Polynomial.eval_add,
        Polynomial.eval_X]
      field_simp [hxy i j]
    rw [h2, h1, mul_zero]
  have hP0 : P = 0 := by
    exact Polynomial.eq_zero_of_degree_lt_of_eval_index_eq_zero (v := x) (s := Finset.univ)
      hx.injOn (by simpa using hdeg) (fun i _ => heval i)
  funext j
  have h3 : P.eval (-(y j)) = 0 := by rw [hP0, Polynomial.eval_zero]
  rw [hP, Polynomial.eval_finsetSum, Finset.sum_eq_single j] at h3
  · simp only [Polynomial.eval_mul, Polynomial.eval_C, Polynomial.eval_prod, Polynomial.eval_add,
      Polynomial.eval_X] at h3
    rcases mul_eq_zero.1 h3 with h4 | h4
    · exact h4
    · exfalso
      obtain ⟨l, hl, h5⟩ := Finset.prod_eq_zero_iff.1 h4
      have : y l = y j := by linear_combination h5
      exact (Finset.ne_of_mem_erase hl) (hy this)
  · intro l _ hl
    simp only [Polynomial.eval_mul, Polynomial.eval_prod]
    rw [Finset.prod_eq_zero (Finset.mem_erase.2 ⟨Ne.symm hl, Finset.mem_univ j⟩), mul_zero]
    simp
  · intro h; exact absurd (Finset.mem_univ j) h

/-- Cauchy matrices are MDS. -/
theorem cauchy_isMDS (x y : Fin t → F) (hx : Function.Injective x) (hy : Function.Injective y)
    (hxy : ∀ i j, x i + y j ≠ 0) : IsMDS (Matrix.of fun i j => (x i + y j)⁻¹ : Matrix (Fin t) (Fin t) F) := by
  intro k r c hr hc
  exact cauchy_det_ne_zero (x ∘ r) (y ∘ c) (hx.comp hr) (hy.comp hc) (fun i j => hxy _ _)

/-- A difference in `k > 0` words spreads over at least `t + 1 - k` words. -/
theorem IsMDS.branch [DecidableEq F] {M : Matrix (Fin t) (Fin t) F} (hM : IsMDS M) (x y : Fin t → F)
    (h : x ≠ y) : t + 1 ≤ diffWords x y + diffWords (M.mulVec x) (M.mulVec y) := by
  by_contra hlt
  have hlt : diffWords x y + diffWords (M.mulVec x) (M.mulVec y) ≤ t := by omega
  set S := Finset.univ.filter fun i => x i ≠ y i with hS
  set Z := Finset.univ.filter fun i => ¬ (M.mulVec x i ≠ M.mulVec y i) with hZ
  have hcard : diffWords (M.mulVec x) (M.mulVec y) + Z.card = t := by
    have := Finset.card_filter_add_card_filter_not (s := (Finset.univ : Finset (Fin t)))
      (fun i => M.mulVec x i ≠ M.mulVec y i)
    rwa [Finset.card_univ, Fintype.card_fin] at this
  have hSZ : S.card ≤ Z.card := by
    have : diffWords x y = S.card := rfl
    omega
  obtain ⟨Z', hZ', hc⟩ := Finset.exists_subset_card_eq hSZ
  -- enumerate rows and columns
  let r : Fin S.card → Fin t := Z'.orderEmbOfFin hc
  let c : Fin S.card → Fin t := S.orderEmbOfFin rfl
  have hr : Function.Injective r := (Z'.orderEmbOfFin hc).injective
  have hcI : Function.Injective c := (S.orderEmbOfFin rfl).injective
  apply hM S.card r c hr hcI
  rw [← Matrix.exists_mulVec_eq_zero_iff]
  refine ⟨fun j => x (c j) - y (c j), ?_, ?_⟩
  · intro h0
    apply h
    funext i
    by_contra hne
    have hi : i ∈ S := by simp [hS, hne]
    obtain ⟨j, hj⟩ : ∃ j, c j = i := by
      have : i ∈ Set.range (S.orderEmbOfFin rfl) := by rw [Finset.range_orderEmbOfFin]; exact hi
      exact this
    have := congrFun h0 j
    simp only [hj, Pi.zero_apply] at this
    exact hne (sub_eq_zero.1 this)
  · funext a
    have ha : r a ∈ Z := hZ' (Finset.orderEmbOfFin_mem _ _ _)
    have h1 : M.mulVec x (r a) = M.mulVec y (r a) := by simpa [hZ] using ha
    have h2 : ∑ j, M (r a) j * (x j - y j) = 0 := by
      have h3 : M.mulVec x (r a) - M.mulVec y (r a) = 0 := sub_eq_zero.2 h1
      rw [← h3]
      simp only [Matrix.mulVec, _root_.dotProduct, ← Finset.sum_sub_distrib, mul_sub]
    have h4 : ∑ j ∈ S, M (r a) j * (x j - y j) = 0 := by
      rw [← h2]
      apply Finset.sum_subset (Finset.subset_univ _)
      intro j _ hj
      have : x j = y j := by simpa [hS] using hj
      rw [this, sub_self, mul_zero]
    simp only [Matrix.mulVec, _root_.dotProduct, Matrix.submatrix_apply, Pi.zero_apply]
    rw [← h4]
    have h5 : Finset.image c Finset.univ = S := Finset.image_orderEmbOfFin_univ S rfl
    conv_rhs => rw [← h5]
    rw [Finset.sum_image (fun a _ b _ hab => hcI hab)]

/-! ## The Cauchy matrices of the parameter sets are MDS -/

/-- The matrix `1/(i + j + t)` is MDS over every field in which `t, .., 3t - 2` do not vanish and
`0, .., t - 1` are distinct; for characteristic `p` it suffices that `3t - 2 < p`. -/
theorem cauchyMds_isMDS {F : Type _} [Field F] (t p : Nat) [CharP F p] (hp : 3 * t ≤ p + 1) :
    IsMDS (cauchyMds F t) := by
  have hinj : ∀ a b : Nat, a < p → b < p → (a : F) = (b : F) → a = b := by
    intro a b ha hb hab
    have := (CharP.natCast_eq_natCast F p).1 hab
    rwa [Nat.ModEq, Nat.mod_eq_of_lt ha, Nat.mod_eq_of_lt hb] at this
  have h := cauchy_isMDS (fun i : Fin t => ((i.val : Nat) : F)) (fun j : Fin t => ((j.val + t : Nat) : F))
    (fun a b hab => Fin.ext (hinj _ _ (by omega) (by omega) hab))
    (fun a b hab => Fin.ext (by
      have := hinj (a.val + t) (b.val + t) (by omega) (by omega) hab
      omega))
    (fun i j h0 => by
      have h1 : ((i.val + (j.val + t) : Nat) : F) = ((0 : Nat) : F) := by
        rw [Nat.cast_add]; simpa using h0
      have hi := i.isLt
      have := hinj (i.val + (j.val + t)) 0 (by omega) (by omega) h1
      omega)
  have e : (Matrix.of fun i j => (((i.val : Nat) : F) + ((j.val + t : Nat) : F))⁻¹ : Matrix (Fin t) (Fin t) F)
      = cauchyMds F t := by
    ext i j
    simp only [cauchyMds, Matrix.of_apply]
    rw [← Nat.cast_add, Nat.add_assoc]
  rwa [e] at h

end Poseidon
