import Verif.Proofs.InverseCount
import Verif.Proofs.RandomConstants
import Mathlib.FieldTheory.Finite.Basic
import Mathlib.Algebra.Polynomial.Roots

/-! # The inverse S-box with random constants -/

set_option linter.unusedSectionVars false

namespace Poseidon

variable {F : Type} [Field F] [DecidableEq F] {t n : Nat}

/-! ## The inverse is a power -/

theorem pow_inv [Fintype F] (h3 : 3 ≤ Fintype.card F) (x : F) : x ^ (Fintype.card F - 2) = x⁻¹ := by
  by_cases hx : x = 0
  · rw [hx, inv_zero, zero_pow (by omega)]
  · have h := FiniteField.pow_card_sub_one_eq_one x hx
    rw [show Fintype.card F - 1 = Fintype.card F - 2 + 1 by omega, pow_succ] at h
    exact eq_inv_of_mul_eq_one_left h

theorem runT_runE [Fintype F] (h3 : 3 ≤ Fintype.card F) (M : Matrix (Fin t) (Fin t) F) (full : Nat → Bool) (C : Fin n → Fin t → F) (x : Fin t → F) (m : Nat) :
    runT .inverse M full C x m = runE (Fintype.card F - 2) M full C x m := by
  induction m with
  | zero => rfl
  | succ m ih =>
    rw [runT, runE, ih]
    by_cases hm : m < n
    · rw [dif_pos hm, dif_pos hm, roundE_layer]
      congr 1
      funext i
      simp only [layerT, layerE, Alpha.val, pow_inv h3]
    · rw [dif_neg hm, dif_neg hm]

/-- A non-zero difference goes to a given difference for at most four words. -/
theorem inv_difference [Fintype F] (a b : F) (ha : a ≠ 0) : (Finset.univ.filter fun x : F => (x + a)⁻¹ - x⁻¹ = b).card ≤ 4 := by
  classical
  set f : Polynomial F := Polynomial.C b * Polynomial.X ^ 2 + Polynomial.C (a * b) * Polynomial.X + Polynomial.C a with hf
  have hf0 : f ≠ 0 := by
    intro h
    have := congrArg (Polynomial.eval 0) h
    simp [hf] at this
    exact ha this
  have hdeg : f.natDegree ≤ 2 := by
    rw [hf]
    exact Polynomial.natDegree_quadratic_le
  have hsub : (Finset.univ.filter fun x : F => (x + a)⁻¹ - x⁻¹ = b) ⊆ insert 0 (insert (-a) f.roots.toFinset) := by
    intro x hx
    have hx := (Finset.mem_filter.1 hx).2
    by_cases h0 : x = 0
    · rw [h0]; exact Finset.mem_insert_self _ _
    by_cases h1 : x = -a
    · rw [h1]; exact Finset.mem_insert_of_mem (Finset.mem_insert_self _ _)
    refine Finset.mem_insert_of_mem (Finset.mem_insert_of_mem ?_)
    rw [Multiset.mem_toFinset, Polynomial.mem_roots hf0, Polynomial.IsRoot.def]
    have h2 : x + a ≠ 0 := fun h => h1 (eq_neg_of_add_eq_zero_left h)
    have h4 : b * (x * (x + a)) = -a := by
      rw [← hx]
      field_simp
      ring
    simp only [hf, Polynomial.eval_add, Polynomial.eval_mul, Polynomial.eval_C, Polynomial.eval_pow, Polynomial.eval_X]
    linear_combination h4
  refine (Finset.card_le_card hsub).trans ((Finset.card_insert_le _ _).trans ?_)
  have h5 := Finset.card_insert_le (-a) f.roots.toFinset
  have h6 := (Multiset.toFinset_card_le f.roots).trans ((Polynomial.card_roots' f).trans hdeg)
  omega

theorem inverse_layers [Fintype F] (h3 : 3 ≤ Fintype.card F) {M : Matrix (Fin t) (Fin t) F} (hM : IsMDS M) : GoodLayers (Fintype.card F - 2) 4 M where
  inj x y h := by
    simp only [pow_inv h3] at h
    exact inv_injective h
  dp a b ha := by
    simp only [pow_inv h3]
    exact inv_difference a b ha
  mds := hM

/-! ## The last round -/

/-- Tables of the clean runs, with a condition on what enters the last S-boxes. -/
theorem card_last_row [Fintype F] {k : Nat} (M : Matrix (Fin (k + 1)) (Fin (k + 1)) F) (full : Nat → Bool) (x : Fin (k + 1) → F) (hf : full n = true) :
    ∃ B, ∀ Q : (Fin (k + 1) → F) → Prop, Nat.card {C : Fin (n + 1) → Fin (k + 1) → F // CleanT .inverse M full C x (n + 1) ∧
      Q fun i => runT .inverse M full C x n i + C (Fin.last n) i} = B * Nat.card {u : Fin (k + 1) → F // (∀ i, u i ≠ 0) ∧ Q u} := by
  classical
  let S : Fin n → Finset (Fin (k + 1) → F) := fun j => Finset.univ.filter fun u => ∀ i, Active (full j) i → u i ≠ 0
  refine ⟨∏ j, (S j).card, fun Q => ?_⟩
  let L : Finset (Fin (k + 1) → F) := Finset.univ.filter fun u => (∀ i, u i ≠ 0) ∧ Q u
  let T : Fin (n + 1) → Finset (Fin (k + 1) → F) := Fin.snoc (α := fun _ => Finset (Fin (k + 1) → F)) S L
  have hbij := (Fintype.bijective_iff_injective_and_card _).2 ⟨sboxInputs_injective (n := n + 1) .inverse M full x, rfl⟩
  have hmem : ∀ C : Fin (n + 1) → Fin (k + 1) → F, (CleanT .inverse M full C x (n + 1) ∧ Q fun i => runT .inverse M full C x n i + C (Fin.last n) i) ↔
      (fun (j : Fin (n + 1)) (i : Fin (k + 1)) => runT .inverse M full C x j i + C j i) ∈ Fintype.piFinset T := by
    intro C
    rw [Fintype.mem_piFinset]
    have hl : (fun i : Fin (k + 1) => runT .inverse M full C x (Fin.last n) i + C (Fin.last n) i) ∈ T (Fin.last n) ↔
        (∀ i, runT .inverse M full C x n i + C (Fin.last n) i ≠ 0) ∧ Q fun i => runT .inverse M full C x n i + C (Fin.last n) i := by
      simp only [T, Fin.snoc_last, L, Finset.mem_filter, Finset.mem_univ, true_and, Fin.val_last]
    have hj : ∀ j : Fin n, (fun i : Fin (k + 1) => runT .inverse M full C x j.castSucc i + C j.castSucc i) ∈ T j.castSucc ↔
        ∀ i, Active (full j) i → runT .inverse M full C x j i + C j.castSucc i ≠ 0 := by
      intro j
      simp only [T, Fin.snoc_castSucc, S, Finset.mem_filter, Finset.mem_univ, true_and, Fin.val_castSucc]
    constructor
    · rintro ⟨h1, h2⟩ j
      refine Fin.lastCases ?_ (fun j => ?_) j
      · exact hl.2 ⟨fun i => h1 (Fin.last n) (Nat.lt_succ_self n) i (by left; exact hf), h2⟩
      · exact (hj j).2 fun i hi => h1 j.castSucc (by show j.val < n + 1; omega) i hi
    · intro h
      refine ⟨fun j _ i hi => ?_, (hl.1 (h _)).2⟩
      revert hi
      refine Fin.lastCases ?_ (fun j => ?_) j
      · exact fun _ => (hl.1 (h _)).1 i
      · exact fun hi => (hj j).1 (h _) i hi
  have h1 : ∀ A : Finset (Fin (n + 1) → Fin (k + 1) → F), A.card = Nat.card {U // U ∈ A} := fun A => by
    rw [Nat.card_eq_fintype_card, Fintype.card_coe]
  have h2 : L.card = Nat.card {u : Fin (k + 1) → F // (∀ i, u i ≠ 0) ∧ Q u} := by
    rw [Nat.card_eq_fintype_card, Fintype.card_subtype]
  rw [Nat.card_congr ((Equiv.ofBijective _ hbij).subtypeEquiv fun C => hmem C), ← h1, Fintype.card_piFinset, Fin.prod_univ_castSucc, ← h2]
  simp only [T, Fin.snoc_castSucc, Fin.snoc_last]

/-! ## Sums of words that are not zero -/

/-- The number of ways to write `d` as `∑ m i / u i`, as a sum of ones. -/
def waysT [Fintype F] {t : Nat} (m : Fin t → F) (d : F) : ℤ := ∑ u : Fin t → F, if (∀ i, u i ≠ 0) ∧ ∑ i, m i * (u i)⁻¹ = d then 1 else 0

theorem waysT_sum [Fintype F] {t : Nat} (m : Fin t → F) : ∑ d, waysT m d = ((Fintype.card F : ℤ) - 1) ^ t := by
  simp only [waysT]
  rw [Finset.sum_comm]
  have h : ∀ u : Fin t → F, ∑ d, (if (∀ i, u i ≠ 0) ∧ ∑ i, m i * (u i)⁻¹ = d then (1 : ℤ) else 0) = ∏ i, (if u i ≠ 0 then (1 : ℤ) else 0) := by
    intro u
    by_cases hu : ∀ i, u i ≠ 0
    · simp [hu]
    · push Not at hu
      obtain ⟨i, hi⟩ := hu
      rw [Finset.prod_eq_zero (Finset.mem_univ i) (by simp [hi])]
      refine Finset.sum_eq_zero fun d _ => if_neg fun h => h.1 i hi
  rw [Finset.sum_congr rfl fun u _ => h u, ← Fintype.piFinset_univ, Finset.sum_prod_piFinset Finset.univ (fun _ (a : F) => if a ≠ 0 then (1 : ℤ) else 0)]
  have h1 : ∑ a : F, (if a ≠ 0 then (1 : ℤ) else 0) = (Fintype.card F : ℤ) - 1 := by
    have h2 : ∀ a : F, (if a ≠ 0 then (1 : ℤ) else 0) = 1 - if a = 0 then 1 else 0 := fun a => by by_cases ha : a = 0 <;> simp [ha]
    rw [Finset.sum_congr rfl fun a _ => h2 a, Finset.sum_sub_distrib, Finset.sum_ite_eq']
    simp
  rw [h1, Finset.prod_const, Finset.card_univ, Fintype.card_fin]

theorem waysT_succ [Fintype F] {t : Nat} (m : Fin (t + 1) → F) (hm : m 0 ≠ 0) (d : F) :
    waysT m d = ((Fintype.card F : ℤ) - 1) ^ t - waysT (fun i => m i.succ) d := by
  have h1 : waysT m d = ∑ a : F, if a ≠ 0 then waysT (fun i => m i.succ) (d - m 0 * a⁻¹) else 0 := by
    rw [waysT, ← (Fin.consEquiv fun _ => F).sum_comp, Fintype.sum_prod_type]
    refine Finset.sum_congr rfl fun a _ => ?_
    by_cases ha : a = 0
    · rw [if_neg (not_not.2 ha)]
      refine Finset.sum_eq_zero fun u _ => if_neg fun h => h.1 0 ?_
      simpa [Fin.consEquiv] using ha
    · rw [if_pos ha, waysT]
      refine Finset.sum_congr rfl fun u _ => ?_
      have h2 : ((∀ i, (Fin.consEquiv fun _ => F) (a, u) i ≠ 0) ∧ ∑ i, m i * ((Fin.consEquiv fun _ => F) (a, u) i)⁻¹ = d) ↔
          ((∀ i, u i ≠ 0) ∧ ∑ i : Fin t, m i.succ * (u i)⁻¹ = d - m 0 * a⁻¹) := by
        rw [Fin.sum_univ_succ, Fin.forall_fin_succ]
        simp only [Fin.consEquiv_apply, Fin.cons_zero, Fin.cons_succ, ne_eq, ha, not_false_eq_true, true_and]
        rw [eq_sub_iff_add_eq, add_comm]
      exact if_congr h2 rfl rfl
  have hb : Function.Bijective fun a : F => m 0 * a⁻¹ := by
    refine (Fintype.bijective_iff_injective_and_card _).2 ⟨fun a b h => ?_, rfl⟩
    exact inv_injective (mul_left_cancel₀ hm h)
  have h3 : waysT m d = ∑ z : F, if z ≠ 0 then waysT (fun i => m i.succ) (d - z) else 0 := by
    rw [h1, ← (Equiv.ofBijective _ hb).sum_comp fun z : F => if z ≠ 0 then waysT (fun i => m i.succ) (d - z) else 0]
    refine Finset.sum_congr rfl fun a _ => ?_
    rw [Equiv.ofBijective_apply]
    refine if_congr ?_ rfl rfl
    simp [hm]
  have h4 : ∀ z : F, (if z ≠ 0 then waysT (fun i => m i.succ) (d - z) else 0) =
      waysT (fun i => m i.succ) (d - z) - if z = 0 then waysT (fun i => m i.succ) (d - z) else 0 := fun z => by by_cases hz : z = 0 <;> simp [hz]
  rw [h3, Finset.sum_congr rfl fun z _ => h4 z, Finset.sum_sub_distrib, Finset.sum_ite_eq', if_pos (Finset.mem_univ _), sub_zero,
    ← waysT_sum fun i => m i.succ]
  exact congrArg (· - _) ((Equiv.subLeft d).sum_comp fun z => waysT (fun i => m i.succ) z)

theorem waysT_eq [Fintype F] {t : Nat} (m : Fin t → F) (hm : ∀ i, m i ≠ 0) (d : F) :
    (Fintype.card F : ℤ) * waysT m d = ((Fintype.card F : ℤ) - 1) ^ t + (if d = 0 then (Fintype.card F : ℤ) - 1 else -1) * (-1) ^ t := by
  induction t with
  | zero =>
    have h : waysT m d = if d = 0 then 1 else 0 := by
      simp [waysT, eq_comm]
    rw [h]
    by_cases hd : d = 0 <;> simp [hd]
  | succ t ih =>
    have h := ih (fun i => m i.succ) fun i => hm _
    rw [waysT_succ m (hm 0) d, mul_sub, h]
    ring

theorem waysT_card [Fintype F] {t : Nat} (m : Fin t → F) (d : F) :
    (Nat.card {u : Fin t → F // (∀ i, u i ≠ 0) ∧ ∑ i, m i * (u i)⁻¹ = d} : ℤ) = waysT m d := by
  rw [Nat.card_eq_fintype_card, Fintype.card_subtype, waysT, Finset.sum_boole]

theorem nonzero_card [Fintype F] (t : Nat) : Nat.card {u : Fin t → F // ∀ i, u i ≠ 0} = (Fintype.card F - 1) ^ t := by
  have h : Nat.card {u : Fin t → F // ∀ i, u i ≠ 0} = Nat.card (Fin t → {a : F // a ≠ 0}) :=
    Nat.card_congr (Equiv.subtypePiEquivPi (p := fun _ (a : F) => a ≠ 0))
  rw [h, Nat.card_fun, Nat.card_eq_fintype_card, Nat.card_eq_fintype_card, Fintype.card_fin]
  congr 1
  rw [Fintype.card_subtype_compl, Fintype.card_subtype_eq]

/-- The last round of a run: every S-box, then the matrix. -/
theorem runT_last {k : Nat} (M : Matrix (Fin (k + 1)) (Fin (k + 1)) F) (full : Nat → Bool) (C : Fin (n + 1) → Fin (k + 1) → F) (x : Fin (k + 1) → F) (hf : full n = true) :
    runT .inverse M full C x (n + 1) = M.mulVec fun i => (runT .inverse M full C x n i + C (Fin.last n) i)⁻¹ := by
  rw [runT, dif_pos (Nat.lt_succ_self n)]
  congr 1
  funext i
  simp only [layerT, hf, Active, Alpha.val]
  rfl

end Poseidon
