import Verif.Proofs.Mds
import Verif.Proofs.Inverse
import Verif.Proofs.Derived
import Verif.Model.GenMds

/-! # The generator's derived matrices -/

set_option linter.unusedSectionVars false

namespace Poseidon

open scoped Matrix

variable {F : Type _} [Field F] [DecidableEq F] {k r c n nmds nhat : Nat}

/-- Building a matrix by pushing its entries in row-major order. -/
theorem push2_new (h : n = r * c) (B : Mat F r c n) {body : Nat → Nat → List F → R (List F)}
    (hbody : ∀ i j els (hi : i < r) (hj : j < c),
      body i j els = .ok (els ++ [B.toM h ⟨i, hi⟩ ⟨j, hj⟩])) :
    (do let els ← forRange 0 r [] fun i els => forRange 0 c els (body i)
        Mat.new r c n els) = .ok B := by
  have hlen : B.elements.toList.length = r * c := by simpa using h
  obtain ⟨s, h1, h2⟩ := forRange_spec (fun i (els : List F) => els = B.elements.toList.take (i * c))
    (body := fun i els => forRange 0 c els (body i)) (lo := 0) (hi := r) (Nat.zero_le _) (s := [])
    (by simp) (by
      intro i els _ hi hels
      obtain ⟨s, h1, h2⟩ := forRange_spec (fun j (els : List F) => els = B.elements.toList.take (i * c + j))
        (body := body i) (lo := 0) (hi := c) (Nat.zero_le _) (s := els) (by simpa using hels) (by
          intro j els _ hj hels
          refine ⟨_, hbody i j els hi hj, ?_⟩
          have hlt : i * c + j < B.elements.toList.length := by rw [hlen]; exact flat_lt hi hj
          rw [hels, ← Nat.add_assoc, List.take_add_one, List.getElem?_eq_getElem hlt]
          simp [Mat.toM])
      exact ⟨s, h1, by rw [h2, Nat.succ_mul]⟩)
  rw [h1, ok_bind, h2]
  apply Mat.new_list h
  rw [List.take_of_length_le (by omega)]

theorem prime_eq (hh : n = k * k) (hm : nmds = (k + 1) * (k + 1)) (m : Mat F k k n) :
    prime nmds m = .ok (Mat.ofM hm (diag1 (m.toM hh))) := by
  rw [prime]
  apply push2_new hm
  intro i j els hi hj
  rw [Mat.toM_ofM]
  rcases i with _ | i
  · rcases j with _ | j
    · simp; rfl
    · simp; rfl
  · rcases j with _ | j
    · simp; rfl
    · simp only [Nat.add_one_ne_zero, false_and, if_false, false_or, Nat.add_sub_cancel]
      rw [Mat.get_eq hh m (by omega) (by omega), ok_bind]
      rfl

theorem identity_get (hh : nhat = k * k) : Mat.identity F k nhat = .ok (Mat.ofM hh 1) := identity_eq hh

theorem doublePrime_eq (hk : 1 ≤ k) (hh : nhat = k * k) (hm : nmds = (k + 1) * (k + 1)) (inv : Mat F k k nhat)
    (w : Mat F k 1 k) (v : Mat F 1 k k) (m00 : F) :
    doublePrime nmds inv w v m00 = .ok (Mat.ofM hm (sparseM m00
      (fun i => ((inv.toM hh) * (w.toM (Nat.mul_one k).symm)) i 0)
      (fun j => v.toM (Nat.one_mul k).symm 0 j))) := by
  rw [doublePrime, identity_eq hh, ok_bind, matMul_eq hh (Nat.mul_one k).symm (Nat.mul_one k).symm hk, ok_bind]
  apply push2_new hm
  intro i j els hi hj
  rw [Mat.toM_ofM]
  rcases i with _ | i
  · rcases j with _ | j
    · simp; rfl
    · simp only [Nat.add_one_ne_zero, and_false, if_false, if_true, Nat.add_sub_cancel]
      rw [Mat.get_eq (Nat.one_mul k).symm v (by omega) (by omega), ok_bind]
      rfl
  · rcases j with _ | j
    · simp only [Nat.add_one_ne_zero, false_and, if_false, if_true, Nat.add_sub_cancel]
      rw [Mat.get_eq (Nat.mul_one k).symm _ (by omega) (by omega), ok_bind, Mat.toM_ofM]
      rfl
    · simp only [Nat.add_one_ne_zero, false_and, if_false, Nat.add_sub_cancel]
      rw [Mat.get_eq hh _ (by omega) (by omega), ok_bind, Mat.toM_ofM]
      show Except.ok _ = Except.ok _
      simp [sparseM, Matrix.one_apply]

/-! ### Inverses, over all dimensions -/

theorem determinant_large {k n : Nat} (hk : 8 < k) (m : Mat F k k n) : determinant k m = .error .unimplemented := by
  match k, hk with
  | k + 2, hk => rw [determinant, if_pos hk]

theorem inverseExpect_eq (debug : Bool) (h : n = k * k) (m : Mat F k k n) (hk : 1 ≤ k) (h8 : k ≤ 8)
    (hdet : (m.toM h).det ≠ 0) : inverseExpect debug m = .ok (Mat.ofM h (m.toM h)⁻¹) := by
  rcases Nat.lt_or_ge 1 k with h2 | h2
  · rw [inverseExpect, inverse_regular debug h h2 h8 m hdet]; rfl
  · obtain rfl : k = 1 := by omega
    obtain rfl : n = 1 := by omega
    rw [Matrix.det_fin_one] at hdet
    have h0 : m.toM h 0 0 = m.elements[0] := rfl
    rw [inverseExpect, inverse_one, if_neg (by rwa [h0] at hdet), ok_bind]
    show Except.ok _ = Except.ok _
    congr 1
    apply Mat.toM_injective h
    rw [Mat.toM_ofM]
    ext i j
    have hi : i = 0 := Subsingleton.elim _ _
    have hj : j = 0 := Subsingleton.elim _ _
    subst hi hj
    rw [Matrix.inv_def, Matrix.det_fin_one, Matrix.adjugate_subsingleton, Ring.inverse_eq_inv, h0]
    simp [Mat.toM]

theorem inverseExpect_singular (debug : Bool) (h : n = k * k) (m : Mat F k k n) (hk : 1 ≤ k) (h8 : k ≤ 8)
    (hdet : (m.toM h).det = 0) :
    inverseExpect debug m = .error (if k = 1 then .divZero else .unwrapNone) := by
  rcases Nat.lt_or_ge 1 k with h2 | h2
  · rw [inverseExpect, inverse_singular debug h h2 h8 m hdet, if_neg (by omega)]; rfl
  · obtain rfl : k = 1 := by omega
    obtain rfl : n = 1 := by omega
    rw [Matrix.det_fin_one] at hdet
    have h0 : m.toM h 0 0 = m.elements[0] := rfl
    rw [inverseExpect, inverse_one, if_pos (by rwa [h0] at hdet)]; rfl

theorem inverseExpect_zero (debug : Bool) (m : Mat F 0 0 0) : inverseExpect debug m = .error .noElements := by
  rw [inverseExpect, Mat.inverse, identity_eq rfl, ok_bind, if_neg (by omega), determinant]; rfl

theorem inverseExpect_large (debug : Bool) (h : n = k * k) (m : Mat F k k n) (h8 : 8 < k) :
    inverseExpect debug m = .error .unimplemented := by
  rw [inverseExpect, Mat.inverse, identity_eq h, ok_bind, if_neg (by omega), determinant_large h8]; rfl

/-- When the inversion of a square matrix succeeds. -/
theorem inverseExpect_ok_iff (debug : Bool) (h : n = k * k) (m B : Mat F k k n) :
    inverseExpect debug m = .ok B ↔
      1 ≤ k ∧ k ≤ 8 ∧ (m.toM h).det ≠ 0 ∧ B = Mat.ofM h (m.toM h)⁻¹ := by
  constructor
  · intro hB
    rcases Nat.eq_zero_or_pos k with hk | hk
    · subst hk
      obtain rfl : n = 0 := by simpa using h
      rw [inverseExpect_zero] at hB; cases hB
    rcases Nat.lt_or_ge 8 k with h8 | h8
    · rw [inverseExpect_large debug h m h8] at hB; cases hB
    by_cases hdet : (m.toM h).det = 0
    · rw [inverseExpect_singular debug h m hk h8 hdet] at hB; cases hB
    · rw [inverseExpect_eq debug h m hk h8 hdet] at hB
      exact ⟨hk, h8, hdet, (Except.ok.inj hB).symm⟩
  · rintro ⟨hk, h8, hdet, rfl⟩
    exact inverseExpect_eq debug h m hk h8 hdet

theorem mdsInverse_eq (debug : Bool) (m : Mat F k k n) : mdsInverse debug m = inverseExpect debug m := rfl

/-! ### `calc_equivalent_matrices` -/

/-- `M_hat` of a matrix -/
def hatM (A : Matrix (Fin (k + 1)) (Fin (k + 1)) F) : Matrix (Fin k) (Fin k) F := A.submatrix Fin.succ Fin.succ
/-- first row without first entry -/
def rowM (A : Matrix (Fin (k + 1)) (Fin (k + 1)) F) : Fin k → F := fun j => A 0 j.succ
/-- first column without first entry -/
def colM (A : Matrix (Fin (k + 1)) (Fin (k + 1)) F) : Fin k → F := fun i => A i.succ 0

/-- The `j`-th entry of `v_collection`. -/
def vColl (A : Matrix (Fin (k + 1)) (Fin (k + 1)) F) (j : Nat) : Mat F 1 k k :=
  Mat.ofM (Nat.one_mul k).symm (Matrix.of fun _ b => (hatM A ^ j).mulVec (colM A) b)

/-- The `j`-th entry of `w_hat_collection`. -/
noncomputable def wColl (A : Matrix (Fin (k + 1)) (Fin (k + 1)) F) (j : Nat) : Mat F k 1 k :=
  Mat.ofM (Nat.mul_one k).symm (Matrix.of fun a _ => ((hatM A)ᵀ ^ (j + 1))⁻¹.mulVec (rowM A) a)

theorem hat_mul_diag1 (A : Matrix (Fin (k + 1)) (Fin (k + 1)) F) (B : Matrix (Fin k) (Fin k) F) :
    hatM (A * diag1 B) = hatM A * B := by
  ext i j
  simp [hatM, Matrix.mul_apply, Fin.sum_univ_succ, diag1]

theorem col_mul_diag1 (A : Matrix (Fin (k + 1)) (Fin (k + 1)) F) (B : Matrix (Fin k) (Fin k) F) :
    colM (A * diag1 B) = colM A := by
  ext i
  simp [colM, Matrix.mul_apply, Fin.sum_univ_succ, diag1]

theorem row_mul_diag1 (A : Matrix (Fin (k + 1)) (Fin (k + 1)) F) (B : Matrix (Fin k) (Fin k) F) :
    rowM (A * diag1 B) = Matrix.vecMul (rowM A) B := by
  ext i
  simp [rowM, Matrix.mul_apply, Matrix.vecMul, _root_.dotProduct, Fin.sum_univ_succ, diag1]

theorem diag1_transpose (B : Matrix (Fin k) (Fin k) F) : (diag1 B)ᵀ = diag1 Bᵀ := by
  ext i j
  cases i using Fin.cases <;> cases j using Fin.cases <;> simp [diag1]

theorem calcEquivalentMatrices_eq (debug : Bool) (hh : nhat = k * k) (hm : nmds = (k + 1) * (k + 1))
    (hk : 1 ≤ k) (h8 : k ≤ 8) (mds : Mat F (k + 1) (k + 1) nmds) (rounds : RoundNumbers)
    (hdet : (hatM (mds.toM hm)).det ≠ 0) (hrp : 1 ≤ rounds.rP) :
    calcEquivalentMatrices debug nhat mds rounds = .ok (Mat.ofM hm (diag1 (hatM (mds.toM hm) ^ rounds.rP)),
      (List.range rounds.rP).map (vColl (mds.toM hm)), (List.range rounds.rP).map (wColl (mds.toM hm))) := by
  set A := mds.toM hm with hA
  rw [calcEquivalentMatrices, transpose_eq hm, ok_bind]
  set mT : Mat F (k + 1) (k + 1) nmds := Mat.ofM (hm.trans (Nat.mul_comm _ _)) (mds.toM hm)ᵀ with hmT
  have hmT' : mT.toM hm = Aᵀ := Mat.toM_ofM _ _
  have hHT : hatM Aᵀ = (hatM A)ᵀ := rfl
  obtain ⟨st, h1, h2, h3, h4, h5⟩ := forRange_spec
    (fun i (st : EquivState F k nmds) => st.mMul.toM hm = Aᵀ * diag1 ((hatM A)ᵀ ^ i) ∧
      (1 ≤ i → st.mI = some (Mat.ofM hm (diag1 ((hatM A)ᵀ ^ i)))) ∧
      st.vCollection = (List.range i).map (vColl A) ∧ st.wHatCollection = (List.range i).map (wColl A))
    (body := fun _ (st : EquivState F k nmds) => do
      let mHat ← mdsHat k nhat st.mMul
      let w ← mdsW k st.mMul
      let v ← mdsV k st.mMul
      let inv ← inverseExpect debug mHat
      let wHat ← matMul k inv w
      let mI ← prime nmds mHat
      let mMul ← matMul nmds mT mI
      return ⟨mMul, some mI, st.vCollection ++ [v], st.wHatCollection ++ [wHat]⟩)
    (lo := 0) (hi := rounds.partialRounds) (Nat.zero_le _) (s := ⟨mT, none, [], []⟩)
    ⟨by rw [hmT', pow_zero, diag1_one, mul_one], by omega, rfl, rfl⟩ (by
      rintro i ⟨mMul, mI, vs, ws⟩ _ hi ⟨e1, _, e3, e4⟩
      dsimp only at e1 e3 e4
      have f1 : mdsHat k nhat mMul = .ok (Mat.ofM hh ((hatM A)ᵀ ^ (i + 1))) := by
        rw [mdsHat_eq hm hh]
        congr 2
        show hatM (mMul.toM hm) = _
        rw [e1, hat_mul_diag1, hHT, pow_succ']
      have f2 : mdsW k mMul = .ok (Mat.ofM (Nat.mul_one k).symm (Matrix.of fun a _ => rowM A a)) := by
        rw [mdsW_eq hm]
        congr 2
        show (Matrix.of fun a _ => colM (mMul.toM hm) a) = _
        rw [e1, col_mul_diag1]; rfl
      have f3 : mdsV k mMul = .ok (vColl A i) := by
        rw [mdsV_eq hm]
        show Except.ok (Mat.ofM _ (Matrix.of fun _ j => rowM (mMul.toM hm) j)) = _
        rw [e1, row_mul_diag1, ← Matrix.transpose_pow, Matrix.vecMul_transpose]; rfl
      have hdi : ((hatM A)ᵀ ^ (i + 1)).det ≠ 0 := by
        rw [Matrix.det_pow, Matrix.det_transpose]; exact pow_ne_zero _ hdet
      have f4 : inverseExpect debug (Mat.ofM hh ((hatM A)ᵀ ^ (i + 1)) : Mat F k k nhat) =
          .ok (Mat.ofM hh ((hatM A)ᵀ ^ (i + 1))⁻¹) := by
        rw [inverseExpect_eq debug hh _ hk h8 (by rwa [Mat.toM_ofM]), Mat.toM_ofM]
      have f5 : matMul k (Mat.ofM hh ((hatM A)ᵀ ^ (i + 1))⁻¹ : Mat F k k nhat)
          (Mat.ofM (Nat.mul_one k).symm (Matrix.of fun a _ => rowM A a) : Mat F k 1 k) = .ok (wColl A i) := by
        rw [matMul_eq hh (Nat.mul_one k).symm (Nat.mul_one k).symm hk, Mat.toM_ofM, Mat.toM_ofM]
        rfl
      have f6 : prime nmds (Mat.ofM hh ((hatM A)ᵀ ^ (i + 1)) : Mat F k k nhat) =
          .ok (Mat.ofM hm (diag1 ((hatM A)ᵀ ^ (i + 1)))) := by
        rw [prime_eq hh hm, Mat.toM_ofM]
      have f7 : matMul nmds mT (Mat.ofM hm (diag1 ((hatM A)ᵀ ^ (i + 1))) : Mat F (k + 1) (k + 1) nmds) =
          .ok (Mat.ofM hm (Aᵀ * diag1 ((hatM A)ᵀ ^ (i + 1)))) := by
        rw [matMul_eq hm hm hm (by omega), hmT', Mat.toM_ofM]
      simp only [f1, f2, f3, ok_bind]
      simp only [f4, ok_bind]
      simp only [f5, ok_bind]
      simp only [f6, ok_bind]
      simp only [f7, ok_bind]
      refine ⟨_, rfl, Mat.toM_ofM _ _, fun _ => rfl, ?_, ?_⟩
      · rw [e3, List.range_succ, List.map_append]; rfl
      · rw [e4, List.range_succ, List.map_append]; rfl)
  rw [h1, ok_bind]
  obtain ⟨mMul, mI, vs, ws⟩ := st
  dsimp only at h3 h4 h5 ⊢
  rw [h3 hrp, h4, h5]
  dsimp only
  rw [transpose_eq hm, ok_bind, Mat.toM_ofM, diag1_transpose, ← Matrix.transpose_pow, Matrix.transpose_transpose]
  rfl

/-! ### The counts of zeros and ones of `M''` -/

theorem filter_length_ofM (h : n = r * c) (A : Matrix (Fin r) (Fin c) F) (x : F) :
    ((Mat.ofM h A).elements.toList.filter (· = x)).length = ∑ i, ∑ j, if A i j = x then 1 else 0 := by
  subst h
  have h1 : (Mat.ofM (rfl : r * c = r * c) A).elements.toList =
      (List.finRange (r * c)).map fun p => A (finProdFinEquiv.symm p).1 (finProdFinEquiv.symm p).2 := by
    rw [← List.ofFn_eq_map]
    simp only [Mat.ofM, Vector.toList_ofFn]
    rfl
  rw [h1, List.filter_map, List.length_map, ← List.countP_eq_length_filter]
  have h2 : ∀ P : Fin (r * c) → Bool, (List.finRange (r * c)).countP P = ∑ p, if P p then 1 else 0 := by
    intro P
    rw [Finset.sum_boole, List.countP_eq_length_filter]
    simp only [Nat.cast_id]
    rw [← List.toFinset_card_of_nodup ((List.nodup_finRange _).filter _)]
    congr 1
    ext p; simp
  rw [h2, ← Fintype.sum_prod_type', ← finProdFinEquiv.symm.sum_comp]
  simp

theorem sparse_zeros (m00 : F) (v w : Fin k → F) :
    (∑ i, ∑ j, if sparseM m00 v w i j = 0 then 1 else 0) = (k * k - k) + ((if m00 = 0 then 1 else 0) +
      (∑ j, if w j = 0 then 1 else 0) + ∑ i, if v i = 0 then 1 else 0) := by
  have h : (∑ i : Fin k, ∑ j : Fin k, if (if i = j then (1 : F) else 0) = 0 then 1 else 0) = k * k - k := by
    have : ∀ i : Fin k, (∑ j : Fin k, if (if i = j then (1 : F) else 0) = 0 then 1 else 0) = k - 1 := by
      intro i
      have h1 : ∀ j : Fin k, (if (if i = j then (1 : F) else 0) = 0 then 1 else 0) = if i = j then 0 else 1 := by
        intro j; by_cases hij : i = j <;> simp [hij]
      have h2 := Finset.card_filter_add_card_filter_not (s := (Finset.univ : Finset (Fin k))) (fun j => i = j)
      rw [Finset.card_univ, Fintype.card_fin, Finset.filter_eq] at h2
      simp only [Finset.mem_univ, if_true, Finset.card_singleton] at h2
      have h3 : (∑ j : Fin k, if i = j then 0 else 1) = (Finset.univ.filter fun j => ¬ i = j).card := by
        rw [Finset.card_filter]
        apply Finset.sum_congr rfl
        intro j _; by_cases hij : i = j <;> simp [hij]
      rw [Finset.sum_congr rfl fun j _ => h1 j, h3]; omega
    rw [Finset.sum_congr rfl fun i _ => this i, Finset.sum_const, Finset.card_univ, Fintype.card_fin,
      smul_eq_mul, Nat.mul_sub_one]
  have e1 : sparseM m00 v w 0 0 = m00 := rfl
  have e2 : ∀ j : Fin k, sparseM m00 v w 0 j.succ = w j := fun _ => rfl
  have e3 : ∀ i : Fin k, sparseM m00 v w i.succ 0 = v i := fun _ => rfl
  have e4 : ∀ i j : Fin k, sparseM m00 v w i.succ j.succ = if i = j then 1 else 0 := fun _ _ => rfl
  simp only [Fin.sum_univ_succ, Finset.sum_add_distrib, e1, e2, e3, e4]
  rw [h]; omega

theorem sparse_ones (m00 : F) (v w : Fin k → F) :
    (∑ i, ∑ j, if sparseM m00 v w i j = 1 then 1 else 0) = k + ((if m00 = 1 then 1 else 0) +
      (∑ j, if w j = 1 then 1 else 0) + ∑ i, if v i = 1 then 1 else 0) := by
  have h : (∑ i : Fin k, ∑ j : Fin k, if (if i = j then (1 : F) else 0) = 1 then 1 else 0) = k := by
    have : ∀ i : Fin k, (∑ j : Fin k, if (if i = j then (1 : F) else 0) = 1 then 1 else 0) = 1 := by
      intro i
      have h1 : ∀ j : Fin k, (if (if i = j then (1 : F) else 0) = 1 then 1 else 0) = if i = j then 1 else 0 := by
        intro j; by_cases hij : i = j <;> simp [hij]
      rw [Finset.sum_congr rfl fun j _ => h1 j]; simp
    rw [Finset.sum_congr rfl fun i _ => this i]; simp
  have e1 : sparseM m00 v w 0 0 = m00 := rfl
  have e2 : ∀ j : Fin k, sparseM m00 v w 0 j.succ = w j := fun _ => rfl
  have e3 : ∀ i : Fin k, sparseM m00 v w i.succ 0 = v i := fun _ => rfl
  have e4 : ∀ i j : Fin k, sparseM m00 v w i.succ j.succ = if i = j then 1 else 0 := fun _ _ => rfl
  simp only [Fin.sum_univ_succ, Finset.sum_add_distrib, e1, e2, e3, e4]
  rw [h]; omega

theorem indicators_zero {α : Type _} [DecidableEq α] (a x : α) (v w : Fin k → α) :
    ((if a = x then 1 else 0) + (∑ j, if w j = x then 1 else 0) + ∑ i, if v i = x then 1 else 0) = 0 ↔
      a ≠ x ∧ (∀ j, w j ≠ x) ∧ ∀ i, v i ≠ x := by
  rw [Nat.add_eq_zero_iff, Nat.add_eq_zero_iff, Finset.sum_eq_zero_iff, Finset.sum_eq_zero_iff]
  simp [and_assoc]

/-- The vector `M_hat⁻¹ w`. -/
noncomputable def wHatM (A : Matrix (Fin (k + 1)) (Fin (k + 1)) F) : Fin k → F := (hatM A)⁻¹.mulVec (colM A)

/-- The condition under which the assertions of `generate_optimized` on the number of zeros and ones pass. -/
def CountsOk (A : Matrix (Fin (k + 1)) (Fin (k + 1)) F) : Prop :=
  ∀ x : F, x = 0 ∨ x = 1 → A 0 0 ≠ x ∧ (∀ j, rowM A j ≠ x) ∧ ∀ i, wHatM A i ≠ x

theorem prime_mul_doublePrime (A : Matrix (Fin (k + 1)) (Fin (k + 1)) F) (hdet : (hatM A).det ≠ 0) :
    diag1 (hatM A) * sparseM (A 0 0) (wHatM A) (rowM A) = A := by
  have hu : IsUnit (hatM A).det := isUnit_iff_ne_zero.2 hdet
  ext i j
  rw [Matrix.mul_apply, Fin.sum_univ_succ]
  cases i using Fin.cases with
  | zero => cases j using Fin.cases <;> simp [diag1, sparseM, rowM]
  | succ i =>
    cases j using Fin.cases with
    | zero =>
      have h : (hatM A).mulVec (wHatM A) = colM A := by
        rw [wHatM, Matrix.mulVec_mulVec, Matrix.mul_nonsing_inv _ hu, Matrix.one_mulVec]
      have h2 := congrFun h i
      simp only [Matrix.mulVec, _root_.dotProduct] at h2
      simp [diag1, sparseM, h2, colM]
    | succ j => simp [diag1, sparseM, hatM]

/-- The matrices the generator returns. -/
noncomputable def optMds (hh : nhat = k * k) (hm : nmds = (k + 1) * (k + 1)) (A : Matrix (Fin (k + 1)) (Fin (k + 1)) F)
    (rP : Nat) : OptimizedMds F rP (k + 1) k nmds nhat where
  mHat := Mat.ofM hh (hatM A)
  v := Mat.ofM (Nat.one_mul k).symm (Matrix.of fun _ j => rowM A j)
  w := Mat.ofM (Nat.mul_one k).symm (Matrix.of fun i _ => colM A i)
  mPrime := Mat.ofM hm (diag1 (hatM A))
  mDoublePrime := Mat.ofM hm (sparseM (A 0 0) (wHatM A) (rowM A))
  mInverse := Mat.ofM hm A⁻¹
  mHatInverse := Mat.ofM hh (hatM A)⁻¹
  m00 := A 0 0
  mI := Mat.ofM hm (diag1 (hatM A ^ rP))
  vCollection := Vector.ofFn fun j => vColl A j
  wHatCollection := Vector.ofFn fun j => wColl A j

theorem toArr_range {α : Type _} (f : Nat → α) (m : Nat) :
    toArr m ((List.range m).map f) = .ok (Vector.ofFn fun j : Fin m => f j) := by
  rw [toArr, dif_pos (by simp)]
  congr 1
  ext i hi
  simp

theorem calc_zero_rounds (debug : Bool) (mds : Mat F (k + 1) (k + 1) nmds) (hm : nmds = (k + 1) * (k + 1))
    (rounds : RoundNumbers) (h : rounds.rP = 0) :
    calcEquivalentMatrices debug nhat mds rounds = .error .badDims := by
  rw [calcEquivalentMatrices, transpose_eq hm, ok_bind]
  simp [RoundNumbers.partialRounds, h, forRange, loopN]

/-- Exactly when `generate_optimized` succeeds, and with what. -/
theorem mdsGenerateOptimized_ok_iff (debug : Bool) (hh : nhat = k * k) (hm : nmds = (k + 1) * (k + 1))
    (mds : Mat F (k + 1) (k + 1) nmds) (rounds : RoundNumbers) (o : OptimizedMds F rounds.rP (k + 1) k nmds nhat) :
    mdsGenerateOptimized debug nhat mds rounds = .ok o ↔
      1 ≤ k ∧ k + 1 ≤ 8 ∧ 1 ≤ rounds.rP ∧ (hatM (mds.toM hm)).det ≠ 0 ∧ (mds.toM hm).det ≠ 0 ∧
      CountsOk (mds.toM hm) ∧ o = optMds hh hm (mds.toM hm) rounds.rP := by
  set A := mds.toM hm with hA
  have f1 : mdsHat k nhat mds = .ok (Mat.ofM hh (hatM A)) := mdsHat_eq hm hh mds
  have f2 : mdsV k mds = .ok (Mat.ofM (Nat.one_mul k).symm (Matrix.of fun _ j => rowM A j)) := mdsV_eq hm mds
  have f3 : mdsW k mds = .ok (Mat.ofM (Nat.mul_one k).symm (Matrix.of fun i _ => colM A i)) := mdsW_eq hm mds
  rw [mdsGenerateOptimized, f1, ok_bind]
  by_cases hinv : 1 ≤ k ∧ k ≤ 8 ∧ (hatM A).det ≠ 0
  swap
  · have : ∀ B : Mat F k k nhat, inverseExpect debug (Mat.ofM hh (hatM A) : Mat F k k nhat) ≠ .ok B := by
      intro B hB
      rw [inverseExpect_ok_iff debug hh, Mat.toM_ofM] at hB
      exact hinv ⟨hB.1, hB.2.1, hB.2.2.1⟩
    cases hc : inverseExpect debug (Mat.ofM hh (hatM A) : Mat F k k nhat) with
    | ok B => exact absurd hc (this B)
    | error e =>
      constructor
      · intro h; cases h
      · rintro ⟨h1, h2, _, h3, _⟩; exact absurd ⟨h1, by omega, h3⟩ hinv
  obtain ⟨hk, h8, hdet⟩ := hinv
  have f4 : inverseExpect debug (Mat.ofM hh (hatM A) : Mat F k k nhat) = .ok (Mat.ofM hh (hatM A)⁻¹) := by
    rw [inverseExpect_eq debug hh _ hk h8 (by rwa [Mat.toM_ofM]), Mat.toM_ofM]
  have f5 : doublePrime nmds (Mat.ofM hh (hatM A)⁻¹ : Mat F k k nhat)
      (Mat.ofM (Nat.mul_one k).symm (Matrix.of fun i _ => colM A i))
      (Mat.ofM (Nat.one_mul k).symm (Matrix.of fun _ j => rowM A j)) (A 0 0) =
      .ok (Mat.ofM hm (sparseM (A 0 0) (wHatM A) (rowM A))) := by
    rw [doublePrime_eq hk hh hm, Mat.toM_ofM, Mat.toM_ofM, Mat.toM_ofM]
    rfl
  have f6 : matMul nmds (Mat.ofM hm (diag1 (hatM A)) : Mat F (k + 1) (k + 1) nmds)
      (Mat.ofM hm (sparseM (A 0 0) (wHatM A) (rowM A)) : Mat F (k + 1) (k + 1) nmds) = .ok mds := by
    rw [matMul_eq hm hm hm (by omega), Mat.toM_ofM, Mat.toM_ofM, prime_mul_doublePrime A hdet, hA, Mat.ofM_toM]
  have f7 : mds.get 0 0 = .ok (A 0 0) := Mat.get_eq hm mds (by omega) (by omega)
  rw [f4, ok_bind, f2, ok_bind, f3, ok_bind, prime_eq hh hm, ok_bind, f7, ok_bind, Mat.toM_ofM]
  rw [f5, ok_bind, f6, ok_bind, if_neg (by simp)]
  simp only [filter_length_ofM, sparse_zeros, sparse_ones, Nat.add_sub_cancel, usub]
  rw [if_pos (by omega), ok_bind, if_pos (Nat.le_mul_of_pos_left _ hk), ok_bind]
  have hc : CountsOk A ↔
      ((if A 0 0 = 0 then 1 else 0) + (∑ j, if rowM A j = 0 then 1 else 0) + ∑ i, if wHatM A i = 0 then 1 else 0) = 0 ∧
      ((if A 0 0 = 1 then 1 else 0) + (∑ j, if rowM A j = 1 then 1 else 0) + ∑ i, if wHatM A i = 1 then 1 else 0) = 0 := by
    rw [indicators_zero, indicators_zero, CountsOk]
    constructor
    · intro h; exact ⟨h 0 (Or.inl rfl), h 1 (Or.inr rfl)⟩
    · rintro ⟨h1, h2⟩ x (rfl | rfl)
      · exact h1
      · exact h2
  by_cases hz : ((if A 0 0 = 0 then 1 else 0) + (∑ j, if rowM A j = 0 then 1 else 0) +
      ∑ i, if wHatM A i = 0 then 1 else 0) = 0
  swap
  · rw [if_pos (by omega)]
    constructor
    · intro h; cases h
    · rintro ⟨_, _, _, _, _, h, _⟩; exact absurd (hc.1 h).1 hz
  rw [if_neg (by omega)]
  by_cases ho : ((if A 0 0 = 1 then 1 else 0) + (∑ j, if rowM A j = 1 then 1 else 0) +
      ∑ i, if wHatM A i = 1 then 1 else 0) = 0
  swap
  · rw [if_pos (by omega)]
    constructor
    · intro h; cases h
    · rintro ⟨_, _, _, _, _, h, _⟩; exact absurd (hc.1 h).2 ho
  rw [if_neg (by omega)]
  by_cases hrp : 1 ≤ rounds.rP
  swap
  · rw [calc_zero_rounds debug mds hm rounds (by omega)]
    constructor
    · intro h; cases h
    · rintro ⟨_, _, h, _⟩; exact absurd h hrp
  rw [calcEquivalentMatrices_eq debug hh hm hk h8 mds rounds hdet hrp, ok_bind]
  dsimp only
  rw [toArr_range, ok_bind, toArr_range, ok_bind, mdsInverse_eq]
  by_cases hinv : k + 1 ≤ 8 ∧ A.det ≠ 0
  swap
  · have : ∀ B : Mat F (k + 1) (k + 1) nmds, inverseExpect debug mds ≠ .ok B := by
      intro B hB
      rw [inverseExpect_ok_iff debug hm] at hB
      exact hinv ⟨hB.2.1, hB.2.2.1⟩
    cases hc : inverseExpect debug mds with
    | ok B => exact absurd hc (this B)
    | error e =>
      constructor
      · intro h; cases h
      · rintro ⟨_, h2, _, _, h3, _⟩; exact absurd ⟨h2, h3⟩ hinv
  rw [inverseExpect_eq debug hm mds (by omega) hinv.1 hinv.2, ok_bind]
  constructor
  · intro h
    exact ⟨hk, hinv.1, hrp, hdet, hinv.2, hc.2 ⟨hz, ho⟩, (Except.ok.inj h).symm⟩
  · rintro ⟨_, _, _, _, _, _, rfl⟩
    rfl

end Poseidon
