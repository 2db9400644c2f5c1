import Verif.Proofs.MatrixChange

/-! # The permutations with an entry of the MDS matrix as a variable -/

set_option linter.unusedSectionVars false

namespace Poseidon

open Polynomial

variable {F : Type} [Field F] [DecidableEq F] {k t e : Nat}

/-- The matrix with another entry in row `a`, column `b`. -/
def entryM (M : Matrix (Fin t) (Fin t) F) (a b : Fin t) (m : F) : Matrix (Fin t) (Fin t) F :=
  Matrix.of fun i j => if i = a ∧ j = b then m else M i j

/-- The words after the S-boxes, on polynomials. -/
noncomputable def boxPoly (e : Nat) (full : Bool) (c : Fin t → F) (P : Fin t → F[X]) : Fin t → F[X] :=
  fun j => if Active full j then (P j + C (c j)) ^ e else P j + C (c j)

/-- A round on polynomials, the entry being the variable. -/
noncomputable def entryPoly (e : Nat) (M : Matrix (Fin t) (Fin t) F) (a b : Fin t) (full : Bool) (c : Fin t → F) (P : Fin t → F[X]) : Fin t → F[X] :=
  fun i => ∑ j, (if i = a ∧ j = b then X else C (M i j)) * boxPoly e full c P j

theorem entryPoly_eval (M : Matrix (Fin t) (Fin t) F) (a b : Fin t) (full : Bool) (c : Fin t → F) (P : Fin t → F[X]) (m : F) :
    (fun i => (entryPoly e M a b full c P i).eval m) = roundE e (entryM M a b m) full c (fun i => (P i).eval m) := by
  funext i
  rw [entryPoly, eval_finsetSum, roundE, Matrix.mulVec, _root_.dotProduct]
  refine Finset.sum_congr rfl fun j _ => ?_
  rw [eval_mul, boxPoly, entryM, Matrix.of_apply]
  split_ifs <;> simp

/-- A row with the entry: the others, and the variable times the word of its column. -/
theorem entryPoly_row (M : Matrix (Fin t) (Fin t) F) (a b : Fin t) (full : Bool) (c : Fin t → F) (P : Fin t → F[X]) :
    entryPoly e M a b full c P a = ∑ j, C (if j = b then 0 else M a j) * boxPoly e full c P j + X * boxPoly e full c P b := by
  have h : X * boxPoly e full c P b = ∑ j, (if j = b then X else 0) * boxPoly e full c P j := by
    rw [Finset.sum_eq_single b]
    · rw [if_pos rfl]
    · intro j _ hj
      rw [if_neg hj, zero_mul]
    · intro hh
      exact absurd (Finset.mem_univ b) hh
  rw [h, ← Finset.sum_add_distrib, entryPoly]
  refine Finset.sum_congr rfl fun j _ => ?_
  by_cases hj : j = b
  · rw [if_pos ⟨rfl, hj⟩, if_pos hj, if_pos hj, C_0]; ring
  · rw [if_neg (fun hh => hj hh.2), if_neg hj, if_neg hj]; ring

theorem entryPoly_other (M : Matrix (Fin t) (Fin t) F) {a i : Fin t} (b : Fin t) (hi : i ≠ a) (full : Bool) (c : Fin t → F) (P : Fin t → F[X]) :
    entryPoly e M a b full c P i = ∑ j, C (M i j) * boxPoly e full c P j := by
  rw [entryPoly]
  refine Finset.sum_congr rfl fun j _ => ?_
  rw [if_neg (fun hh => hi hh.1)]

theorem sum_top {n : Nat} {S : Fin t → F[X]} {R : Fin t → F} (h : Top n S R) (u : Fin t → F) :
    (∑ j, C (u j) * S j).natDegree ≤ n ∧ (∑ j, C (u j) * S j).coeff n = ∑ j, u j * R j := by
  refine ⟨natDegree_sum_le_of_forall_le _ _ fun j _ => (natDegree_C_mul_le _ _).trans (h j).1, ?_⟩
  rw [finsetSum_coeff]
  refine Finset.sum_congr rfl fun j _ => ?_
  rw [coeff_C_mul, (h j).2]

/-- What a round does if the words after the S-boxes have degree at most `n`, with coefficients `R`, and that of the column has coefficient not 0. -/
theorem entry_high (M : Matrix (Fin t) (Fin t) F) (a b : Fin t) {full : Bool} {c : Fin t → F} {P : Fin t → F[X]} {n : Nat} {R : Fin t → F} (h : Top n (boxPoly e full c P) R) :
    Top (n + 1) (entryPoly e M a b full c P) (R b • Pi.single a 1) ∧ ∀ i, i ≠ a → (entryPoly e M a b full c P i).coeff n = M.mulVec R i := by
  refine ⟨fun i => ?_, fun i hi => ?_⟩
  · by_cases hi : i = a
    · subst hi
      rw [entryPoly_row, Pi.smul_apply, Pi.single_eq_same, smul_eq_mul, mul_one]
      have h1 := sum_top h fun j => if j = b then 0 else M i j
      refine ⟨natDegree_add_le_of_degree_le (by omega) ?_, ?_⟩
      · refine natDegree_mul_le.trans ?_
        have := natDegree_X_le (R := F)
        have := (h b).1
        omega
      · rw [coeff_add, coeff_X_mul, (h b).2, coeff_eq_zero_of_natDegree_lt (by omega), zero_add]
    · rw [entryPoly_other M b hi, Pi.smul_apply, Pi.single_eq_of_ne hi, smul_zero]
      have h1 := sum_top h fun j => M i j
      exact ⟨by omega, coeff_eq_zero_of_natDegree_lt (by omega)⟩
  · rw [entryPoly_other M b hi, (sum_top h _).2]
    rfl

/-- What a round does if the word of the column has a smaller degree. -/
theorem entry_low (M : Matrix (Fin t) (Fin t) F) (a b : Fin t) {full : Bool} {c : Fin t → F} {P : Fin t → F[X]} {n : Nat} {R : Fin t → F} (h : Top n (boxPoly e full c P) R)
    (hb : (boxPoly e full c P b).natDegree + 1 < n) : Top n (entryPoly e M a b full c P) (M.mulVec R) := by
  have hR : R b = 0 := by rw [← (h b).2]; exact coeff_eq_zero_of_natDegree_lt (by omega)
  intro i
  by_cases hi : i = a
  · subst hi
    rw [entryPoly_row]
    have h1 := sum_top h fun j => if j = b then 0 else M i j
    have h2 : (X * boxPoly e full c P b).natDegree < n := by
      refine lt_of_le_of_lt natDegree_mul_le ?_
      have := natDegree_X_le (R := F)
      omega
    refine ⟨natDegree_add_le_of_degree_le h1.1 h2.le, ?_⟩
    rw [coeff_add, coeff_eq_zero_of_natDegree_lt h2, add_zero, h1.2]
    refine Finset.sum_congr rfl fun j _ => ?_
    by_cases hj : j = b
    · rw [hj, hR, mul_zero, mul_zero]
    · rw [if_neg hj]
  · rw [entryPoly_other M b hi]
    exact sum_top h fun j => M i j

/-- The words of the highest degree: one word, or all of them in the proportions of a column of the matrix. -/
def Lead (M : Matrix (Fin t) (Fin t) F) (a : Fin t) (d : Nat) (P : Fin t → F[X]) : Prop :=
  ∃ c : F, c ≠ 0 ∧ (Top d P (c • Pi.single a 1) ∨ ∃ j, Top d P (c • fun i => M i j))

/-- Word 0 has nearly the highest degree. -/
def Wide (d : Nat) (P : Fin (k + 1) → F[X]) : Prop :=
  1 ≤ (P 0).natDegree ∧ ∀ i, (P i).natDegree ≤ (P 0).natDegree + 1 ∧ (P i).natDegree ≤ d

theorem full_box {d : Nat} (hd : 1 ≤ d) {P : Fin t → F[X]} {L : Fin t → F} (h : Top d P L) (c : Fin t → F) : Top (e * d) (boxPoly e true c P) fun j => L j ^ e := by
  intro j
  have h1 : (P j + C (c j)).natDegree ≤ d := natDegree_add_le_of_degree_le (h j).1 (by rw [natDegree_C]; omega)
  rw [boxPoly, if_pos (show Active true _ from Or.inl rfl)]
  refine ⟨natDegree_pow_le_of_le e h1, ?_⟩
  rw [coeff_pow_of_natDegree_le h1, coeff_add, (h j).2, coeff_C, if_neg (by omega), add_zero]

/-- What every round ensures. -/
structure After (M : Matrix (Fin (k + 1)) (Fin (k + 1)) F) (a : Fin (k + 1)) (d : Nat) (P : Fin (k + 1) → F[X]) : Prop where
  lead : Lead M a d P
  wide : Wide d P
  pos : 1 ≤ d
  words : ∀ i, 1 ≤ (P i).natDegree

theorem after_high (M : Matrix (Fin (k + 1)) (Fin (k + 1)) F) (a b : Fin (k + 1)) {full : Bool} {c : Fin (k + 1) → F} {P : Fin (k + 1) → F[X]} {n : Nat} {R : Fin (k + 1) → F}
    (hn : 1 ≤ n) (h : Top n (boxPoly e full c P) R) (hb : R b ≠ 0) (hM : ∀ i, M.mulVec R i ≠ 0) : After M a (n + 1) (entryPoly e M a b full c P) := by
  obtain ⟨h1, h2⟩ := entry_high M a b h
  have h3 : ∀ i, n ≤ (entryPoly e M a b full c P i).natDegree := by
    intro i
    by_cases hi : i = a
    · refine (Nat.le_succ n).trans (le_natDegree_of_ne_zero ?_)
      rw [(h1 i).2, hi, Pi.smul_apply, Pi.single_eq_same, smul_eq_mul, mul_one]
      exact hb
    · refine le_natDegree_of_ne_zero ?_
      rw [h2 i hi]
      exact hM i
  exact ⟨⟨R b, hb, Or.inl h1⟩, ⟨hn.trans (h3 0), fun i => ⟨(h1 i).1.trans (Nat.succ_le_succ (h3 0)), (h1 i).1⟩⟩, by omega, fun i => hn.trans (h3 i)⟩

theorem after_low (M : Matrix (Fin (k + 1)) (Fin (k + 1)) F) (a b : Fin (k + 1)) {full : Bool} {c : Fin (k + 1) → F} {P : Fin (k + 1) → F[X]} {n : Nat} {R : Fin (k + 1) → F}
    (hn : 1 ≤ n) (h : Top n (boxPoly e full c P) R) (hb : (boxPoly e full c P b).natDegree + 1 < n) {u : F} (hu : u ≠ 0) {j : Fin (k + 1)} (hR : R = u • Pi.single j 1)
    (hM : ∀ i j, M i j ≠ 0) : After M a n (entryPoly e M a b full c P) := by
  have h1 := entry_low M a b h hb
  have h2 : M.mulVec R = u • fun i => M i j := by
    rw [hR, Matrix.mulVec_smul, Matrix.mulVec_single_one]
    rfl
  rw [h2] at h1
  have h3 : ∀ i, n ≤ (entryPoly e M a b full c P i).natDegree := by
    intro i
    refine le_natDegree_of_ne_zero ?_
    rw [(h1 i).2, Pi.smul_apply, smul_eq_mul]
    exact mul_ne_zero hu (hM i j)
  exact ⟨⟨u, hu, Or.inr ⟨j, h1⟩⟩, ⟨hn.trans (h3 0), fun i => ⟨(h1 i).1.trans (Nat.le_succ_of_le (h3 0)), (h1 i).1⟩⟩, hn, fun i => hn.trans (h3 i)⟩

/-- A full round. -/
theorem full_after (he : 3 ≤ e) {M : Matrix (Fin (k + 1)) (Fin (k + 1)) F} (hM : ∀ i j, M i j ≠ 0) (hM2 : ∀ i j, M.mulVec (fun l => M l j ^ e) i ≠ 0) (a b : Fin (k + 1)) (c : Fin (k + 1) → F)
    {d : Nat} {P : Fin (k + 1) → F[X]} (hd : 1 ≤ d) (h : Lead M a d P) : ∃ d', d' ≤ e * d + 1 ∧ After M a d' (entryPoly e M a b true c P) := by
  have hed : 1 ≤ e * d := Nat.mul_pos (by omega) hd
  obtain ⟨u, hu, h | ⟨j, h⟩⟩ := h
  · have hs : (fun l => (u • Pi.single a 1 : Fin (k + 1) → F) l ^ e) = u ^ e • Pi.single a 1 := by
      funext l
      by_cases hl : l = a
      · subst hl; simp
      · simp [hl, show e ≠ 0 by omega]
    have h1 := full_box (e := e) hd h c
    by_cases hab : b = a
    · refine ⟨_, le_refl _, after_high M a b hed h1 ?_ fun i => ?_⟩
      · simp only [hab, Pi.smul_apply, Pi.single_eq_same, smul_eq_mul, mul_one]
        exact pow_ne_zero _ hu
      · rw [hs, Matrix.mulVec_smul, Matrix.mulVec_single_one, Pi.smul_apply, smul_eq_mul]
        exact mul_ne_zero (pow_ne_zero _ hu) (hM i a)
    · refine ⟨e * d, Nat.le_succ _, after_low M a b hed h1 ?_ (pow_ne_zero e hu) hs hM⟩
      -- the word of the column has a smaller degree
      have h2 : (P b).natDegree ≤ d - 1 := by
        have h3 := (h b).2
        rw [Pi.smul_apply, Pi.single_eq_of_ne hab, smul_zero] at h3
        have h4 := (h b).1
        rcases Nat.lt_or_ge (P b).natDegree d with h5 | h5
        · omega
        · have h6 : (P b).natDegree = d := le_antisymm h4 h5
          rw [← h6, coeff_natDegree, leadingCoeff_eq_zero] at h3
          rw [h3, natDegree_zero] at h6
          omega
      have h3 : (P b + C (c b)).natDegree ≤ d - 1 := natDegree_add_le_of_degree_le h2 (by rw [natDegree_C]; omega)
      have h4 : (boxPoly e true c P b).natDegree ≤ e * (d - 1) := by
        rw [boxPoly, if_pos (show Active true _ from Or.inl rfl)]
        exact natDegree_pow_le_of_le e h3
      have h5 : e * (d - 1) + e = e * d := by
        rw [← Nat.mul_succ]; congr 1; omega
      omega
  · have h1 := full_box (e := e) hd h c
    refine ⟨_, le_refl _, after_high M a b hed h1 ?_ fun i => ?_⟩
    · simp only [Pi.smul_apply, smul_eq_mul]
      exact pow_ne_zero _ (mul_ne_zero hu (hM b j))
    · have hs : (fun l => (u • fun i => M i j : Fin (k + 1) → F) l ^ e) = u ^ e • fun l => M l j ^ e := by
        funext l
        simp only [Pi.smul_apply, smul_eq_mul, mul_pow]
      rw [hs, Matrix.mulVec_smul, Pi.smul_apply, smul_eq_mul]
      exact mul_ne_zero (pow_ne_zero _ hu) (hM2 i j)

/-- A partial round. -/
theorem partial_after (he : 4 ≤ e) {M : Matrix (Fin (k + 1)) (Fin (k + 1)) F} (hM : ∀ i j, M i j ≠ 0) (a b : Fin (k + 1)) (c : Fin (k + 1) → F)
    {d : Nat} {P : Fin (k + 1) → F[X]} (h : Wide d P) : ∃ d', d' ≤ e * d + 1 ∧ After M a d' (entryPoly e M a b false c P) := by
  obtain ⟨h1, h2⟩ := h
  set n := (P 0).natDegree with hn
  have hnd : n ≤ d := (h2 0).2
  have hen : e * n ≤ e * d := Nat.mul_le_mul_left _ hnd
  have h4n : 4 * n ≤ e * n := Nat.mul_le_mul_right _ he
  have hother : ∀ j, j ≠ 0 → (boxPoly e false c P j).natDegree ≤ n + 1 := by
    intro j hj
    rw [boxPoly, if_neg (by
      rintro (h | h)
      · exact absurd h (by decide)
      · exact hj (Fin.ext h))]
    exact natDegree_add_le_of_degree_le (h2 j).1 (by rw [natDegree_C]; omega)
  have hbox : Top (e * n) (boxPoly e false c P) ((P 0).coeff n ^ e • Pi.single 0 1) := by
    intro j
    by_cases hj : j = 0
    · subst hj
      have h3 : (P 0 + C (c 0)).natDegree ≤ n := natDegree_add_le_of_degree_le (le_refl _) (by rw [natDegree_C]; omega)
      rw [boxPoly, if_pos (show Active false _ from Or.inr rfl), Pi.smul_apply, Pi.single_eq_same, smul_eq_mul, mul_one]
      refine ⟨natDegree_pow_le_of_le e h3, ?_⟩
      rw [coeff_pow_of_natDegree_le h3, coeff_add, coeff_C, if_neg (by omega), add_zero]
    · rw [Pi.smul_apply, Pi.single_eq_of_ne hj, smul_zero]
      have := hother j hj
      exact ⟨by omega, coeff_eq_zero_of_natDegree_lt (by omega)⟩
  have hu : (P 0).coeff n ^ e ≠ 0 := by
    refine pow_ne_zero _ ?_
    rw [hn, coeff_natDegree, leadingCoeff_ne_zero]
    intro h0
    rw [h0, natDegree_zero] at hn
    omega
  by_cases hb : b = 0
  · refine ⟨e * n + 1, by omega, after_high M a b (by omega) hbox ?_ fun i => ?_⟩
    · rw [hb, Pi.smul_apply, Pi.single_eq_same, smul_eq_mul, mul_one]
      exact hu
    · rw [Matrix.mulVec_smul, Matrix.mulVec_single_one, Pi.smul_apply, smul_eq_mul]
      exact mul_ne_zero hu (hM i 0)
  · refine ⟨e * n, by omega, after_low M a b (by omega) hbox ?_ hu rfl hM⟩
    have := hother b hb
    omega

/-- Rounds, the first of them full or after another one. -/
theorem rounds_after {ι : Type} (he : 4 ≤ e) {M : Matrix (Fin (k + 1)) (Fin (k + 1)) F} (hM : ∀ i j, M i j ≠ 0) (hM2 : ∀ i j, M.mulVec (fun l => M l j ^ e) i ≠ 0) (a b : Fin (k + 1))
    (full : ι → Bool) (c : ι → Fin (k + 1) → F) (l : List ι) :
    ∀ {d : Nat} {P : Fin (k + 1) → F[X]}, After M a d P → ∃ d' Q, d' + 1 ≤ e ^ l.length * (d + 1) ∧ After M a d' Q ∧
      ∀ m, l.foldl (fun x r => roundE e (entryM M a b m) (full r) (c r) x) (fun i => (P i).eval m) = fun i => (Q i).eval m := by
  induction l with
  | nil =>
    intro d P h
    exact ⟨d, P, by simp, h, fun m => rfl⟩
  | cons r l ih =>
    intro d P h
    have : ∃ d', d' ≤ e * d + 1 ∧ After M a d' (entryPoly e M a b (full r) (c r) P) := by
      cases full r with
      | true => exact full_after (by omega) hM hM2 a b (c r) h.pos h.lead
      | false => exact partial_after he hM a b (c r) h.wide
    obtain ⟨d1, h1, h2⟩ := this
    obtain ⟨d', Q, h3, h4, h5⟩ := ih h2
    refine ⟨d', Q, h3.trans ?_, h4, fun m => ?_⟩
    · rw [List.length_cons, pow_succ, mul_assoc]
      exact Nat.mul_le_mul_left _ (by nlinarith)
    · rw [← h5 m, entryPoly_eval, List.foldl_cons]

/-- The first round, from a state that does not depend on the entry. -/
theorem first_lead (M : Matrix (Fin (k + 1)) (Fin (k + 1)) F) (a b : Fin (k + 1)) (c x : Fin (k + 1) → F) (hx : x b + c b ≠ 0) :
    Lead M a 1 (entryPoly e M a b true c fun i => C (x i)) := by
  have hbox : Top 0 (boxPoly e true c fun i => C (x i)) fun j => (x j + c j) ^ e := by
    intro j
    rw [boxPoly, if_pos (show Active true _ from Or.inl rfl), ← C_add, ← C_pow]
    exact ⟨by rw [natDegree_C], coeff_C_zero⟩
  exact ⟨_, pow_ne_zero e hx, Or.inl (entry_high M a b hbox).1⟩

/-- Two full rounds at the start. -/
theorem start_after (he : 4 ≤ e) {M : Matrix (Fin (k + 1)) (Fin (k + 1)) F} (hM : ∀ i j, M i j ≠ 0) (hM2 : ∀ i j, M.mulVec (fun l => M l j ^ e) i ≠ 0) (a b : Fin (k + 1))
    (c c' x : Fin (k + 1) → F) (hx : x b + c b ≠ 0) :
    ∃ d P, d ≤ e + 1 ∧ After M a d P ∧ ∀ m, roundE e (entryM M a b m) true c' (roundE e (entryM M a b m) true c x) = fun i => (P i).eval m := by
  obtain ⟨d, h1, h2⟩ := full_after (by omega) hM hM2 a b c' (le_refl 1) (first_lead (e := e) M a b c x hx)
  refine ⟨d, _, by omega, h2, fun m => ?_⟩
  rw [entryPoly_eval, entryPoly_eval]
  simp only [eval_C]

/-! ## The partial rounds in optimized form, which do not read the matrix -/

/-- A partial round in optimized form on polynomials. -/
noncomputable def fixedPoly (e : Nat) (E : Matrix (Fin (k + 1)) (Fin (k + 1)) F) (κ : F) (P : Fin (k + 1) → F[X]) : Fin (k + 1) → F[X] :=
  fun i => ∑ j, C (E i j) * (if j = 0 then P 0 ^ e + C κ else P j)

theorem fixedPoly_eval (E : Matrix (Fin (k + 1)) (Fin (k + 1)) F) (κ : F) (P : Fin (k + 1) → F[X]) (m : F) :
    (fun i => (fixedPoly e E κ P i).eval m) = E.mulVec (s0E e (fun i => (P i).eval m) + Pi.single 0 κ) := by
  funext i
  rw [fixedPoly, eval_finsetSum, Matrix.mulVec, _root_.dotProduct]
  refine Finset.sum_congr rfl fun j _ => ?_
  rw [eval_mul, eval_C, Pi.add_apply, s0E]
  by_cases hj : j = 0
  · subst hj; simp
  · simp [hj]

theorem fixed_top (he : 4 ≤ e) (E : Matrix (Fin (k + 1)) (Fin (k + 1)) F) (κ : F) {d : Nat} {P : Fin (k + 1) → F[X]} (h : Wide d P) :
    ∃ (n : Nat) (u : F), 1 ≤ n ∧ n ≤ e * d ∧ u ≠ 0 ∧ Top n (fixedPoly e E κ P) (u • fun i => E i 0) := by
  obtain ⟨h1, h2⟩ := h
  set n := (P 0).natDegree with hn
  have hnd : n ≤ d := (h2 0).2
  have hen : e * n ≤ e * d := Nat.mul_le_mul_left _ hnd
  have h4n : 4 * n ≤ e * n := Nat.mul_le_mul_right _ he
  have hu : (P 0).coeff n ^ e ≠ 0 := by
    refine pow_ne_zero _ ?_
    rw [hn, coeff_natDegree, leadingCoeff_ne_zero]
    intro h0
    rw [h0, natDegree_zero] at hn
    omega
  have hbox : Top (e * n) (fun j : Fin (k + 1) => if j = 0 then P 0 ^ e + C κ else P j) ((P 0).coeff n ^ e • Pi.single 0 1) := by
    intro j
    by_cases hj : j = 0
    · subst hj
      dsimp only
      rw [if_pos rfl, Pi.smul_apply, Pi.single_eq_same, smul_eq_mul, mul_one]
      refine ⟨natDegree_add_le_of_degree_le (natDegree_pow_le_of_le e (le_refl _)) (by rw [natDegree_C]; omega), ?_⟩
      rw [coeff_add, coeff_pow_of_natDegree_le (le_refl _), coeff_C, if_neg (by omega), add_zero]
    · dsimp only
      rw [if_neg hj, Pi.smul_apply, Pi.single_eq_of_ne hj, smul_zero]
      have := (h2 j).1
      exact ⟨by omega, coeff_eq_zero_of_natDegree_lt (by omega)⟩
  refine ⟨e * n, _, by omega, hen, hu, fun i => ?_⟩
  obtain ⟨h3, h4⟩ := sum_top hbox (E i)
  refine ⟨h3, h4.trans ?_⟩
  have := congrFun (Matrix.mulVec_smul E ((P 0).coeff n ^ e) (Pi.single 0 1)) i
  rw [Matrix.mulVec_single_one] at this
  exact this

theorem top_wide {n : Nat} (hn : 1 ≤ n) {P : Fin (k + 1) → F[X]} {L : Fin (k + 1) → F} (h : Top n P L) (h0 : L 0 ≠ 0) : Wide n P := by
  have h1 : n ≤ (P 0).natDegree := le_natDegree_of_ne_zero (by rw [(h 0).2]; exact h0)
  exact ⟨hn.trans h1, fun i => ⟨(h i).1.trans (by omega), (h i).1⟩⟩

theorem midE_wide (he : 4 ≤ e) (E : Nat → Matrix (Fin (k + 1)) (Fin (k + 1)) F) (κ : Nat → F) (rp : Nat) (l : List Nat) (hE : ∀ r ∈ l, E (rp - r - 1) 0 0 ≠ 0) :
    ∀ {d : Nat} {P : Fin (k + 1) → F[X]}, 1 ≤ d → Wide d P → ∃ d' Q, 1 ≤ d' ∧ d' + 1 ≤ e ^ l.length * (d + 1) ∧ Wide d' Q ∧
      ∀ m, midE e E κ rp l (fun i => (P i).eval m) = fun i => (Q i).eval m := by
  induction l with
  | nil =>
    intro d P hd h
    exact ⟨d, P, hd, by simp, h, fun m => rfl⟩
  | cons r l ih =>
    intro d P hd h
    obtain ⟨n, u, h1, h2, h3, h4⟩ := fixed_top he (E (rp - r - 1)) (κ r) h
    have h5 := top_wide h1 h4 (by
      rw [Pi.smul_apply, smul_eq_mul]
      exact mul_ne_zero h3 (hE r List.mem_cons_self))
    obtain ⟨d', Q, h6, h7, h8, h9⟩ := ih (fun r' hr' => hE r' (List.mem_cons_of_mem _ hr')) h1 h5
    refine ⟨d', Q, h6, h7.trans ?_, h8, fun m => ?_⟩
    · rw [List.length_cons, pow_succ, mul_assoc]
      exact Nat.mul_le_mul_left _ (by nlinarith)
    · rw [← h9 m, fixedPoly_eval]
      rfl

/-- The matrix before the partial rounds. -/
theorem diag1_wide (A : Matrix (Fin k) (Fin k) F) (z : Fin (k + 1) → F) {d : Nat} {P : Fin (k + 1) → F[X]} (h : Wide d P) :
    ∃ Q, Wide d Q ∧ ∀ m, (diag1 A).mulVec ((fun i => (P i).eval m) + z) = fun i => (Q i).eval m := by
  refine ⟨Fin.cons (P 0 + C (z 0)) fun i => ∑ j, C (A i j) * (P j.succ + C (z j.succ)), ?_, fun m => ?_⟩
  · obtain ⟨h1, h2⟩ := h
    have h3 : (P 0 + C (z 0)).natDegree = (P 0).natDegree := natDegree_add_C
    refine ⟨by rw [Fin.cons_zero, h3]; exact h1, fun i => ?_⟩
    rw [Fin.cons_zero, h3]
    cases i using Fin.cases with
    | zero =>
      rw [Fin.cons_zero, h3]
      exact h2 0
    | succ i =>
      rw [Fin.cons_succ]
      have h4 : ∀ n, (∀ j : Fin (k + 1), (P j).natDegree ≤ n) → (∑ j, C (A i j) * (P j.succ + C (z j.succ))).natDegree ≤ n := fun n hn =>
        natDegree_sum_le_of_forall_le _ _ fun j _ => (natDegree_C_mul_le _ _).trans (by rw [natDegree_add_C]; exact hn _)
      exact ⟨h4 _ fun j => (h2 j).1, h4 _ fun j => (h2 j).2⟩
  · funext i
    cases i using Fin.cases with
    | zero => rw [diag1_zero, Fin.cons_zero]; simp
    | succ i =>
      rw [diag1_succ, Fin.cons_succ, Matrix.mulVec, _root_.dotProduct, eval_finsetSum]
      refine Finset.sum_congr rfl fun j _ => ?_
      simp

end Poseidon
