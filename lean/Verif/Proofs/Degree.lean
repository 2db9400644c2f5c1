import Verif.Proofs.Eval377
import Mathlib.Algebra.Polynomial.BigOperators
import Mathlib.Algebra.Polynomial.Degree.Lemmas
import Mathlib.Algebra.Polynomial.Eval.Degree

/-!
# The permutation as a polynomial in one word

If the words of the state are polynomials of degree at most `d` with coefficients `L i` at `X^d`, one round makes them polynomials of degree
at most `d * e` whose coefficients at `X^(d * e)` are `M` times the `e`-th powers of the active `L i`.
-/

namespace Poseidon

open Matrix Polynomial

variable {F : Type} [Field F] {t e : Nat}

/-- A textbook round on polynomials -/
noncomputable def polyRound (e : Nat) (M : Matrix (Fin t) (Fin t) F) (full : Bool) (c : Fin t → F) (P : Fin t → F[X]) : Fin t → F[X] :=
  fun i => ∑ j, C (M i j) * (if Active full j then (P j + C (c j)) ^ e else P j + C (c j))

/-- The leading coefficients after a round -/
def leadRound (e : Nat) (M : Matrix (Fin t) (Fin t) F) (full : Bool) (L : Fin t → F) : Fin t → F :=
  M.mulVec fun i => if Active full i then L i ^ e else 0

/-- Degrees at most `d`, coefficients `L` at `X^d` -/
def Top (d : Nat) (P : Fin t → F[X]) (L : Fin t → F) : Prop := ∀ i, (P i).natDegree ≤ d ∧ (P i).coeff d = L i

theorem polyRound_eval (M : Matrix (Fin t) (Fin t) F) (full : Bool) (c : Fin t → F) (P : Fin t → F[X]) (z : F) :
    (fun i => (polyRound e M full c P i).eval z) = roundE e M full c (fun i => (P i).eval z) := by
  funext i
  rw [polyRound, eval_finsetSum, roundE, Matrix.mulVec, _root_.dotProduct]
  refine Finset.sum_congr rfl fun j _ => ?_
  rw [eval_mul, eval_C]
  split_ifs <;> simp

theorem polyRound_top {M : Matrix (Fin t) (Fin t) F} {full : Bool} {c : Fin t → F} {P : Fin t → F[X]} {L : Fin t → F} {d : Nat}
    (hd : 1 ≤ d) (he : 2 ≤ e) (h : Top d P L) : Top (d * e) (polyRound e M full c P) (leadRound e M full L) := by
  have hw : ∀ j, ((if Active full j then (P j + C (c j)) ^ e else P j + C (c j)) : F[X]).natDegree ≤ d * e ∧
      ((if Active full j then (P j + C (c j)) ^ e else P j + C (c j)) : F[X]).coeff (d * e) = if Active full j then L j ^ e else 0 := by
    intro j
    have h1 : (P j + C (c j)).natDegree ≤ d := natDegree_add_le_of_degree_le (h j).1 (by rw [natDegree_C]; omega)
    split_ifs with ha
    · refine ⟨?_, ?_⟩
      · rw [Nat.mul_comm]; exact natDegree_pow_le_of_le e h1
      · rw [Nat.mul_comm, coeff_pow_of_natDegree_le h1, coeff_add, (h j).2, coeff_C, if_neg (by omega), add_zero]
    · have h2 : d < d * e := by nlinarith
      exact ⟨h1.trans h2.le, coeff_eq_zero_of_natDegree_lt (lt_of_le_of_lt h1 h2)⟩
  intro i
  refine ⟨?_, ?_⟩
  · rw [polyRound]
    refine natDegree_sum_le_of_forall_le _ _ fun j _ => ?_
    exact (natDegree_C_mul_le _ _).trans (hw j).1
  · rw [polyRound, finsetSum_coeff, leadRound, Matrix.mulVec, _root_.dotProduct]
    refine Finset.sum_congr rfl fun j _ => ?_
    rw [coeff_C_mul, (hw j).2]

/-- The leading coefficients after a list of rounds -/
def leadRounds (e : Nat) (M : Matrix (Fin t) (Fin t) F) (fulls : List Bool) (L : Fin t → F) : Fin t → F :=
  fulls.foldl (fun L full => leadRound e M full L) L

theorem rounds_poly {ι : Type} (M : Matrix (Fin t) (Fin t) F) (full : ι → Bool) (c : ι → Fin t → F) (he : 2 ≤ e) (l : List ι)
    {P : Fin t → F[X]} {L : Fin t → F} {d : Nat} (hd : 1 ≤ d) (h : Top d P L) :
    ∃ Q : Fin t → F[X], Top (d * e ^ l.length) Q (leadRounds e M (l.map full) L) ∧
      ∀ z, (fun i => (Q i).eval z) = l.foldl (fun x r => roundE e M (full r) (c r) x) (fun i => (P i).eval z) := by
  induction l generalizing P L d with
  | nil => exact ⟨P, by simpa [leadRounds] using h, fun z => rfl⟩
  | cons r l ih =>
    obtain ⟨Q, h1, h2⟩ := ih (d := d * e) (by nlinarith) (polyRound_top (M := M) (full := full r) (c := c r) hd he h)
    refine ⟨Q, ?_, ?_⟩
    · rw [List.length_cons, pow_succ', ← mul_assoc]
      exact h1
    · intro z
      rw [h2 z, List.foldl_cons, polyRound_eval]

/-- Word `j` as the variable, the other words fixed -/
noncomputable def varWord (x : Fin t → F) (j : Fin t) : Fin t → F[X] := fun i => if i = j then X else C (x i)

theorem varWord_eval (x : Fin t → F) (j : Fin t) (z : F) : (fun i => (varWord x j i).eval z) = Function.update x j z := by
  funext i
  rw [varWord, Function.update_apply]
  split_ifs <;> simp

theorem varWord_top (x : Fin t → F) (j : Fin t) : Top 1 (varWord x j) (Pi.single j 1) := by
  intro i
  rw [varWord, Pi.single_apply]
  split_ifs with h
  · exact ⟨natDegree_X_le, coeff_X_one⟩
  · exact ⟨by rw [natDegree_C]; omega, by rw [coeff_C, if_neg (by omega)]⟩

/-- The flags of the rounds -/
def fullFlags (rf rp : Nat) : List Bool := (List.finRange (rf + rp + rf)).map fun r => decide (r.val < rf ∨ rf + rp ≤ r.val)

/-- The permutation with word `j` variable: polynomials of degree at most `e^(2 rf + rp)`, with known leading coefficients. -/
theorem permE_poly (M : Matrix (Fin t) (Fin t) F) {rf rp : Nat} (C : Fin (rf + rp + rf) → Fin t → F) (he : 2 ≤ e) (x : Fin t → F) (j : Fin t) :
    ∃ Q : Fin t → F[X], Top (e ^ (rf + rp + rf)) Q (leadRounds e M (fullFlags rf rp) (Pi.single j 1)) ∧
      ∀ z, permE e M rf rp C (Function.update x j z) = fun i => (Q i).eval z := by
  obtain ⟨Q, h1, h2⟩ := rounds_poly M (fun r : Fin (rf + rp + rf) => decide (r.val < rf ∨ rf + rp ≤ r.val)) C he
    (List.finRange (rf + rp + rf)) (le_refl 1) (varWord_top x j)
  refine ⟨Q, ?_, fun z => ?_⟩
  · rw [List.length_finRange, one_mul] at h1
    exact h1
  · rw [h2 z, permE, varWord_eval]

/-! ## Leading coefficients on naturals -/

/-- `leadRound` with exponent 17 on naturals -/
def leadN (t : Nat) (m : List Nat) (full : Bool) (x : List Nat) : List Nat :=
  forceL (tabN t fun i => bif full || Nat.beq i 0 then pow17N (nth x i) else 0) fun y =>
    forceL (tabN t fun i => sumN t (fun j => ent t m i j * nth y j) % q) fun z => z

theorem leadN_cast (t : Nat) (m : List Nat) (full : Bool) (x : List Nat) :
    natV t (leadN t m full x) = leadRound 17 (natM t t m) full (natV t x) := by
  rw [leadN, forceL_eq, forceL_eq, leadRound]
  funext i
  rw [natV, nth_tabN _ i.isLt, cast_mod, sumN_cast, Matrix.mulVec, _root_.dotProduct]
  apply Finset.sum_congr rfl
  intro j _
  rw [nth_tabN _ j.isLt, Nat.cast_mul, natM, Matrix.of_apply]
  congr 1
  by_cases h : Active full j
  · rw [if_pos h]
    have : (full || Nat.beq j.val 0) = true := by
      rcases h with h | h
      · rw [h]; rfl
      · rw [h]; simp
    rw [this, cond_true, pow17N_cast]
    simp [natV]
  · rw [if_neg h]
    have : (full || Nat.beq j.val 0) = false := by
      have h1 : ¬ full = true := fun hh => h (Or.inl hh)
      have h2 : ¬ j.val = 0 := fun hh => h (Or.inr hh)
      have h3 : Nat.beq j.val 0 = false := Bool.eq_false_iff.2 fun hh => h2 (Nat.eq_of_beq_eq_true hh)
      rw [Bool.eq_false_iff.2 h1, h3]; rfl
    rw [this, cond_false, Nat.cast_zero]

/-- No leading coefficient vanishes, for any word as variable. -/
def checkLead (t : Nat) (m : List Nat) (fulls : List Bool) : Bool :=
  allN t fun j => forceL (fulls.foldl (fun L full => leadN t m full L) (tabN t fun i => bif Nat.beq i j then 1 else 0)) fun L =>
    allN t fun i => !Nat.beq (nth L i % q) 0

theorem leadRounds_cast {t : Nat} {m : List Nat} (fulls : List Bool) (L : List Nat) :
    leadRounds 17 (natM t t m) fulls (natV t L) = natV t (fulls.foldl (fun L full => leadN t m full L) L) := by
  induction fulls generalizing L with
  | nil => rfl
  | cons b l ih =>
    rw [List.foldl_cons, ← ih, leadN_cast]
    rfl

theorem checkLead_spec {t : Nat} {m : List Nat} {fulls : List Bool} (h : checkLead t m fulls = true) (i j : Fin t) :
    leadRounds 17 (natM t t m) fulls (Pi.single j 1) i ≠ 0 := by
  have h1 := allN_iff.1 h j j.isLt
  rw [forceL_eq] at h1
  have h2 := allN_iff.1 h1 i i.isLt
  have hc := leadRounds_cast (m := m) (t := t) fulls
  have h0 : (Pi.single j 1 : Fin t → Fq) = natV t (tabN t fun i => bif Nat.beq i j then 1 else 0) := by
    funext a
    rw [natV, nth_tabN _ a.isLt, Pi.single_apply]
    by_cases ha : a = j
    · rw [if_pos ha, ha, show Nat.beq j.val j.val = true from Nat.beq_refl _, cond_true, Nat.cast_one]
    · rw [if_neg ha, show Nat.beq a.val j.val = false from Bool.eq_false_iff.2 fun hh => ha (Fin.ext (Nat.eq_of_beq_eq_true hh)),
        cond_false, Nat.cast_zero]
  rw [h0, hc, natV]
  intro h3
  rw [← cast_mod] at h3
  have h4 := (ZMod.natCast_eq_zero_iff _ q).1 h3
  rw [Nat.dvd_iff_mod_eq_zero, Nat.mod_mod] at h4
  rw [h4] at h2
  exact absurd h2 (by decide)

/-! ## Differences of two such polynomials -/

section
variable {F : Type} [Field F] {t e : Nat}

/-- The leading coefficients of a difference after a round; `L` are the common leading coefficients before it. -/
def deltaRound (e : Nat) (M : Matrix (Fin t) (Fin t) F) (full : Bool) (L D : Fin t → F) : Fin t → F :=
  M.mulVec fun i => if Active full i then D i * (e * L i ^ (e - 1)) else 0

theorem pow_sub_top {A B : F[X]} {d δ : Nat} {l lam : F} (hA : A.natDegree ≤ d ∧ A.coeff d = l) (hB : B.natDegree ≤ d ∧ B.coeff d = l)
    (hD : (A - B).natDegree ≤ δ ∧ (A - B).coeff δ = lam) :
    (A ^ e - B ^ e).natDegree ≤ δ + d * (e - 1) ∧ (A ^ e - B ^ e).coeff (δ + d * (e - 1)) = lam * (e * l ^ (e - 1)) := by
  have hS : (∑ a ∈ Finset.range e, A ^ a * B ^ (e - 1 - a)).natDegree ≤ d * (e - 1) ∧
      (∑ a ∈ Finset.range e, A ^ a * B ^ (e - 1 - a)).coeff (d * (e - 1)) = e * l ^ (e - 1) := by
    have hterm : ∀ a ∈ Finset.range e, (A ^ a * B ^ (e - 1 - a)).natDegree ≤ d * (e - 1) ∧
        (A ^ a * B ^ (e - 1 - a)).coeff (d * (e - 1)) = l ^ (e - 1) := by
      intro a ha
      rw [Finset.mem_range] at ha
      have h1 : (A ^ a).natDegree ≤ a * d := natDegree_pow_le_of_le a hA.1
      have h2 : (B ^ (e - 1 - a)).natDegree ≤ (e - 1 - a) * d := natDegree_pow_le_of_le _ hB.1
      have h3 : d * (e - 1) = a * d + (e - 1 - a) * d := by
        rw [← Nat.add_mul, Nat.mul_comm]; congr 1; omega
      rw [h3]
      refine ⟨natDegree_mul_le_of_le h1 h2, ?_⟩
      rw [coeff_mul_add_eq_of_natDegree_le h1 h2, coeff_pow_of_natDegree_le hA.1, coeff_pow_of_natDegree_le hB.1, hA.2, hB.2, ← pow_add]
      congr 1; omega
    refine ⟨natDegree_sum_le_of_forall_le _ _ fun a ha => (hterm a ha).1, ?_⟩
    rw [finsetSum_coeff, Finset.sum_congr rfl fun a ha => (hterm a ha).2, Finset.sum_const, Finset.card_range, nsmul_eq_mul]
  have hm : A ^ e - B ^ e = (A - B) * ∑ a ∈ Finset.range e, A ^ a * B ^ (e - 1 - a) := by
    rw [mul_comm, ← (Commute.all A B).geom_sum₂_mul e]
  rw [hm]
  refine ⟨natDegree_mul_le_of_le hD.1 hS.1, ?_⟩
  rw [coeff_mul_add_eq_of_natDegree_le hD.1 hS.1, hD.2, hS.2]

theorem polyRound_delta {M : Matrix (Fin t) (Fin t) F} {full : Bool} {c : Fin t → F} {P P' : Fin t → F[X]} {L D : Fin t → F} {d δ : Nat}
    (hd : 1 ≤ d) (he : 2 ≤ e) (h : Top d P L) (h' : Top d P' L) (hD : Top δ (fun i => P i - P' i) D) :
    Top (δ + d * (e - 1)) (fun i => polyRound e M full c P i - polyRound e M full c P' i) (deltaRound e M full L D) := by
  have hC : ∀ (P : Fin t → F[X]), Top d P L → ∀ j, (P j + C (c j)).natDegree ≤ d ∧ (P j + C (c j)).coeff d = L j := by
    intro P h j
    refine ⟨natDegree_add_le_of_degree_le (h j).1 (by rw [natDegree_C]; omega), ?_⟩
    rw [coeff_add, (h j).2, coeff_C, if_neg (by omega), add_zero]
  have hw : ∀ j, ((if Active full j then (P j + C (c j)) ^ e else P j + C (c j)) -
        (if Active full j then (P' j + C (c j)) ^ e else P' j + C (c j)) : F[X]).natDegree ≤ δ + d * (e - 1) ∧
      ((if Active full j then (P j + C (c j)) ^ e else P j + C (c j)) -
        (if Active full j then (P' j + C (c j)) ^ e else P' j + C (c j)) : F[X]).coeff (δ + d * (e - 1)) =
        if Active full j then D j * (e * L j ^ (e - 1)) else 0 := by
    intro j
    have hs : P j + C (c j) - (P' j + C (c j)) = P j - P' j := by ring
    split_ifs with ha
    · exact pow_sub_top (hC P h j) (hC P' h' j) (by rw [hs]; exact hD j)
    · rw [hs]
      have h2 : δ < δ + d * (e - 1) := by
        have : 1 ≤ d * (e - 1) := Nat.mul_pos hd (by omega)
        omega
      exact ⟨(hD j).1.trans h2.le, coeff_eq_zero_of_natDegree_lt (lt_of_le_of_lt (hD j).1 h2)⟩
  have hsub : ∀ i, polyRound e M full c P i - polyRound e M full c P' i = ∑ j, C (M i j) *
      ((if Active full j then (P j + C (c j)) ^ e else P j + C (c j)) - (if Active full j then (P' j + C (c j)) ^ e else P' j + C (c j))) := by
    intro i
    rw [polyRound, polyRound, ← Finset.sum_sub_distrib]
    exact Finset.sum_congr rfl fun j _ => (mul_sub _ _ _).symm
  intro i
  show (polyRound e M full c P i - polyRound e M full c P' i).natDegree ≤ _ ∧ (polyRound e M full c P i - polyRound e M full c P' i).coeff _ = _
  rw [hsub i]
  refine ⟨natDegree_sum_le_of_forall_le _ _ fun j _ => (natDegree_C_mul_le _ _).trans (hw j).1, ?_⟩
  rw [finsetSum_coeff, deltaRound, Matrix.mulVec, _root_.dotProduct]
  refine Finset.sum_congr rfl fun j _ => ?_
  rw [coeff_C_mul, (hw j).2]

/-- The leading coefficients of the difference after a list of rounds -/
def deltaRounds (e : Nat) (M : Matrix (Fin t) (Fin t) F) : List Bool → (Fin t → F) → (Fin t → F) → (Fin t → F)
  | [], _, D => D
  | full :: l, L, D => deltaRounds e M l (leadRound e M full L) (deltaRound e M full L D)

theorem deltaRounds_smul (M : Matrix (Fin t) (Fin t) F) (l : List Bool) (L D : Fin t → F) (w : F) :
    deltaRounds e M l L (w • D) = w • deltaRounds e M l L D := by
  induction l generalizing L D with
  | nil => rfl
  | cons full l ih =>
    rw [deltaRounds, deltaRounds, ← ih]
    congr 1
    rw [deltaRound, deltaRound, ← Matrix.mulVec_smul]
    congr 1
    funext i
    rw [Pi.smul_apply, Pi.smul_apply, smul_eq_mul, smul_eq_mul]
    split_ifs
    · ring
    · rw [mul_zero]

theorem rounds_delta {ι : Type} (M : Matrix (Fin t) (Fin t) F) (full : ι → Bool) (c : ι → Fin t → F) (he : 2 ≤ e) (l : List ι)
    {P P' : Fin t → F[X]} {L D : Fin t → F} {d δ : Nat} (hd : 1 ≤ d) (h : Top d P L) (h' : Top d P' L)
    (hD : Top δ (fun i => P i - P' i) D) :
    ∃ Q Q' : Fin t → F[X], Top (δ + (d * e ^ l.length - d)) (fun i => Q i - Q' i) (deltaRounds e M (l.map full) L D) ∧
      (∀ z, (fun i => (Q i).eval z) = l.foldl (fun x r => roundE e M (full r) (c r) x) (fun i => (P i).eval z)) ∧
      ∀ z, (fun i => (Q' i).eval z) = l.foldl (fun x r => roundE e M (full r) (c r) x) (fun i => (P' i).eval z) := by
  induction l generalizing P P' L D d δ with
  | nil =>
    refine ⟨P, P', ?_, fun z => rfl, fun z => rfl⟩
    rw [List.length_nil, pow_zero, mul_one, Nat.sub_self, Nat.add_zero]
    exact hD
  | cons r l ih =>
    obtain ⟨Q, Q', h1, h2, h3⟩ := ih (d := d * e) (by nlinarith) (polyRound_top (M := M) (full := full r) (c := c r) hd he h)
      (polyRound_top (M := M) (full := full r) (c := c r) hd he h') (polyRound_delta (M := M) (full := full r) (c := c r) hd he h h' hD)
    refine ⟨Q, Q', ?_, fun z => ?_, fun z => ?_⟩
    · have hdeg : δ + d * (e - 1) + (d * e * e ^ l.length - d * e) = δ + (d * e ^ (r :: l).length - d) := by
        rw [List.length_cons, pow_succ', ← mul_assoc]
        have h4 : d * e ≤ d * e * e ^ l.length := Nat.le_mul_of_pos_right _ (Nat.pow_pos (by omega))
        have h5 : d * (e - 1) + d = d * e := by
          obtain ⟨e', rfl⟩ : ∃ e', e = e' + 1 := ⟨e - 1, by omega⟩
          rw [Nat.add_sub_cancel]; ring
        omega
      rw [hdeg] at h1
      exact h1
    · rw [h2 z, List.foldl_cons, polyRound_eval]
    · rw [h3 z, List.foldl_cons, polyRound_eval]

theorem firstRound_delta (M : Matrix (Fin t) (Fin t) F) (c : Fin t → F) {x x' : Fin t → F} {i j : Fin t} (hij : i ≠ j)
    (hx : ∀ a, a ≠ i → x a = x' a) :
    Top 0 (fun a => polyRound e M true c (varWord x j) a - polyRound e M true c (varWord x' j) a)
      (((x i + c i) ^ e - (x' i + c i) ^ e) • fun a => M a i) := by
  have hA : ∀ b : Fin t, Active true b := fun b => Or.inl rfl
  have h : ∀ a, polyRound e M true c (varWord x j) a - polyRound e M true c (varWord x' j) a =
      C (((x i + c i) ^ e - (x' i + c i) ^ e) * M a i) := by
    intro a
    rw [polyRound, polyRound, ← Finset.sum_sub_distrib, Finset.sum_eq_single i]
    · rw [if_pos (hA i), if_pos (hA i), varWord, varWord, if_neg hij, if_neg hij, ← mul_sub, ← C_add, ← C_add, ← C_pow, ← C_pow,
        ← C_sub, ← C_mul, mul_comm]
    · intro b _ hb
      rw [if_pos (hA b), if_pos (hA b), varWord, varWord, hx b hb, sub_self]
    · intro h; exact absurd (Finset.mem_univ i) h
  intro a
  refine ⟨?_, ?_⟩
  · exact (congrArg natDegree (h a)).le.trans (natDegree_C _).le
  · exact (congrArg (fun f => coeff f 0) (h a)).trans (coeff_C_zero)

/-- Word `j` variable, word `i` with two different values: the difference of the outputs. -/
theorem permE_delta (M : Matrix (Fin t) (Fin t) F) {rf rp : Nat} (hrf : 1 ≤ rf) (C : Fin (rf + rp + rf) → Fin t → F) (he : 2 ≤ e)
    {x x' : Fin t → F} {i j : Fin t} (hij : i ≠ j) (hx : ∀ a, a ≠ i → x a = x' a) :
    ∃ (w : F) (Q Q' : Fin t → F[X]),
      w = (x i + C ⟨0, by omega⟩ i) ^ e - (x' i + C ⟨0, by omega⟩ i) ^ e ∧
      Top (e ^ (rf + rp + rf) - e) (fun a => Q a - Q' a)
        (w • deltaRounds e M (fullFlags rf rp).tail (leadRound e M true (Pi.single j 1)) fun a => M a i) ∧
      (∀ z, permE e M rf rp C (Function.update x j z) = fun a => (Q a).eval z) ∧
      ∀ z, permE e M rf rp C (Function.update x' j z) = fun a => (Q' a).eval z := by
  obtain ⟨n, hn⟩ : ∃ n, rf + rp + rf = n + 1 := ⟨rf + rp + rf - 1, by omega⟩
  have hl : List.finRange (rf + rp + rf) = ⟨0, by omega⟩ :: (List.finRange n).map fun r => ⟨r.val + 1, by omega⟩ := by
    apply List.ext_getElem
    · simp [hn]
    · intro a h1 h2
      cases a with
      | zero => simp
      | succ a => simp
  have h0 : decide ((0 : Nat) < rf ∨ rf + rp ≤ 0) = true := decide_eq_true (Or.inl hrf)
  obtain ⟨Q, Q', h1, h2, h3⟩ := rounds_delta M (fun r : Fin (rf + rp + rf) => decide (r.val < rf ∨ rf + rp ≤ r.val)) C he
    ((List.finRange n).map fun r => (⟨r.val + 1, by omega⟩ : Fin (rf + rp + rf))) (d := 1 * e) (by omega)
    (polyRound_top (M := M) (full := true) (c := C ⟨0, by omega⟩) (le_refl 1) he (varWord_top x j))
    (polyRound_top (M := M) (full := true) (c := C ⟨0, by omega⟩) (le_refl 1) he (varWord_top x' j))
    (firstRound_delta M (C ⟨0, by omega⟩) hij hx)
  refine ⟨_, Q, Q', rfl, ?_, fun z => ?_, fun z => ?_⟩
  · rw [List.length_map, List.length_finRange, Nat.zero_add, one_mul, ← pow_succ', ← hn, deltaRounds_smul] at h1
    have hf : (fullFlags rf rp).tail = ((List.finRange n).map fun r => (⟨r.val + 1, by omega⟩ : Fin (rf + rp + rf))).map
        fun r => decide (r.val < rf ∨ rf + rp ≤ r.val) := by
      rw [fullFlags, hl, List.map_cons, List.tail_cons]
    rw [hf]
    exact h1
  · rw [h2 z, permE, hl, List.foldl_cons, polyRound_eval, varWord_eval, h0]
  · rw [h3 z, permE, hl, List.foldl_cons, polyRound_eval, varWord_eval, h0]

end

/-! ## Differences on naturals -/

/-- `a ^ 16` modulo `q` -/
def pow16N (a : Nat) : Nat :=
  force a fun a => force (a * a % q) fun a2 => force (a2 * a2 % q) fun a4 => force (a4 * a4 % q) fun a8 => a8 * a8 % q

theorem pow16N_cast (a : Nat) : ((pow16N a : Nat) : Fq) = (a : Fq) ^ 16 := by
  simp only [pow16N, force_eq, cast_mod, Nat.cast_mul]
  ring

/-- `deltaRound` with exponent 17 on naturals -/
def deltaN (t : Nat) (m : List Nat) (full : Bool) (x d : List Nat) : List Nat :=
  forceL (tabN t fun i => bif full || Nat.beq i 0 then nth d i * (17 * pow16N (nth x i)) else 0) fun y =>
    forceL (tabN t fun i => sumN t (fun j => ent t m i j * nth y j) % q) fun z => z

theorem active_iff {t : Nat} (full : Bool) (j : Fin t) : (full || Nat.beq j.val 0) = decide (Active full j) := by
  rw [Bool.eq_iff_iff, decide_eq_true_iff, Bool.or_eq_true, Active, Nat.beq_eq]

theorem deltaN_cast (t : Nat) (m : List Nat) (full : Bool) (x d : List Nat) :
    natV t (deltaN t m full x d) = deltaRound 17 (natM t t m) full (natV t x) (natV t d) := by
  rw [deltaN, forceL_eq, forceL_eq, deltaRound]
  funext i
  rw [natV, nth_tabN _ i.isLt, cast_mod, sumN_cast, Matrix.mulVec, _root_.dotProduct]
  apply Finset.sum_congr rfl
  intro j _
  rw [nth_tabN _ j.isLt, Nat.cast_mul, natM, Matrix.of_apply, active_iff]
  congr 1
  by_cases h : Active full j
  · rw [if_pos h, decide_eq_true h, cond_true, Nat.cast_mul, Nat.cast_mul, pow16N_cast]
    rfl
  · rw [if_neg h, decide_eq_false h, cond_false, Nat.cast_zero]

/-- `deltaRounds` on naturals -/
def deltasN (t : Nat) (m : List Nat) : List Bool → List Nat → List Nat → List Nat
  | [], _, d => d
  | full :: l, x, d => forceL (leadN t m full x) fun x' => forceL (deltaN t m full x d) fun d' => deltasN t m l x' d'

theorem deltasN_cast (t : Nat) (m : List Nat) (l : List Bool) (x d : List Nat) :
    natV t (deltasN t m l x d) = deltaRounds 17 (natM t t m) l (natV t x) (natV t d) := by
  induction l generalizing x d with
  | nil => rfl
  | cons full l ih => rw [deltasN, forceL_eq, forceL_eq, ih, deltaRounds, leadN_cast, deltaN_cast]

/-- The unit vector -/
def unitN (t j : Nat) : List Nat := tabN t fun i => bif Nat.beq i j then 1 else 0

theorem unitN_cast {t : Nat} (j : Fin t) : natV t (unitN t j) = Pi.single j 1 := by
  funext a
  rw [natV, unitN, nth_tabN _ a.isLt, Pi.single_apply]
  by_cases ha : a = j
  · rw [if_pos ha, ha, show Nat.beq j.val j.val = true from Nat.beq_refl _, cond_true, Nat.cast_one]
  · rw [if_neg ha, show Nat.beq a.val j.val = false from Bool.eq_false_iff.2 fun hh => ha (Fin.ext (Nat.eq_of_beq_eq_true hh)),
      cond_false, Nat.cast_zero]

/-- No leading coefficient of a difference vanishes, for any two different words. -/
def checkDelta (t : Nat) (m : List Nat) (fulls : List Bool) : Bool :=
  allN t fun j => allN t fun i => Nat.beq i j ||
    forceL (leadN t m true (unitN t j)) fun L => forceL (tabN t fun a => ent t m a i) fun D =>
      forceL (deltasN t m fulls L D) fun R => allN t fun a => !Nat.beq (nth R a % q) 0

theorem checkDelta_spec {t : Nat} {m : List Nat} {fulls : List Bool} (h : checkDelta t m fulls = true) (a i j : Fin t) (hij : i ≠ j) :
    deltaRounds 17 (natM t t m) fulls (leadRound 17 (natM t t m) true (Pi.single j 1)) (fun a => natM t t m a i) a ≠ 0 := by
  have h1 := allN_iff.1 (allN_iff.1 h j j.isLt) i i.isLt
  rw [Bool.or_eq_true] at h1
  rcases h1 with h1 | h1
  · exact absurd (Fin.ext (Nat.eq_of_beq_eq_true h1)) hij
  rw [forceL_eq, forceL_eq, forceL_eq] at h1
  have h2 := allN_iff.1 h1 a a.isLt
  have hD : natV t (tabN t fun a => ent t m a i) = fun a => natM t t m a i := by
    funext a
    rw [natV, nth_tabN _ a.isLt]; rfl
  rw [← hD, ← unitN_cast, ← leadN_cast, ← deltasN_cast, natV]
  intro h3
  rw [← cast_mod] at h3
  have h4 := (ZMod.natCast_eq_zero_iff _ q).1 h3
  rw [Nat.dvd_iff_mod_eq_zero, Nat.mod_mod] at h4
  rw [h4] at h2
  exact absurd h2 (by decide)

end Poseidon
