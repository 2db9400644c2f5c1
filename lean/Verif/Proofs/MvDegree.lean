import Verif.Props.Degree
import Mathlib.Algebra.MvPolynomial.SchwartzZippel
import Mathlib.Algebra.MvPolynomial.NoZeroDivisors
import Mathlib.FieldTheory.ChevalleyWarning
import Mathlib.RingTheory.Polynomial.Basic

/-!
# The permutation as a polynomial in many words

If the words of the state are polynomials of total degree at most `d` in any variables, one round makes them polynomials of total degree at
most `d * e`.
-/

namespace Poseidon

open MvPolynomial

variable {F : Type} [Field F] {t e : Nat} {σ : Type}

/-- A textbook round on polynomials in many variables -/
noncomputable def mvRound (e : Nat) (M : Matrix (Fin t) (Fin t) F) (full : Bool) (c : Fin t → F) (P : Fin t → MvPolynomial σ F) :
    Fin t → MvPolynomial σ F :=
  fun i => ∑ j, C (M i j) * (if Active full j then (P j + C (c j)) ^ e else P j + C (c j))

theorem mvRound_eval (M : Matrix (Fin t) (Fin t) F) (full : Bool) (c : Fin t → F) (P : Fin t → MvPolynomial σ F) (u : σ → F) :
    (fun i => eval u (mvRound e M full c P i)) = roundE e M full c (fun i => eval u (P i)) := by
  funext i
  rw [mvRound, map_sum, roundE, Matrix.mulVec, _root_.dotProduct]
  refine Finset.sum_congr rfl fun j _ => ?_
  rw [map_mul, eval_C]
  split_ifs <;> simp

theorem mvRound_degree {M : Matrix (Fin t) (Fin t) F} {full : Bool} {c : Fin t → F} {P : Fin t → MvPolynomial σ F} {d : Nat} (he : 1 ≤ e)
    (h : ∀ i, (P i).totalDegree ≤ d) (i : Fin t) : (mvRound e M full c P i).totalDegree ≤ d * e := by
  refine totalDegree_finsetSum_le fun j _ => ?_
  refine (totalDegree_mul _ _).trans ?_
  rw [totalDegree_C, zero_add]
  have h1 : (P j + C (c j)).totalDegree ≤ d := (totalDegree_add _ _).trans (by rw [totalDegree_C]; exact max_le (h j) (Nat.zero_le _))
  split_ifs
  · refine (totalDegree_pow _ _).trans ?_
    rw [Nat.mul_comm]
    exact Nat.mul_le_mul_right e h1
  · exact h1.trans (Nat.le_mul_of_pos_right d he)

theorem rounds_mv {ι : Type} (M : Matrix (Fin t) (Fin t) F) (full : ι → Bool) (c : ι → Fin t → F) (he : 1 ≤ e) (l : List ι)
    {P : Fin t → MvPolynomial σ F} {d : Nat} (h : ∀ i, (P i).totalDegree ≤ d) :
    ∃ Q : Fin t → MvPolynomial σ F, (∀ i, (Q i).totalDegree ≤ d * e ^ l.length) ∧
      ∀ u, (fun i => eval u (Q i)) = l.foldl (fun x r => roundE e M (full r) (c r) x) (fun i => eval u (P i)) := by
  induction l generalizing P d with
  | nil => exact ⟨P, by simpa using h, fun z => rfl⟩
  | cons r l ih =>
    obtain ⟨Q, h1, h2⟩ := ih (d := d * e) (mvRound_degree (M := M) (full := full r) (c := c r) he h)
    refine ⟨Q, ?_, ?_⟩
    · rw [List.length_cons, pow_succ', ← mul_assoc]
      exact h1
    · intro z
      rw [h2 z, List.foldl_cons, mvRound_eval]

/-- The permutation on words that are polynomials of total degree at most `m` -/
theorem permE_mv (M : Matrix (Fin t) (Fin t) F) {rf rp : Nat} (C : Fin (rf + rp + rf) → Fin t → F) (he : 1 ≤ e)
    {P : Fin t → MvPolynomial σ F} {m : Nat} (h : ∀ i, (P i).totalDegree ≤ m) :
    ∃ Q : Fin t → MvPolynomial σ F, (∀ i, (Q i).totalDegree ≤ m * e ^ (rf + rp + rf)) ∧
      ∀ u, permE e M rf rp C (fun i => eval u (P i)) = fun i => eval u (Q i) := by
  obtain ⟨Q, h1, h2⟩ := rounds_mv M (fun r : Fin (rf + rp + rf) => decide (r.val < rf ∨ rf + rp ≤ r.val)) C he
    (List.finRange (rf + rp + rf)) h
  refine ⟨Q, ?_, fun u => ?_⟩
  · rw [List.length_finRange] at h1
    exact h1
  · rw [h2 u, permE]

/-! ## Sums and relations -/

/-- A product of `P` with a polynomial in polynomials of total degree at most `D` has sum zero. -/
theorem sum_mul_eval {K : Type} [Field K] [Fintype K] [Fintype σ] [DecidableEq σ] {n : Nat} {P : MvPolynomial σ K} {Q : MvPolynomial (Fin n) K}
    {g : Fin n → MvPolynomial σ K} {D : Nat} (hg : ∀ a, (g a).totalDegree ≤ D)
    (h : P.totalDegree + Q.totalDegree * D < (Fintype.card K - 1) * Fintype.card σ) :
    ∑ u : σ → K, eval u P * eval (fun a => eval u (g a)) Q = 0 := by
  classical
  have h1 : (P * aeval g Q).totalDegree < (Fintype.card K - 1) * Fintype.card σ := by
    refine lt_of_le_of_lt ((totalDegree_mul _ _).trans (Nat.add_le_add_left ?_ _)) h
    rw [aeval_def, eval₂_eq]
    refine totalDegree_finsetSum_le fun m hm => ?_
    refine (totalDegree_mul _ _).trans ?_
    rw [algebraMap_eq, totalDegree_C, zero_add]
    refine (totalDegree_finsetProd _ _).trans ?_
    refine (Finset.sum_le_sum fun a _ => (totalDegree_pow _ _).trans (Nat.mul_le_mul_left _ (hg a))).trans ?_
    rw [← Finset.sum_mul]
    exact Nat.mul_le_mul_right D (le_totalDegree hm)
  have h2 := sum_eval_eq_zero _ h1
  rw [← h2]
  refine Finset.sum_congr rfl fun u _ => ?_
  rw [map_mul]
  congr 1
  clear h2 h1 h
  induction Q using MvPolynomial.induction_on with
  | C a => simp
  | add p q hp hq => simp only [map_add, hp, hq]
  | mul_X p a hp => simp only [map_mul, hp, eval_X, aeval_X]

theorem eval_ne_zero {K : Type} [Field K] {F : Polynomial (MvPolynomial σ K)} (hF : F ≠ 0) {g : MvPolynomial σ K} {dx : Nat}
    (hx : ∀ j, (F.coeff j).totalDegree ≤ dx) (hg : dx < g.totalDegree) : F.eval g ≠ 0 := by
  have hg0 : g ≠ 0 := fun h => by rw [h, totalDegree_zero] at hg; omega
  have hpow : ∀ n, (g ^ n).totalDegree = n * g.totalDegree := by
    intro n
    induction n with
    | zero => simp
    | succ n ih => rw [pow_succ, totalDegree_mul_of_isDomain (pow_ne_zero _ hg0) hg0, ih]; ring
  intro h0
  rw [Polynomial.eval_eq_sum_range, Finset.sum_range_succ] at h0
  have hl : F.coeff F.natDegree ≠ 0 := Polynomial.leadingCoeff_ne_zero.2 hF
  have h1 : F.natDegree * g.totalDegree ≤ (F.coeff F.natDegree * g ^ F.natDegree).totalDegree := by
    rw [totalDegree_mul_of_isDomain hl (pow_ne_zero _ hg0), hpow]
    omega
  rcases Nat.eq_zero_or_pos F.natDegree with hn | hn
  · rw [hn] at h0 hl
    simp at h0
    exact hl h0
  · have h2 : (∑ j ∈ Finset.range F.natDegree, F.coeff j * g ^ j).totalDegree ≤ dx + (F.natDegree - 1) * g.totalDegree := by
      refine totalDegree_finsetSum_le fun j hj => (totalDegree_mul _ _).trans (Nat.add_le_add (hx j) ?_)
      rw [hpow]
      have := Finset.mem_range.1 hj
      exact Nat.mul_le_mul_right _ (by omega)
    rw [eq_neg_of_add_eq_zero_left h0, totalDegree_neg] at h2
    have h3 : F.natDegree * g.totalDegree = (F.natDegree - 1) * g.totalDegree + g.totalDegree := by
      conv_lhs => rw [show F.natDegree = F.natDegree - 1 + 1 by omega]
      ring
    omega

/-- A relation `F(u, g(u)) = 0` of lower degree than `g` holds at few points of any grid. -/
theorem relation_card {K : Type} [Field K] [DecidableEq K] {k : Nat} {F : Polynomial (MvPolynomial (Fin k) K)} (hF : F ≠ 0)
    {g : MvPolynomial (Fin k) K} {dx : Nat} (hx : ∀ j, (F.coeff j).totalDegree ≤ dx) (hg : dx < g.totalDegree) (S : Finset K) :
    ((Fintype.piFinset fun _ : Fin k => S).filter fun u => (F.map (eval u)).eval (eval u g) = 0).card * S.card ≤
      (dx + F.natDegree * g.totalDegree) * S.card ^ k := by
  have h1 := schwartz_zippel_totalDegree (eval_ne_zero hF hx hg) S
  have h2 : (F.eval g).totalDegree ≤ dx + F.natDegree * g.totalDegree := by
    rw [Polynomial.eval_eq_sum_range]
    refine totalDegree_finsetSum_le fun j hj => (totalDegree_mul _ _).trans (Nat.add_le_add (hx j) ?_)
    refine (totalDegree_pow _ _).trans ?_
    have := Finset.mem_range.1 hj
    exact Nat.mul_le_mul_right _ (by omega)
  have h3 : ∀ u : Fin k → K, (F.map (eval u)).eval (eval u g) = eval u (F.eval g) := fun u => Polynomial.eval_map_apply (eval u) g
  simp only [h3]
  rcases S.eq_empty_or_nonempty with rfl | hS
  · simp
  · have hS : (0 : ℚ≥0) < S.card := by exact_mod_cast hS.card_pos
    rw [div_le_div_iff₀ (by positivity) hS] at h1
    have h4 : (((Fintype.piFinset fun _ : Fin k => S).filter fun u => eval u (F.eval g) = 0).card * S.card : ℚ≥0) ≤
        ((dx + F.natDegree * g.totalDegree : Nat) : ℚ≥0) * S.card ^ k := by
      refine h1.trans ?_
      gcongr
    exact_mod_cast h4

end Poseidon
