import Verif.Proofs.Degree
import Verif.Proofs.Optimized
import Verif.Proofs.Hash
import Mathlib.Algebra.Polynomial.Roots

/-! # A permutation with one row of its round constants changed -/

set_option linter.unusedSectionVars false

namespace Poseidon

open Polynomial

variable {F : Type} [Field F] [DecidableEq F] {t n e : Nat}

/-! ## The rounds before the row, and the rounds from the row on -/

/-- The rounds of a list. -/
def roundsE (e : Nat) (M : Matrix (Fin t) (Fin t) F) (full : Fin n → Bool) (C : Fin n → Fin t → F) (l : List (Fin n)) (x : Fin t → F) : Fin t → F :=
  l.foldl (fun x r => roundE e M (full r) (C r) x) x

theorem roundsE_bijective {M N : Matrix (Fin t) (Fin t) F} (hM : M * N = 1) (he : Function.Bijective fun x : F => x ^ e)
    (full : Fin n → Bool) (C : Fin n → Fin t → F) (l : List (Fin n)) : Function.Bijective (roundsE e M full C l) := by
  unfold roundsE
  induction l with
  | nil => exact Function.bijective_id
  | cons r l ih => exact ih.comp (roundE_bijective hM he _ _)

theorem roundsE_congr {M : Matrix (Fin t) (Fin t) F} {full : Fin n → Bool} {C C' : Fin n → Fin t → F} {l : List (Fin n)}
    (h : ∀ r ∈ l, C' r = C r) (x : Fin t → F) : roundsE e M full C' l x = roundsE e M full C l x := by
  unfold roundsE
  induction l generalizing x with
  | nil => rfl
  | cons r l ih =>
    rw [List.foldl_cons, List.foldl_cons, h r List.mem_cons_self]
    exact ih (fun r hr => h r (List.mem_cons_of_mem _ hr)) _

theorem roundE_shift (M : Matrix (Fin t) (Fin t) F) (full : Bool) (c D x : Fin t → F) :
    roundE e M full (c + D) x = roundE e M full c (x + D) := by
  unfold roundE
  congr 1
  funext i
  rw [Pi.add_apply, Pi.add_apply, add_assoc, add_comm (D i)]

theorem finRange_split (r : Fin n) : List.finRange n = (List.finRange n).take r ++ r :: (List.finRange n).drop (r + 1) := by
  have h : (List.finRange n).drop r = r :: (List.finRange n).drop (r + 1) := by
    rw [List.drop_eq_getElem_cons (by simp)]
    simp
  rw [← h, List.take_append_drop]

theorem mem_take {r s : Fin n} (h : s ∈ (List.finRange n).take r) : s ≠ r := by
  obtain ⟨i, hi, rfl⟩ := List.mem_iff_getElem.1 h
  rw [List.length_take] at hi
  rw [List.getElem_take, List.getElem_finRange]
  intro hh
  have := congrArg Fin.val hh
  simp at this
  omega

theorem mem_drop {r s : Fin n} (h : s ∈ (List.finRange n).drop (r + 1)) : s ≠ r := by
  obtain ⟨i, hi, rfl⟩ := List.mem_iff_getElem.1 h
  rw [List.getElem_drop, List.getElem_finRange]
  intro hh
  have := congrArg Fin.val hh
  simp at this
  omega

/-- With another row `r` the permutation is the same up to that row, and from there on starts from a shifted state. -/
theorem roundsE_shift (M : Matrix (Fin t) (Fin t) F) (full : Fin n → Bool) {C C' : Fin n → Fin t → F} (r : Fin n) (h : ∀ s, s ≠ r → C' s = C s)
    (x : Fin t → F) :
    roundsE e M full C' (List.finRange n) x =
      roundsE e M full C (r :: (List.finRange n).drop (r + 1)) (roundsE e M full C ((List.finRange n).take r) x + (C' r - C r)) := by
  have h1 : roundsE e M full C' (List.finRange n) x =
      roundsE e M full C' (r :: (List.finRange n).drop (r + 1)) (roundsE e M full C' ((List.finRange n).take r) x) := by
    conv_lhs => rw [finRange_split r]
    exact List.foldl_append
  rw [h1, roundsE_congr (C := C) (fun s hs => h s (mem_take hs))]
  have h2 : ∀ (C : Fin n → Fin t → F) y, roundsE e M full C (r :: (List.finRange n).drop (r + 1)) y =
      roundsE e M full C ((List.finRange n).drop (r + 1)) (roundE e M (full r) (C r) y) := fun C y => rfl
  rw [h2, h2, roundsE_congr (C := C) (fun s hs => h s (mem_drop hs)), ← roundE_shift, add_sub_cancel]

theorem roundsE_self (M : Matrix (Fin t) (Fin t) F) (full : Fin n → Bool) (C : Fin n → Fin t → F) (r : Fin n) (x : Fin t → F) :
    roundsE e M full C (List.finRange n) x =
      roundsE e M full C (r :: (List.finRange n).drop (r + 1)) (roundsE e M full C ((List.finRange n).take r) x) := by
  have h := roundsE_shift (e := e) M full (C := C) (C' := C) r (fun _ _ => rfl) x
  rwa [sub_self, add_zero] at h

/-- No state stays the same. -/
theorem roundsE_ne {M N : Matrix (Fin t) (Fin t) F} (hM : M * N = 1) (he : Function.Bijective fun x : F => x ^ e) (full : Fin n → Bool)
    {C C' : Fin n → Fin t → F} (r : Fin n) (h : ∀ s, s ≠ r → C' s = C s) (hr : C' r ≠ C r) (x : Fin t → F) :
    roundsE e M full C' (List.finRange n) x ≠ roundsE e M full C (List.finRange n) x := by
  rw [roundsE_shift M full r h, roundsE_self M full C r]
  intro hh
  have := (roundsE_bijective hM he full C _).1 hh
  rw [add_eq_left, sub_eq_zero] at this
  exact hr this

/-! ## Along a line -/

/-- The states `y + z D`. -/
noncomputable def linePoly (y D : Fin t → F) : Fin t → F[X] := fun i => C (y i) + C (D i) * X

theorem linePoly_top (y D : Fin t → F) : Top 1 (linePoly y D) D := by
  intro i
  refine ⟨?_, ?_⟩
  · rw [linePoly, add_comm]
    exact natDegree_linear_le
  · rw [linePoly, coeff_add, coeff_C, if_neg one_ne_zero, coeff_C_mul, coeff_X_one, zero_add, mul_one]

theorem linePoly_eval (y D : Fin t → F) (z : F) : (fun i => (linePoly y D i).eval z) = y + z • D := by
  funext i
  rw [linePoly, eval_add, eval_C, eval_mul, eval_C, eval_X, Pi.add_apply, Pi.smul_apply, smul_eq_mul, mul_comm]

theorem roundsE_line (M : Matrix (Fin t) (Fin t) F) (full : Fin n → Bool) (C : Fin n → Fin t → F) (he : 2 ≤ e) (l : List (Fin n)) {D : Fin t → F} {a : Fin t}
    (hl : leadRounds e M (l.map full) D a ≠ 0) (y : Fin t → F) :
    ∃ Q : F[X], Q.natDegree = e ^ l.length ∧ ∀ z, roundsE e M full C l (y + z • D) a = Q.eval z := by
  obtain ⟨Q, h1, h2⟩ := rounds_poly M full C he l (le_refl 1) (linePoly_top y D)
  rw [one_mul] at h1
  refine ⟨Q a, le_antisymm (h1 a).1 (le_natDegree_of_ne_zero (by rw [(h1 a).2]; exact hl)), fun z => ?_⟩
  rw [← linePoly_eval, roundsE, ← h2 z]

/-- A partial round leaves a line a line, if word 0 does not change along it. -/
theorem roundE_line {k : Nat} (M : Matrix (Fin (k + 1)) (Fin (k + 1)) F) (c y D : Fin (k + 1) → F) (hD : D 0 = 0) (z : F) :
    roundE e M false c (y + z • D) = roundE e M false c y + z • M.mulVec D := by
  rw [← Matrix.mulVec_smul, roundE, roundE, ← Matrix.mulVec_add]
  congr 1
  funext i
  by_cases h : Active false i
  · have hi : i = 0 := by
      rcases h with h | h
      · cases h
      · exact Fin.ext h
    simp only [Pi.add_apply, Pi.smul_apply, hi, hD, smul_zero, add_zero]
  · simp only [Pi.add_apply, Pi.smul_apply, h, if_false]
    ring

/-- A set that has at most `B` points on each line in the direction `D` is small. -/
theorem card_lines [Fintype F] (D : Fin t → F) (S : Finset (Fin t → F)) (B : Nat)
    (h : ∀ y, (Finset.univ.filter fun z : F => y + z • D ∈ S).card ≤ B) : S.card * Fintype.card F ≤ B * Fintype.card F ^ t := by
  have h1 : ∑ y : Fin t → F, (Finset.univ.filter fun z : F => y + z • D ∈ S).card = S.card * Fintype.card F := by
    simp only [Finset.card_filter]
    rw [Finset.sum_comm]
    have : ∀ z : F, ∑ y : Fin t → F, (if y + z • D ∈ S then 1 else 0) = S.card := by
      intro z
      refine (Equiv.sum_comp (Equiv.addRight (z • D)) fun y => if y ∈ S then 1 else 0).trans ?_
      rw [Finset.sum_boole]
      simp
    rw [Finset.sum_congr rfl fun z _ => this z, Finset.sum_const, Finset.card_univ, smul_eq_mul, mul_comm]
  rw [← h1]
  refine (Finset.sum_le_sum fun y _ => h y).trans (le_of_eq ?_)
  rw [Finset.sum_const, Finset.card_univ, smul_eq_mul, Fintype.card_fun, Fintype.card_fin, mul_comm]

/-- A polynomial of positive degree below the number of elements of a prime field takes the same value at `z` and `z + δ` for few `z`. -/
theorem card_shift {p : Nat} [Fact p.Prime] [Fintype F] [CharP F p] {Q : F[X]} (h1 : 1 ≤ Q.natDegree) (h2 : Q.natDegree < p) {δ : F} (hδ : δ ≠ 0) :
    (Finset.univ.filter fun z : F => Q.eval (z + δ) = Q.eval z).card ≤ Q.natDegree := by
  classical
  set G : F[X] := Q.comp (X + C δ) - Q with hG
  have hev : ∀ z, G.eval z = Q.eval (z + δ) - Q.eval z := fun z => by
    rw [hG, eval_sub, eval_comp, eval_add, eval_X, eval_C]
  have h0 : G ≠ 0 := by
    intro h0
    have hper : ∀ k : Nat, Q.eval ((k : F) * δ) = Q.eval 0 := by
      intro k
      induction k with
      | zero => rw [Nat.cast_zero, zero_mul]
      | succ k ih =>
        have := hev ((k : F) * δ)
        rw [h0, eval_zero] at this
        rw [← ih, Nat.cast_succ, add_mul, one_mul]
        exact (sub_eq_zero.1 this.symm)
    -- so `Q` is constant
    have hinj : Function.Injective fun k : Fin p => (k.val : F) * δ := by
      intro a b hab
      have := mul_right_cancel₀ hδ hab
      have := (CharP.natCast_eq_natCast F p).1 this
      rw [Nat.ModEq, Nat.mod_eq_of_lt a.isLt, Nat.mod_eq_of_lt b.isLt] at this
      exact Fin.ext this
    have hQ : Q - C (Q.eval 0) = 0 := by
      refine eq_zero_of_natDegree_lt_card_of_eval_eq_zero (Q - C (Q.eval 0)) hinj (fun k => ?_) ?_
      · rw [eval_sub, eval_C, hper, sub_self]
      · rw [natDegree_sub_C, Fintype.card_fin]
        exact h2
    rw [sub_eq_zero.1 hQ, natDegree_C] at h1
    omega
  have hsub : (Finset.univ.filter fun z : F => Q.eval (z + δ) = Q.eval z) ⊆ G.roots.toFinset := by
    intro z hz
    rw [Multiset.mem_toFinset, mem_roots h0, IsRoot.def, hev, sub_eq_zero]
    exact (Finset.mem_filter.1 hz).2
  refine (Finset.card_le_card hsub).trans ((Multiset.toFinset_card_le _).trans ((card_roots' G).trans ?_))
  refine (natDegree_sub_le _ _).trans (max_le ?_ le_rfl)
  rw [natDegree_comp, natDegree_X_add_C, mul_one]

/-- The inputs with which one word of the result stays the same when row `r` is changed by `δ D`. -/
theorem card_same_word {p : Nat} [Fact p.Prime] [Fintype F] [CharP F p] (hF : Fintype.card F = p) {M N : Matrix (Fin t) (Fin t) F} (hM : M * N = 1)
    (he : Function.Bijective fun x : F => x ^ e) (full : Fin n → Bool) {C C' : Fin n → Fin t → F} (r : Fin n) (h : ∀ s, s ≠ r → C' s = C s)
    {D : Fin t → F} {δ : F} (hδ : δ ≠ 0) (hD : C' r = C r + δ • D) (a : Fin t) (B : Nat) (hB : B < p)
    (hline : ∀ y, ∃ Q : F[X], 1 ≤ Q.natDegree ∧ Q.natDegree ≤ B ∧
      ∀ z, roundsE e M full C (r :: (List.finRange n).drop (r + 1)) (y + z • D) a = Q.eval z) :
    Nat.card {x // roundsE e M full C' (List.finRange n) x a = roundsE e M full C (List.finRange n) x a} * p ≤ B * p ^ t := by
  classical
  have hb := roundsE_bijective hM he full C ((List.finRange n).take r)
  set R := roundsE e M full C (r :: (List.finRange n).drop (r + 1)) with hR
  have e1 : Nat.card {x // roundsE e M full C' (List.finRange n) x a = roundsE e M full C (List.finRange n) x a} =
      (Finset.univ.filter fun y => R (y + δ • D) a = R y a).card := by
    rw [Nat.card_congr ((Equiv.ofBijective _ hb).subtypeEquiv (q := fun y => R (y + δ • D) a = R y a) fun x => ?_), Nat.card_eq_fintype_card, Fintype.card_subtype]
    rw [roundsE_shift M full r h, roundsE_self M full C r, hD, add_sub_cancel_left]
    rfl
  rw [e1, ← hF]
  refine card_lines D _ B fun y => ?_
  obtain ⟨Q, h1, h2, h3⟩ := hline y
  refine le_trans (Finset.card_le_card ?_) ((card_shift (p := p) h1 (by omega) hδ).trans h2)
  intro z hz
  have hz := (Finset.mem_filter.1 (Finset.mem_filter.1 hz).2).2
  rw [Finset.mem_filter]
  refine ⟨Finset.mem_univ _, ?_⟩
  rw [← h3, ← h3, ← hz, add_smul, add_assoc]

/-! ## Leading coefficients -/

theorem leadRound_smul (M : Matrix (Fin t) (Fin t) F) (full : Bool) (μ : F) (L : Fin t → F) :
    leadRound e M full (μ • L) = μ ^ e • leadRound e M full L := by
  rw [leadRound, leadRound, ← Matrix.mulVec_smul]
  congr 1
  funext i
  by_cases h : Active full i
  · simp only [h, if_true, Pi.smul_apply, smul_eq_mul, mul_pow]
  · simp only [h, if_false, Pi.smul_apply, smul_zero]

theorem leadRounds_smul (M : Matrix (Fin t) (Fin t) F) (l : List Bool) (μ : F) (L : Fin t → F) :
    leadRounds e M l (μ • L) = μ ^ e ^ l.length • leadRounds e M l L := by
  unfold leadRounds
  induction l generalizing μ L with
  | nil => simp
  | cons b l ih =>
    rw [List.foldl_cons, List.foldl_cons, leadRound_smul M b μ L, ih, ← pow_mul, List.length_cons, pow_succ' e]

theorem leadRound_partial {k : Nat} (M : Matrix (Fin (k + 1)) (Fin (k + 1)) F) (L : Fin (k + 1) → F) :
    leadRound e M false L = L 0 ^ e • fun i => M i 0 := by
  rw [leadRound]
  have : (fun i : Fin (k + 1) => if Active false i then L i ^ e else 0) = Pi.single 0 (L 0 ^ e) := by
    funext i
    by_cases h : Active false i
    · have hi : i = 0 := by
        rcases h with h | h
        · cases h
        · exact Fin.ext h
      rw [if_pos h, hi, Pi.single_eq_same]
    · have hi : i ≠ 0 := fun hi => h (Or.inr (by rw [hi]; rfl))
      rw [if_neg h, Pi.single_eq_of_ne hi]
  rw [this]
  funext i
  rw [Matrix.mulVec_single, Pi.smul_apply, Pi.smul_apply, smul_eq_mul]
  simp [mul_comm]

theorem leadRound_single (M : Matrix (Fin t) (Fin t) F) (j : Fin t) (he : e ≠ 0) : leadRound e M true (Pi.single j 1) = fun i => M i j := by
  rw [leadRound]
  have : (fun i : Fin t => if Active true i then (Pi.single j 1 : Fin t → F) i ^ e else 0) = Pi.single j 1 := by
    funext i
    rw [if_pos (show Active true i from Or.inl rfl)]
    by_cases h : i = j
    · rw [h, Pi.single_eq_same, one_pow]
    · rw [Pi.single_eq_of_ne h, zero_pow he]
  rw [this]
  funext i
  simp

/-- Partial rounds from a direction that moves word 0. -/
theorem leadRounds_partial {k : Nat} (M : Matrix (Fin (k + 1)) (Fin (k + 1)) F) (h00 : M 0 0 ≠ 0) (he : e ≠ 0) (m : Nat) (l : List Bool) (L : Fin (k + 1) → F) (hL : L 0 ≠ 0) :
    ∃ μ : F, μ ≠ 0 ∧ leadRounds e M (List.replicate (m + 1) false ++ l) L = μ • leadRounds e M (true :: l) (Pi.single 0 1) := by
  induction m generalizing L with
  | zero =>
    refine ⟨(L 0 ^ e) ^ e ^ l.length, pow_ne_zero _ (pow_ne_zero _ hL), ?_⟩
    rw [show leadRounds e M (List.replicate (0 + 1) false ++ l) L = leadRounds e M l (leadRound e M false L) from rfl,
      show leadRounds e M (true :: l) (Pi.single 0 1) = leadRounds e M l (leadRound e M true (Pi.single 0 1)) from rfl,
      leadRound_partial, leadRounds_smul, leadRound_single M 0 he]
  | succ m ih =>
    have h1 : leadRounds e M (List.replicate (m + 1 + 1) false ++ l) L = leadRounds e M (List.replicate (m + 1) false ++ l) (leadRound e M false L) := rfl
    rw [h1]
    refine ih _ ?_
    rw [leadRound_partial, Pi.smul_apply, smul_eq_mul]
    exact mul_ne_zero (pow_ne_zero _ hL) h00

end Poseidon
