import Verif.Proofs.Trail
import Mathlib.Algebra.BigOperators.Fin
import Mathlib.Algebra.BigOperators.Intervals
import Mathlib.Data.Fintype.BigOperators
import Mathlib.Data.Fintype.Pi
import Mathlib.LinearAlgebra.Matrix.NonsingularInverse

/-! # Counting the runs in which an S-box meets a zero -/

set_option linter.unusedSectionVars false

namespace Poseidon

variable {F : Type} [Field F] [DecidableEq F] {t n : Nat}

/-- The S-box layer after the constants, where the inverse of zero is zero. -/
def layerT (a : Alpha) (full : Bool) (c x : Fin t → F) : Fin t → F := fun i => if Active full i then a.val (x i + c i) else x i + c i

/-- The state after `m` rounds with constants `C`, where the inverse of zero is zero. -/
def runT (a : Alpha) (M : Matrix (Fin t) (Fin t) F) (full : Nat → Bool) (C : Fin n → Fin t → F) (x : Fin t → F) : Nat → Fin t → F
  | 0 => x
  | m + 1 => if h : m < n then M.mulVec (layerT a (full m) (C ⟨m, h⟩) (runT a M full C x m)) else runT a M full C x m

/-- No S-box of the first `m` rounds is undefined. -/
def CleanT (a : Alpha) (M : Matrix (Fin t) (Fin t) F) (full : Nat → Bool) (C : Fin n → Fin t → F) (x : Fin t → F) (m : Nat) : Prop :=
  ∀ j : Fin n, j.val < m → ∀ i, Active (full j) i → a.Defined (runT a M full C x j i + C j i)

theorem runT_congr {a : Alpha} {M : Matrix (Fin t) (Fin t) F} {full : Nat → Bool} {C C' : Fin n → Fin t → F} {x : Fin t → F} :
    ∀ m, (∀ j : Fin n, j.val < m → C j = C' j) → runT a M full C x m = runT a M full C' x m := by
  intro m
  induction m with
  | zero => intro _; rfl
  | succ m ih =>
    intro h
    rw [runT, runT, ih fun j hj => h j (by omega)]
    by_cases hm : m < n
    · rw [dif_pos hm, dif_pos hm, h ⟨m, hm⟩ (Nat.lt_succ_self m)]
    · rw [dif_neg hm, dif_neg hm]

/-- The textbook permutation is defined in the clean runs. -/
theorem prefix_runT {a : Alpha} {M : Matrix (Fin t) (Fin t) F} {rf rp : Nat} {C : Fin n → Fin t → F} (hn : rf + rp + rf ≤ n)
    (x : Fin t → F) (m : Nat) (hm : m ≤ rf + rp + rf) :
    (CleanT a M (fun m => decide (m < rf ∨ rf + rp ≤ m)) C x m →
      textbookPrefix a M rf rp (fun r => C ⟨r.val, lt_of_lt_of_le r.isLt hn⟩) m x =
        some (runT a M (fun m => decide (m < rf ∨ rf + rp ≤ m)) C x m)) ∧
    (¬ CleanT a M (fun m => decide (m < rf ∨ rf + rp ≤ m)) C x m →
      textbookPrefix a M rf rp (fun r => C ⟨r.val, lt_of_lt_of_le r.isLt hn⟩) m x = none) := by
  induction m with
  | zero => exact ⟨fun _ => by rw [prefix_zero]; rfl, fun h => absurd (fun j hj => absurd hj (Nat.not_lt_zero _)) h⟩
  | succ m ih =>
    obtain ⟨ih1, ih2⟩ := ih (by omega)
    have hmn : m < n := by omega
    rw [prefix_succ m (by omega)]
    by_cases hc : CleanT a M (fun m => decide (m < rf ∨ rf + rp ≤ m)) C x m
    · rw [ih1 hc, Option.bind_some, textbookRound, runT, dif_pos hmn]
      refine ⟨fun h => by rw [if_pos (h ⟨m, hmn⟩ (Nat.lt_succ_self m))]; rfl, fun h => ?_⟩
      rw [if_neg]
      intro hi
      refine h fun j hj i ha => ?_
      rcases Nat.lt_succ_iff_lt_or_eq.1 hj with hj | hj
      · exact hc j hj i ha
      · have : j = ⟨m, hmn⟩ := Fin.ext hj
        subst this
        exact hi i ha
    · refine ⟨fun h => absurd (fun j hj => h j (by omega)) hc, fun _ => ?_⟩
      rw [ih2 hc]
      rfl

/-! ## Over the tables -/

/-- What enters the S-box layers determines the constants. -/
theorem sboxInputs_injective (a : Alpha) (M : Matrix (Fin t) (Fin t) F) (full : Nat → Bool) (x : Fin t → F) :
    Function.Injective fun (C : Fin n → Fin t → F) (j : Fin n) (i : Fin t) => runT a M full C x j i + C j i := by
  intro C C' h
  have key : ∀ m, ∀ j : Fin n, j.val < m → C j = C' j := by
    intro m
    induction m with
    | zero => intro j hj; omega
    | succ m ih =>
      intro j hj
      rcases Nat.lt_succ_iff_lt_or_eq.1 hj with hj | hj
      · exact ih j hj
      · funext i
        have h1 : runT a M full C x j i + C j i = runT a M full C' x j i + C' j i := congrFun (congrFun h j) i
        rw [runT_congr j.val fun l hl => ih l (by omega)] at h1
        exact add_left_cancel h1
  exact funext fun j => key n j j.isLt

/-- The number of S-boxes of a round, as a factor. -/
theorem prod_round (full : Bool) {k : Nat} (u v : Nat) :
    ∏ i : Fin (k + 1), (if Active full i then u else v) = if full then u ^ (k + 1) else u * v ^ k := by
  cases full with
  | true => simp [Active]
  | false => rw [Fin.prod_univ_succ]; simp [Active]

theorem prod_rounds (rf rp extra u v w : Nat) :
    ∏ j ∈ Finset.range (rf + rp + rf + extra), (if j < rf + rp + rf then (if decide (j < rf ∨ rf + rp ≤ j) = true then u else v) else w) =
      u ^ (2 * rf) * v ^ rp * w ^ extra := by
  rw [Finset.prod_range_add, Finset.prod_range_add, Finset.prod_range_add]
  have h1 : ∏ j ∈ Finset.range rf, (if j < rf + rp + rf then (if decide (j < rf ∨ rf + rp ≤ j) = true then u else v) else w) = u ^ rf := by
    rw [Finset.prod_congr rfl (g := fun _ => u), Finset.prod_const, Finset.card_range]
    intro j hj
    have := Finset.mem_range.1 hj
    rw [if_pos (by omega), if_pos (by rw [decide_eq_true_eq]; omega)]
  have h2 : ∏ j ∈ Finset.range rp, (if rf + j < rf + rp + rf then (if decide (rf + j < rf ∨ rf + rp ≤ rf + j) = true then u else v) else w) = v ^ rp := by
    rw [Finset.prod_congr rfl (g := fun _ => v), Finset.prod_const, Finset.card_range]
    intro j hj
    have := Finset.mem_range.1 hj
    rw [if_pos (by omega), if_neg (by rw [decide_eq_true_eq]; omega)]
  have h3 : ∏ j ∈ Finset.range rf, (if rf + rp + j < rf + rp + rf then (if decide (rf + rp + j < rf ∨ rf + rp ≤ rf + rp + j) = true then u else v) else w) =
      u ^ rf := by
    rw [Finset.prod_congr rfl (g := fun _ => u), Finset.prod_const, Finset.card_range]
    intro j hj
    have := Finset.mem_range.1 hj
    rw [if_pos (by omega), if_pos (by rw [decide_eq_true_eq]; omega)]
  have h4 : ∏ j ∈ Finset.range extra, (if rf + rp + rf + j < rf + rp + rf then
      (if decide (rf + rp + rf + j < rf ∨ rf + rp ≤ rf + rp + rf + j) = true then u else v) else w) = w ^ extra := by
    rw [Finset.prod_congr rfl (g := fun _ => w), Finset.prod_const, Finset.card_range]
    intro j _
    rw [if_neg (by omega)]
  rw [h1, h2, h3, h4, two_mul, pow_add]
  ring

/-- The tables with which no inverse S-box meets a zero. -/
theorem card_clean [Fintype F] {k : Nat} (M : Matrix (Fin (k + 1)) (Fin (k + 1)) F) (rf rp extra : Nat) (hn : n = rf + rp + rf + extra)
    (x : Fin (k + 1) → F) :
    Nat.card {C : Fin n → Fin (k + 1) → F // CleanT .inverse M (fun m => decide (m < rf ∨ rf + rp ≤ m)) C x (rf + rp + rf)} =
      (Fintype.card F - 1) ^ (2 * rf * (k + 1) + rp) * Fintype.card F ^ (rp * k + extra * (k + 1)) := by
  classical
  set full : Nat → Bool := fun m => decide (m < rf ∨ rf + rp ≤ m) with hfull
  let S : Fin n → Fin (k + 1) → Finset F := fun j i =>
    if j.val < rf + rp + rf ∧ Active (full j) i then Finset.univ.erase 0 else Finset.univ
  let T : Finset (Fin n → Fin (k + 1) → F) := Fintype.piFinset fun j => Fintype.piFinset (S j)
  have hbij := (Fintype.bijective_iff_injective_and_card _).2 ⟨sboxInputs_injective (n := n) .inverse M full x, rfl⟩
  have hmem : ∀ C : Fin n → Fin (k + 1) → F, CleanT .inverse M full C x (rf + rp + rf) ↔
      (fun (j : Fin n) (i : Fin (k + 1)) => runT .inverse M full C x j i + C j i) ∈ T := by
    intro C
    simp only [T, Fintype.mem_piFinset]
    constructor
    · intro h j i
      by_cases hc : j.val < rf + rp + rf ∧ Active (full j) i
      · simp only [S, if_pos hc]
        exact Finset.mem_erase.2 ⟨h j hc.1 i hc.2, Finset.mem_univ _⟩
      · simp only [S, if_neg hc]
        exact Finset.mem_univ _
    · intro h j hj i hi
      have := h j i
      simp only [S, if_pos (And.intro hj hi)] at this
      exact (Finset.mem_erase.1 this).1
  have e1 : Nat.card {C : Fin n → Fin (k + 1) → F // CleanT .inverse M full C x (rf + rp + rf)} = T.card := by
    have h : T.card = Nat.card {U // U ∈ T} := by rw [Nat.card_eq_fintype_card, Fintype.card_coe]
    rw [h]
    exact Nat.card_congr ((Equiv.ofBijective _ hbij).subtypeEquiv fun C => hmem C)
  rw [e1]
  simp only [T, Fintype.card_piFinset]
  have e2 : ∀ j : Fin n, ∏ i, (S j i).card = (fun j : Nat => if j < rf + rp + rf then
      (if decide (j < rf ∨ rf + rp ≤ j) = true then (Fintype.card F - 1) ^ (k + 1) else (Fintype.card F - 1) * Fintype.card F ^ k)
      else Fintype.card F ^ (k + 1)) j.val := by
    intro j
    by_cases hj : j.val < rf + rp + rf
    · dsimp only
      rw [if_pos hj, ← prod_round (full j) (k := k)]
      refine Finset.prod_congr rfl fun i _ => ?_
      by_cases hi : Active (full j) i
      · simp only [S, if_pos (And.intro hj hi), if_pos hi]
        rw [Finset.card_erase_of_mem (Finset.mem_univ _), Finset.card_univ]
      · simp only [S, if_neg hi]
        rw [if_neg (fun h => hi h.2), Finset.card_univ]
    · dsimp only
      rw [if_neg hj]
      have : ∀ i, (S j i).card = Fintype.card F := by
        intro i
        simp only [S]
        rw [if_neg (fun h => hj h.1), Finset.card_univ]
      simp only [this, Finset.prod_const, Finset.card_univ, Fintype.card_fin]
  refine (Finset.prod_congr rfl fun j _ => e2 j).trans ((Fin.prod_univ_eq_prod_range (fun j : Nat => if j < rf + rp + rf then
      (if decide (j < rf ∨ rf + rp ≤ j) = true then (Fintype.card F - 1) ^ (k + 1) else (Fintype.card F - 1) * Fintype.card F ^ k)
      else Fintype.card F ^ (k + 1)) n).trans ?_)
  rw [hn]
  refine (prod_rounds rf rp extra _ _ _).trans ?_
  rw [mul_pow, ← pow_mul, ← pow_mul, ← pow_mul, pow_add, pow_add]
  ring

/-! ## Over the inputs -/

theorem runT_injective {M : Matrix (Fin t) (Fin t) F} (hM : M.det ≠ 0) (full : Nat → Bool) (C : Fin n → Fin t → F) :
    ∀ m, Function.Injective fun x => runT .inverse M full C x m := by
  intro m
  induction m with
  | zero => exact fun x y h => h
  | succ m ih =>
    by_cases hm : m < n
    · intro x y h
      simp only [runT, dif_pos hm] at h
      have h1 := Matrix.mulVec_injective_iff_isUnit.2 ((Matrix.isUnit_iff_isUnit_det M).2 (isUnit_iff_ne_zero.2 hM)) h
      refine ih (funext fun i => ?_)
      have h2 := congrFun h1 i
      simp only [layerT] at h2
      by_cases hi : Active (full m) i
      · rw [if_pos hi, if_pos hi] at h2
        exact add_right_cancel (inv_injective h2)
      · rw [if_neg hi, if_neg hi] at h2
        exact add_right_cancel h2
    · intro x y h
      simp only [runT, dif_neg hm] at h
      exact ih h

/-- The number of S-boxes. -/
theorem card_sboxes (k rf rp : Nat) (hn : n = rf + rp + rf) :
    (Finset.univ.filter fun ji : Fin n × Fin (k + 1) => Active (decide (ji.1.val < rf ∨ rf + rp ≤ ji.1.val)) ji.2).card =
      2 * rf * (k + 1) + rp := by
  classical
  have h1 : (2 : Nat) ^ (Finset.univ.filter fun ji : Fin n × Fin (k + 1) => Active (decide (ji.1.val < rf ∨ rf + rp ≤ ji.1.val)) ji.2).card =
      2 ^ (2 * rf * (k + 1) + rp) := by
    rw [← Finset.prod_const, Finset.prod_filter, Fintype.prod_prod_type]
    have h2 : ∀ j : Fin n, ∏ i : Fin (k + 1), (if Active (decide (j.val < rf ∨ rf + rp ≤ j.val)) i then 2 else 1) =
        (fun j : Nat => if j < rf + rp + rf then (if decide (j < rf ∨ rf + rp ≤ j) = true then 2 ^ (k + 1) else 2) else 1) j.val := by
      intro j
      have hj : j.val < rf + rp + rf := hn ▸ j.isLt
      dsimp only
      rw [prod_round, if_pos hj, one_pow, mul_one]
    refine (Finset.prod_congr rfl fun j _ => h2 j).trans ((Fin.prod_univ_eq_prod_range
      (fun j : Nat => if j < rf + rp + rf then (if decide (j < rf ∨ rf + rp ≤ j) = true then 2 ^ (k + 1) else 2) else 1) n).trans ?_)
    rw [hn]
    refine (prod_rounds rf rp 0 _ _ _).trans ?_
    rw [← pow_mul, pow_add]
    ring
  exact Nat.pow_right_injective (le_refl 2) h1

/-- The inputs for which an inverse S-box meets a zero. -/
theorem card_unclean [Fintype F] {k : Nat} {M : Matrix (Fin (k + 1)) (Fin (k + 1)) F} (hM : M.det ≠ 0) (rf rp : Nat)
    (C : Fin n → Fin (k + 1) → F) (hn : n = rf + rp + rf) :
    Nat.card {x : Fin (k + 1) → F // ¬ CleanT .inverse M (fun m => decide (m < rf ∨ rf + rp ≤ m)) C x n} ≤
      (2 * rf * (k + 1) + rp) * Fintype.card F ^ k := by
  classical
  set full : Nat → Bool := fun m => decide (m < rf ∨ rf + rp ≤ m) with hfull
  have hone : ∀ (j : Fin n) (i : Fin (k + 1)),
      (Finset.univ.filter fun x : Fin (k + 1) → F => runT .inverse M full C x j i + C j i = 0).card ≤ Fintype.card F ^ k := by
    intro j i
    have h1 : (Finset.univ : Finset (Fin k → F)).card = Fintype.card F ^ k := by
      rw [Finset.card_univ, Fintype.card_fun, Fintype.card_fin]
    rw [← h1]
    refine Finset.card_le_card_of_injOn (fun x l => runT .inverse M full C x j (i.succAbove l)) (fun _ _ => Finset.mem_coe.2 (Finset.mem_univ _)) ?_
    intro x hx y hy h
    have hx := (Finset.mem_filter.1 (Finset.mem_coe.1 hx)).2
    have hy := (Finset.mem_filter.1 (Finset.mem_coe.1 hy)).2
    refine runT_injective hM full C j (funext fun l => ?_)
    rcases Fin.eq_self_or_eq_succAbove i l with rfl | ⟨l, rfl⟩
    · exact add_right_cancel (hx.trans hy.symm)
    · exact congrFun h l
  rw [Nat.card_eq_fintype_card, Fintype.card_subtype, ← card_sboxes k rf rp hn, ← smul_eq_mul, ← Finset.sum_const]
  refine le_trans (Finset.card_le_card (t := (Finset.univ.filter fun ji : Fin n × Fin (k + 1) =>
    Active (decide (ji.1.val < rf ∨ rf + rp ≤ ji.1.val)) ji.2).biUnion fun ji =>
      Finset.univ.filter fun x : Fin (k + 1) → F => runT .inverse M full C x ji.1 ji.2 + C ji.1 ji.2 = 0) ?_)
    (Finset.card_biUnion_le.trans (Finset.sum_le_sum fun ji _ => hone ji.1 ji.2))
  intro x hx
  have hx := (Finset.mem_filter.1 hx).2
  unfold CleanT at hx
  push Not at hx
  obtain ⟨j, -, i, hi, h0⟩ := hx
  refine Finset.mem_biUnion.2 ⟨(j, i), Finset.mem_filter.2 ⟨Finset.mem_univ _, hi⟩, Finset.mem_filter.2 ⟨Finset.mem_univ _, ?_⟩⟩
  by_contra hne
  exact h0 hne

/-- The inputs for which no inverse S-box of the first round meets a zero. -/
theorem card_clean_inputs [Fintype F] {k : Nat} {M : Matrix (Fin (k + 1)) (Fin (k + 1)) F} (rf rp : Nat)
    (C : Fin n → Fin (k + 1) → F) (hrf : 0 < rf) (hn : n = rf + rp + rf) :
    Nat.card {x : Fin (k + 1) → F // CleanT .inverse M (fun m => decide (m < rf ∨ rf + rp ≤ m)) C x n} ≤ (Fintype.card F - 1) ^ (k + 1) := by
  classical
  have h1 : (Fintype.piFinset fun i : Fin (k + 1) => (Finset.univ.erase (- C ⟨0, by omega⟩ i) : Finset F)).card = (Fintype.card F - 1) ^ (k + 1) := by
    rw [Fintype.card_piFinset]
    simp [Finset.card_erase_of_mem, Finset.card_univ]
  rw [← h1, Nat.card_eq_fintype_card, Fintype.card_subtype]
  refine Finset.card_le_card fun x hx => Fintype.mem_piFinset.2 fun i => Finset.mem_erase.2 ⟨fun h => ?_, Finset.mem_univ _⟩
  have := (Finset.mem_filter.1 hx).2 ⟨0, by omega⟩ (by show 0 < n; omega) i (by left; simpa using .inl hrf)
  refine this ?_
  show x i + _ = 0
  rw [h, neg_add_cancel]

end Poseidon
