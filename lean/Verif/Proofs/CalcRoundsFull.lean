import Verif.Proofs.CalcRounds
import Verif.Model.CalcRoundsFull

/-!
# The whole round number script of the Poseidon authors (C84)
-/

set_option linter.unusedSectionVars false

namespace Poseidon

/-! ### The loops without errors -/

/-- The body of the inner loop when the test does not fail: `inc` more full rounds, `mg` the partial rounds with the margin. -/
def fdPure (sat : Nat → Nat → Bool) (cost : Nat → Nat → Nat) (inc : Nat) (mg : Nat → Nat) (st : FdState × Nat) (f : Nat) : FdState × Nat :=
  if f % 2 = 0 then
    if sat f st.2 then
      if fdBetter (cost (f + inc) (mg st.2)) (f + inc) st.1 then
        (⟨mg st.2, f + inc, some (cost (f + inc) (mg st.2)), f + inc⟩, mg st.2) else (st.1, mg st.2)
    else st
  else st

/-- Full rounds added and partial rounds with margin, as `security_margin` says. -/
def incOf (on : Bool) : Nat := if on then 2 else 0
def mgOf (on : Bool) (margin : Nat → Nat) : Nat → Nat := fun n => if on then margin n else n

theorem fdStep_pure (sat : Nat → Nat → Bool) (cost : Nat → Nat → Nat) (on : Bool) (margin : Nat → Nat) (st : FdState × Nat) (f : Nat) :
    fdStep (fun f ρ => some (sat f ρ)) cost on margin st f = some (fdPure sat cost (incOf on) (mgOf on margin) st f) := by
  unfold fdStep fdPure incOf mgOf
  cases on <;> simp only [if_true, Bool.false_eq_true, if_false, Option.bind_eq_bind, Option.bind_some, Option.pure_def, Nat.add_zero] <;>
    split_ifs <;> rfl

theorem foldlM_some {α β : Type} (g : β → α → Option β) (h : β → α → β) (hg : ∀ b a, g b a = some (h b a)) (l : List α) (b : β) :
    l.foldlM g b = some (l.foldl h b) := by
  induction l generalizing b with
  | nil => rfl
  | cons a l ih => rw [List.foldlM_cons, hg, List.foldl_cons]; exact ih _

/-- The outer loop over a list of values of `R_P_t`. -/
def fdOuter (sat : Nat → Nat → Bool) (cost : Nat → Nat → Nat) (inc : Nat) (mg : Nat → Nat) (l : List Nat) (s : FdState) : FdState :=
  l.foldl (fun s ρ => ((List.range' 4 96).foldl (fdPure sat cost inc mg) (s, ρ)).1) s

theorem fdLoops_pure (sat : Nat → Nat → Bool) (cost : Nat → Nat → Nat) (on : Bool) (margin : Nat → Nat) :
    fdLoops (fun f ρ => some (sat f ρ)) cost on margin =
      some (fdOuter sat cost (incOf on) (mgOf on margin) (List.range' 1 499) ⟨0, 0, none, 0⟩) := by
  unfold fdLoops fdOuter
  apply foldlM_some
  intro s ρ
  rw [foldlM_some _ _ (fdStep_pure sat cost on margin)]
  rfl

/-- An error in the test at the first candidate ends the program. -/
theorem fdLoops_none (cost : Nat → Nat → Nat) (on : Bool) (margin : Nat → Nat) : fdLoops (fun _ _ => none) cost on margin = none := by
  unfold fdLoops
  rw [show List.range' 1 499 = 1 :: List.range' 2 498 from rfl, List.foldlM_cons,
    show List.range' 4 96 = 4 :: List.range' 5 95 from rfl, List.foldlM_cons]
  rfl

/-! ### The best pair -/

section
variable {sat : Nat → Nat → Bool} {cost : Nat → Nat → Nat} {inc : Nat} {mg : Nat → Nat} {r : Nat}

/-- The state after the best pair, which has 6 full rounds before the margin. -/
def pureBest (cost : Nat → Nat → Nat) (inc : Nat) (mg : Nat → Nat) (r : Nat) : FdState := ⟨mg r, 6 + inc, some (cost (6 + inc) (mg r)), 6 + inc⟩

/-- Nothing as cheap as the best pair has been seen, or the best pair is the choice. -/
def PureInv (cost : Nat → Nat → Nat) (inc : Nat) (mg : Nat → Nat) (r : Nat) (s : FdState) : Prop :=
  (∀ c, s.minCost = some c → cost (6 + inc) (mg r) < c) ∨ s = pureBest cost inc mg r

variable (hcost : ∀ f ρ, f < 100 → f % 2 = 0 → sat f ρ = true → (f = 6 ∧ ρ = r) ∨ cost (6 + inc) (mg r) < cost (f + inc) (mg ρ))
  (h4 : sat 4 r = false) (h6 : sat 6 r = true) (hr : 1 ≤ r) (hr' : r < 500)
include hcost

theorem fdPure_inv (s : FdState) (ρ f : Nat) (hf' : f < 100) (h : PureInv cost inc mg r s) :
    PureInv cost inc mg r (fdPure sat cost inc mg (s, ρ) f).1 ∧
      (s = pureBest cost inc mg r → (fdPure sat cost inc mg (s, ρ) f).1 = pureBest cost inc mg r) ∧
      (f = 6 → ρ = r → sat 6 r = true → (fdPure sat cost inc mg (s, ρ) f).1 = pureBest cost inc mg r) := by
  unfold fdPure
  by_cases hf : f % 2 = 0
  · rw [if_pos hf]
    dsimp only
    by_cases hs : sat f ρ = true
    · rw [if_pos hs]
      rcases hcost f ρ hf' hf hs with ⟨rfl, rfl⟩ | hc
      · rcases h with h | h
        · have : fdBetter (cost (6 + inc) (mg ρ)) (6 + inc) s = true := by
            unfold fdBetter
            split
            · rfl
            · next c hc => exact decide_eq_true (Or.inl (h c hc))
          rw [if_pos this]
          exact ⟨Or.inr rfl, fun _ => rfl, fun _ _ _ => rfl⟩
        · have : ¬ fdBetter (cost (6 + inc) (mg ρ)) (6 + inc) s = true := by
            rw [h]; simp [fdBetter, pureBest]
          rw [if_neg this]
          exact ⟨Or.inr h, fun _ => h, fun _ _ _ => h⟩
      · have hne : f = 6 → ρ = r → False := fun e1 e2 => by subst e1; subst e2; exact lt_irrefl _ hc
        by_cases hbet : fdBetter (cost (f + inc) (mg ρ)) (f + inc) s = true
        · rw [if_pos hbet]
          refine ⟨Or.inl fun c hcc => ?_, fun he => ?_, fun e1 e2 => (hne e1 e2).elim⟩
          · cases hcc; exact hc
          · subst he
            have hbet' : cost (f + inc) (mg ρ) < cost (6 + inc) (mg r) ∨
              cost (f + inc) (mg ρ) = cost (6 + inc) (mg r) ∧ f + inc < 6 + inc := of_decide_eq_true hbet
            omega
        · rw [if_neg hbet]
          exact ⟨h, fun he => he, fun e1 e2 => (hne e1 e2).elim⟩
    · rw [if_neg hs]
      exact ⟨h, fun he => he, fun e1 e2 e3 => by subst e1; subst e2; exact (hs e3).elim⟩
  · rw [if_neg hf]
    exact ⟨h, fun he => he, fun e1 => by omega⟩

theorem pureInner_inv (l : List Nat) (hl : ∀ f ∈ l, f < 100) (s : FdState) (ρ : Nat) (h : PureInv cost inc mg r s) :
    PureInv cost inc mg r (l.foldl (fdPure sat cost inc mg) (s, ρ)).1 ∧
      (s = pureBest cost inc mg r → (l.foldl (fdPure sat cost inc mg) (s, ρ)).1 = pureBest cost inc mg r) := by
  induction l generalizing s ρ with
  | nil => exact ⟨h, fun e => e⟩
  | cons f l ih =>
    have h1 := fdPure_inv hcost s ρ f (hl f List.mem_cons_self) h
    rw [List.foldl_cons]
    have h2 := ih (fun g hg => hl g (List.mem_cons_of_mem _ hg)) (fdPure sat cost inc mg (s, ρ) f).1 (fdPure sat cost inc mg (s, ρ) f).2 h1.1
    exact ⟨h2.1, fun e => h2.2 (h1.2.1 e)⟩

theorem pureOuter_inv (l : List Nat) (s : FdState) (h : PureInv cost inc mg r s) :
    PureInv cost inc mg r (fdOuter sat cost inc mg l s) ∧
      (s = pureBest cost inc mg r → fdOuter sat cost inc mg l s = pureBest cost inc mg r) := by
  unfold fdOuter
  induction l generalizing s with
  | nil => exact ⟨h, fun e => e⟩
  | cons ρ l ih =>
    rw [List.foldl_cons]
    have h1 := pureInner_inv hcost (List.range' 4 96) (fun f hf => by have := List.mem_range'_1.1 hf; omega) s ρ h
    have h2 := ih _ h1.1
    exact ⟨h2.1, fun e => h2.2 (h1.2 e)⟩

include h4 h6 hr hr'

theorem fdOuter_eq : fdOuter sat cost inc mg (List.range' 1 499) ⟨0, 0, none, 0⟩ = pureBest cost inc mg r := by
  have hsplit : List.range' 1 499 = List.range' 1 (r - 1) ++ r :: List.range' (r + 1) (499 - r) := by
    have e1 : List.range' 1 499 = List.range' 1 (r - 1) ++ List.range' r (500 - r) := by
      have := List.range'_append (s := 1) (m := r - 1) (n := 500 - r) (step := 1)
      rw [show 1 + 1 * (r - 1) = r by omega, show (r - 1) + (500 - r) = 499 by omega] at this
      exact this.symm
    rw [e1, show 500 - r = (499 - r) + 1 by omega, List.range'_succ]
  have h0 : PureInv cost inc mg r ⟨0, 0, none, 0⟩ := Or.inl fun c hc => by cases hc
  have h1 := (pureOuter_inv hcost (List.range' 1 (r - 1)) _ h0).1
  have hhit : ∀ s, PureInv cost inc mg r s → ((List.range' 4 96).foldl (fdPure sat cost inc mg) (s, r)).1 = pureBest cost inc mg r := by
    intro s h
    rw [show List.range' 4 96 = 4 :: 5 :: 6 :: List.range' 7 93 from rfl, List.foldl_cons, List.foldl_cons, List.foldl_cons]
    have e4 : fdPure sat cost inc mg (s, r) 4 = (s, r) := by simp [fdPure, h4]
    have e5 : fdPure sat cost inc mg (s, r) 5 = (s, r) := by simp [fdPure]
    rw [e4, e5]
    have e6 := fdPure_inv hcost s r 6 (by norm_num) h
    exact (pureInner_inv hcost (List.range' 7 93) (fun f hf => by have := List.mem_range'_1.1 hf; omega) _ (fdPure sat cost inc mg (s, r) 6).2 e6.1).2 (e6.2.2 rfl rfl h6)
  unfold fdOuter at h1 ⊢
  rw [hsplit, List.foldl_append, List.foldl_cons, hhit _ h1]
  exact (pureOuter_inv hcost _ _ (Or.inr rfl)).2 rfl

end

/-! ### The S-box cost -/

/-- Every accepted pair other than the best one needs more S-boxes: `fl` is what full rounds contribute to the requirement. -/
theorem sbox_best {fl : Nat → Nat} {t r f ρ : Nat} {on : Bool} {margin : Nat → Nat} (hmono : ∀ a b, a ≤ b → margin a ≤ margin b)
    (hm : ∀ n, 1 ≤ n → n < 400 → margin n = (43 * n + 39) / 40) (ht : 2 ≤ t) (hr : 1 ≤ r) (hr' : r < 399)
    (hfl : ∀ d, 2 ≤ d → 6 + d < 100 → 43 * fl (6 + d) + 40 ≤ 43 * fl 6 + 40 * (t * d)) (hf : f % 2 = 0) (hf' : f < 100) (h6 : 6 ≤ f)
    (hB : r + fl 6 ≤ fl f + ρ) :
    (f = 6 ∧ ρ = r) ∨ getSboxCost (6 + incOf on) (mgOf on margin r) t < getSboxCost (f + incOf on) (mgOf on margin ρ) t := by
  unfold getSboxCost incOf mgOf
  have hmr := hm r hr (by omega)
  obtain ⟨d, rfl⟩ := Nat.exists_eq_add_of_le h6
  by_cases hd : d = 0
  · subst hd
    by_cases hρ : ρ = r
    · exact Or.inl ⟨rfl, hρ⟩
    · right
      rw [Nat.add_zero] at hB ⊢
      cases on
      · simp only [Bool.false_eq_true, if_false]; omega
      · simp only [if_true]
        have h1 := hmono (r + 1) ρ (by omega)
        rw [hm (r + 1) (by omega) (by omega)] at h1
        omega
  · right
    have hg := hfl d (by omega) hf'
    have h2 : 2 * d ≤ t * d := Nat.mul_le_mul_right d ht
    cases on
    · simp only [Bool.false_eq_true, if_false, Nat.add_zero]
      have e : t * (6 + d) = t * 6 + t * d := by ring
      rw [e]
      omega
    · simp only [if_true]
      have e : t * (6 + d + 2) = t * (6 + 2) + t * d := by ring
      rw [e]
      by_cases hρ : ρ = 0
      · omega
      · by_cases hρ2 : ρ < 400
        · rw [hm ρ (by omega) hρ2]; omega
        · have h1 := hmono r ρ (by omega)
          omega

/-! ### From the loops to the program -/

theorem satInequiv_exponent (L : Libm) (p t M e : Nat) (he : 2 ≤ e) :
    (fun rF rP => satInequiv L p t rF rP (e : ℤ) M) = fun rF rP => some (satInequivAlpha L p t rF rP e M) := by
  funext rF rP
  unfold satInequiv
  rw [if_pos (by omega), if_neg (by omega), Int.toNat_natCast]

theorem satInequiv_inverse (L : Libm) (p t M : Nat) :
    (fun rF rP => satInequiv L p t rF rP (-1) M) = fun rF rP => some (satInequivInverse L p t rF rP M) := by
  funext rF rP
  unfold satInequiv
  rw [if_neg (by norm_num), if_pos rfl]

theorem satInequiv_invalid (L : Libm) (p t M : Nat) (alpha : ℤ) (h : alpha ≤ 1) (h' : alpha ≠ -1) :
    (fun rF rP => satInequiv L p t rF rP alpha M) = fun _ _ => none := by
  funext rF rP
  unfold satInequiv
  by_cases h0 : alpha > 0
  · rw [if_pos h0, if_pos (by omega)]
  · rw [if_neg h0, if_neg h']

/-- The three kinds of `alpha`. -/
theorem satInequiv_cases (L : Libm) (p t M : Nat) (alpha : ℤ) :
    (∃ sat : Nat → Nat → Bool, (fun rF rP => satInequiv L p t rF rP alpha M) = fun rF rP => some (sat rF rP)) ∧ (2 ≤ alpha ∨ alpha = -1) ∨
    (fun rF rP => satInequiv L p t rF rP alpha M) = (fun _ _ => none) ∧ ¬ (2 ≤ alpha ∨ alpha = -1) := by
  by_cases h : alpha = -1
  · subst h
    exact Or.inl ⟨⟨_, satInequiv_inverse L p t M⟩, Or.inr rfl⟩
  · by_cases h2 : 2 ≤ alpha
    · obtain ⟨e, rfl⟩ := Int.eq_ofNat_of_zero_le (by omega : 0 ≤ alpha)
      exact Or.inl ⟨⟨_, satInequiv_exponent L p t M e (by omega)⟩, Or.inl h2⟩
    · exact Or.inr ⟨satInequiv_invalid L p t M alpha (by omega) h, by omega⟩

/-- The numbers of the program: before the margin 6 full and `r` partial rounds. -/
def scriptPair (on : Bool) (r : Nat) : Nat × Nat := if on then (8, (43 * r + 39) / 40) else (6, r)

/-- The search, when the test is that of `fl`. -/
theorem findRoundNumbers_eq {L : Libm} {p t M r : Nat} {alpha : ℤ} {sat : Nat → Nat → Bool} {fl : Nat → Nat} (on : Bool)
    (hs : (fun rF rP => satInequiv L p t rF rP alpha M) = fun rF rP => some (sat rF rP))
    (hsat : ∀ f ρ, f < 100 → sat f ρ = decide (6 ≤ f ∧ r + fl 6 ≤ fl f + ρ))
    (ht : 2 ≤ t) (hr : 1 ≤ r) (hr' : r < 399)
    (hfl : ∀ d, 2 ≤ d → 6 + d < 100 → 43 * fl (6 + d) + 40 ≤ 43 * fl 6 + 40 * (t * d)) :
    findRoundNumbers L p t alpha M sboxCostFn on = some (scriptPair on r) := by
  unfold findRoundNumbers sboxCostFn
  rw [hs, fdLoops_pure]
  rw [fdOuter_eq (r := r) (fun f ρ h100 hf h => by
      rw [hsat f ρ h100, decide_eq_true_eq] at h
      exact sbox_best pyMargin_mono pyMargin_eq ht hr hr' hfl hf h100 h.1 h.2)
    (by rw [hsat _ _ (by norm_num)]; simp) (by rw [hsat _ _ (by norm_num)]; simp; omega) hr (by omega)]
  cases on
  · rfl
  · simp only [pureBest, incOf, mgOf, scriptPair, if_true, pyMargin_eq r hr (by omega)]
    rfl

/-! ### The size cost -/

/-- The state with the cost multiplied by `n`. -/
def FdState.scale (n : Nat) (s : FdState) : FdState := ⟨s.rP, s.rF, s.minCost.map (n * ·), s.maxCostRf⟩

theorem fdBetter_scale {n : Nat} (hn : 0 < n) (c rF : Nat) (s : FdState) : fdBetter (n * c) rF (s.scale n) = fdBetter c rF s := by
  unfold fdBetter FdState.scale
  cases h : s.minCost with
  | none => rfl
  | some m =>
    simp only [Option.map_some]
    rw [decide_eq_decide, Nat.mul_lt_mul_left hn, Nat.mul_right_inj hn.ne']

theorem fdPure_scale {n : Nat} (hn : 0 < n) (sat : Nat → Nat → Bool) (cost : Nat → Nat → Nat) (inc : Nat) (mg : Nat → Nat) (s : FdState)
    (ρ f : Nat) :
    fdPure sat (fun f ρ => n * cost f ρ) inc mg (s.scale n, ρ) f =
      ((fdPure sat cost inc mg (s, ρ) f).1.scale n, (fdPure sat cost inc mg (s, ρ) f).2) := by
  unfold fdPure
  by_cases h1 : f % 2 = 0
  · rw [if_pos h1, if_pos h1]
    by_cases h2 : sat f ρ = true
    · dsimp only
      rw [if_pos h2, if_pos h2, fdBetter_scale hn]
      by_cases h3 : fdBetter (cost (f + inc) (mg ρ)) (f + inc) s = true
      · rw [if_pos h3, if_pos h3]; rfl
      · rw [if_neg h3, if_neg h3]
    · dsimp only
      rw [if_neg h2, if_neg h2]
  · rw [if_neg h1, if_neg h1]

theorem fdOuter_scale {n : Nat} (hn : 0 < n) (sat : Nat → Nat → Bool) (cost : Nat → Nat → Nat) (inc : Nat) (mg : Nat → Nat) (l : List Nat)
    (s : FdState) :
    fdOuter sat (fun f ρ => n * cost f ρ) inc mg l (s.scale n) = (fdOuter sat cost inc mg l s).scale n := by
  have hin : ∀ (l : List Nat) (s : FdState) (ρ : Nat), l.foldl (fdPure sat (fun f ρ => n * cost f ρ) inc mg) (s.scale n, ρ) =
      ((l.foldl (fdPure sat cost inc mg) (s, ρ)).1.scale n, (l.foldl (fdPure sat cost inc mg) (s, ρ)).2) := by
    intro l
    induction l with
    | nil => intro s ρ; rfl
    | cons f l ih =>
      intro s ρ
      rw [List.foldl_cons, List.foldl_cons, fdPure_scale hn, ih]
  unfold fdOuter
  induction l generalizing s with
  | nil => rfl
  | cons ρ l ih => rw [List.foldl_cons, List.foldl_cons, hin]; exact ih _

/-- The size cost is the S-box cost times the size of a field element. -/
theorem sizeCostFn_eq {n t : Nat} (ht : 1 ≤ t) (hN : n * t ≤ 2 ^ 53) (rF rP : Nat) : sizeCostFn rF rP (n * t) t = n * getSboxCost rF rP t := by
  have hn : n ≤ 2 ^ 53 := (Nat.le_mul_of_pos_right n (by omega)).trans hN
  have htR : (t : ℝ) ≠ 0 := by exact_mod_cast (by omega : t ≠ 0)
  unfold sizeCostFn getSboxCost
  dsimp only
  rw [rne_natCast hN]
  push_cast
  rw [mul_div_cancel_right₀ _ htR, rne_natCast hn, Int.ceil_natCast, asUsize_int, Int.toNat_natCast]
  ring

theorem findRoundNumbers_size {L : Libm} {p t M : Nat} {alpha : ℤ} {on : Bool} (ht : 1 ≤ t) (hn : 0 < asUsize ⌈L.log p 2⌉)
    (hN : permutationSize L p t ≤ 2 ^ 53) :
    findRoundNumbers L p t alpha M sizeCostFn on = findRoundNumbers L p t alpha M sboxCostFn on := by
  unfold findRoundNumbers permutationSize at *
  generalize asUsize ⌈L.log p 2⌉ = n at *
  have e : (fun rF rP => sizeCostFn rF rP (n * t) t) = fun rF rP => n * getSboxCost rF rP t := by
    funext rF rP; exact sizeCostFn_eq ht hN rF rP
  rw [e]
  rcases satInequiv_cases L p t M alpha with ⟨⟨sat, hs⟩, -⟩ | ⟨hs, -⟩
  · rw [hs, fdLoops_pure, fdLoops_pure]
    have h := fdOuter_scale hn sat (fun rF rP => getSboxCost rF rP t) (incOf on) (mgOf on pyMargin) (List.range' 1 499) ⟨0, 0, none, 0⟩
    rw [show (FdState.scale n ⟨0, 0, none, 0⟩) = ⟨0, 0, none, 0⟩ from rfl] at h
    rw [h]
    simp only [Option.bind_eq_bind, Option.bind_some, FdState.scale, sboxCostFn]
  · rw [hs, fdLoops_none, fdLoops_none]

/-! ### Powers -/

section
variable {L : Libm} {M t p e : Nat}

/-- The test for exponents: conditions under which only the interpolation bound and the six rounds matter. -/
theorem satInequivAlpha_general {A T : Nat} (hS : (M : ℝ) ≤ rne (rne (⌊L.log p 2⌋ - L.log ((e : ℝ) - 1) 2) * ((t : ℝ) + 1)))
    (hA : ⌈rne (L.log 2 e * min (M : ℝ) (L.log p 2))⌉ = A) (hT : ⌈L.log t e⌉ = T) (hAT : A + T ≤ 1000)
    (h3 : 1 + rne (L.log 2 e * min (rne (M / 3)) (rne (L.log p 2 / 2))) ≤ 1 + A + T)
    (h4 : (t : ℝ) - 1 + min (rne (rne (L.log 2 e * M) / ((t : ℝ) + 1))) (rne (rne (L.log 2 e * L.log p 2) / 2)) ≤ 1 + A + T) (f ρ : Nat) :
    satInequivAlpha L p t f ρ e M = decide (6 ≤ f ∧ A + T + 1 ≤ f + ρ) := by
  unfold satInequivAlpha
  dsimp only
  rw [if_pos hS, hA, hT]
  have hsub : ∀ x : ℝ, x ≤ 1 + A + T → ⌈rne (rne x - (ρ : ℝ))⌉ ≤ max 6 (1 + (A : ℤ) + T - ρ) := by
    intro x hx
    have hx' : rne x ≤ 1 + A + T := by
      have := rne_mono (x := x) (y := ((1 + A + T : ℕ) : ℝ)) (by push_cast; exact hx)
      rw [rne_natCast (by omega)] at this
      push_cast at this
      exact this
    rw [Int.ceil_le, ← rne_intCast (n := max 6 (1 + (A : ℤ) + T - ρ)) (abs_le.2 ⟨by omega, by omega⟩)]
    apply rne_mono
    have : ((1 + A + T - ρ : ℤ) : ℝ) ≤ ((max 6 (1 + A + T - ρ) : ℤ) : ℝ) := by exact_mod_cast le_max_right _ _
    push_cast at this ⊢
    linarith
  have g3 := hsub _ h3
  have g4 := hsub _ h4
  rw [decide_eq_decide]
  omega

theorem findRoundNumbers_exponent {A T : Nat} (on : Bool) (he : 2 ≤ e) (ht : 2 ≤ t) (hsat : ∀ f ρ, satInequivAlpha L p t f ρ e M = decide (6 ≤ f ∧ A + T + 1 ≤ f + ρ))
    (h6 : 6 ≤ A + T) (h400 : A + T < 400) : findRoundNumbers L p t e M sboxCostFn on = some (scriptPair on (A + T - 5)) :=
  findRoundNumbers_eq (fl := id) on (satInequiv_exponent L p t M e he) (fun f ρ _ => by
    rw [hsat, decide_eq_decide]; simp only [id]; omega) ht (by omega) (by omega) (fun d hd _ => by
    have h2 : 2 * d ≤ t * d := Nat.mul_le_mul_right d ht
    simp only [id]; omega)

/-- The round numbers of the script from bounds on the logarithms, as `rounds_exponent` for the crate. -/
theorem script_exponent {a b c d m1 m2 C : ℝ} {n A A' T : Nat} (ht1 : 2 ≤ t) (he2 : 2 ≤ e)
    (hC : L.log ((e : ℝ) - 1) 2 ≤ C) (hlp : (n : ℝ) ≤ L.log p 2) (hn : C ≤ n) (h : (M : ℝ) ≤ (n - C) * (t + 1) * 0.99)
    (ha0 : 0 ≤ a) (ha : a ≤ L.log 2 e) (hb : L.log 2 e ≤ b) (hc0 : (T : ℝ) - 1 < c) (hc : c ≤ L.log t e) (hd : L.log t e ≤ d) (hd0 : d ≤ T)
    (hm0 : 0 ≤ m1) (hm1 : m1 ≤ min (M : ℝ) (L.log p 2)) (hm2 : min (M : ℝ) (L.log p 2) ≤ m2)
    (hA : (A : ℝ) < a * m1 * 0.9999 + 1) (hA' : b * m2 * 1.0001 ≤ A') (hG1 : b * (M / 3) * 1.001 ≤ A + T)
    (hG2 : ((t : ℝ) + b * M / (t + 1)) * 1.001 ≤ A + T + 1) (h6 : 6 ≤ A + T) (h400 : A' + T < 400) :
    ∃ I, A + T ≤ I ∧ I ≤ A' + T ∧ ∀ on, findRoundNumbers L p t e M sboxCostFn on = some (scriptPair on (I - 5)) := by
  have hb0 : 0 ≤ b := (ha0.trans ha).trans hb
  have hM0 : (0 : ℝ) ≤ M := Nat.cast_nonneg _
  have ht0 : (0 : ℝ) < (t : ℝ) + 1 := by positivity
  have ht1R : (1 : ℝ) ≤ t := by exact_mod_cast (by omega : 1 ≤ t)
  obtain ⟨I, hI, hI1, hI2⟩ : ∃ I : Nat, ⌈rne (L.log 2 e * min (M : ℝ) (L.log p 2))⌉ = I ∧ A ≤ I ∧ I ≤ A' := by
    generalize min (M : ℝ) (L.log p 2) = m at *
    have hprod1 : a * m1 ≤ L.log 2 e * m := mul_le_mul ha hm1 hm0 (ha0.trans ha)
    have hprod2 : L.log 2 e * m ≤ b * m2 := mul_le_mul hb hm2 (hm0.trans hm1) hb0
    have hp0 : 0 ≤ a * m1 := mul_nonneg ha0 hm0
    have h1 : a * m1 * 0.9999 ≤ rne (L.log 2 e * m) := le_rne_of hprod1 hp0 le_rfl
    have h2 : rne (L.log 2 e * m) ≤ A' := rne_le_of hprod2 (by linarith) hA'
    have h3 : (A : ℤ) ≤ ⌈rne (L.log 2 e * m)⌉ := by
      have : (A : ℤ) - 1 < ⌈rne (L.log 2 e * m)⌉ := by
        rw [Int.lt_ceil]; push_cast; linarith
      omega
    have h4 : ⌈rne (L.log 2 e * m)⌉ ≤ (A' : ℤ) := Int.ceil_le.2 (by exact_mod_cast h2)
    exact ⟨⌈rne (L.log 2 e * m)⌉.toNat, by omega, by omega, by omega⟩
  have hT : ⌈L.log t e⌉ = (T : ℤ) := by
    rw [Int.ceil_eq_iff]; push_cast; constructor <;> linarith
  have hIR : (A : ℝ) ≤ I := by exact_mod_cast hI1
  refine ⟨I + T, by omega, by omega, fun on => findRoundNumbers_exponent on he2 ht1 (satInequivAlpha_general ?_ hI hT (by omega) ?_ ?_) (by omega) (by omega)⟩
  · have hfl : (n : ℝ) ≤ ((⌊L.log p 2⌋ : ℤ) : ℝ) := by exact_mod_cast Int.le_floor.2 (by exact_mod_cast hlp)
    have h0 : 0 ≤ (n : ℝ) - C := by linarith
    have h1 : (n - C) * 0.9999 ≤ rne (((⌊L.log p 2⌋ : ℤ) : ℝ) - L.log ((e : ℝ) - 1) 2) := le_rne_of (a := n - C) (by linarith) h0 le_rfl
    have hp : 0 ≤ (n - C) * ((t : ℝ) + 1) := mul_nonneg h0 ht0.le
    refine le_rne_of (a := (n - C) * 0.9999 * (t + 1)) (mul_le_mul_of_nonneg_right h1 ht0.le) (by positivity) ?_
    nlinarith
  · have h1 : rne ((M : ℝ) / 3) ≤ M / 3 * 1.0001 := rne_le_of le_rfl (by positivity) le_rfl
    have h2 := (min_le_left (rne ((M : ℝ) / 3)) (rne (L.log p 2 / 2))).trans h1
    have h3 : L.log 2 e * min (rne ((M : ℝ) / 3)) (rne (L.log p 2 / 2)) ≤ b * (M / 3 * 1.0001) :=
      (mul_le_mul_of_nonneg_left h2 (ha0.trans ha)).trans (mul_le_mul_of_nonneg_right hb (by positivity))
    have h5 : 0 ≤ b * (M / 3) := by positivity
    have := rne_le_of (c := b * (M / 3) * 1.001) h3 (by positivity) (by nlinarith)
    linarith
  · have h1 : rne (L.log 2 e * M) ≤ b * M * 1.0001 :=
      rne_le_of (mul_le_mul_of_nonneg_right hb hM0) (by positivity) le_rfl
    have h2 : rne (rne (L.log 2 e * M) / ((t : ℝ) + 1)) ≤ b * M / (t + 1) * 1.0001 * 1.0001 := by
      refine rne_le_of (b := b * M * 1.0001 / (t + 1)) (div_le_div_of_nonneg_right h1 ht0.le) (by positivity) (le_of_eq ?_)
      ring
    have h3 := (min_le_left (rne (rne (L.log 2 e * M) / ((t : ℝ) + 1))) (rne (rne (L.log 2 e * L.log p 2) / 2))).trans h2
    have hX : 0 ≤ b * M / ((t : ℝ) + 1) := by positivity
    nlinarith

end

/-! ### The inverse -/

section
variable {L : Libm} {M t p : Nat}

/-- What the full rounds contribute. -/
noncomputable def invFl (L : Libm) (t f : Nat) : Nat := ⌊rne (f * L.log t 2)⌋.toNat

theorem satInequivInverse_general {h j : Nat} (hl : 0 ≤ L.log t 2) (hS : (M : ℤ) ≤ (⌊L.log p 2⌋ - 2) * ((t : ℤ) + 1))
    (hh : ⌈rne (0.5 * min (M : ℝ) (L.log p 2))⌉ = h) (hj : ⌈L.log t 2⌉ = j) (hG : (t : ℤ) + ⌈rne ((M : ℝ) / ((t : ℝ) + 1))⌉ ≤ h + 2) (f ρ : Nat) :
    satInequivInverse L p t f ρ M = decide (6 ≤ f ∧ 1 + h + j ≤ invFl L t f + ρ) := by
  unfold satInequivInverse
  dsimp only
  rw [if_pos hS, hh, hj, decide_eq_decide]
  have h0 : (0 : ℤ) ≤ ⌊rne (f * L.log t 2)⌋ := Int.floor_nonneg.2 (rne_nonneg (by positivity))
  have e : ⌊rne (f * L.log t 2)⌋ = (invFl L t f : ℤ) := (Int.toNat_of_nonneg h0).symm
  rw [e]
  omega

/-- The growth of the contribution of the full rounds. -/
theorem invFl_growth {b : ℝ} (hl : 0 ≤ L.log t 2) (hb : L.log t 2 ≤ b) (hb' : b ≤ 5) (ht : 43 * b + 41.6 ≤ 40 * t) (d : Nat) (hd : 2 ≤ d)
    (hd' : 6 + d < 100) : 43 * invFl L t (6 + d) + 40 ≤ 43 * invFl L t 6 + 40 * (t * d) := by
  have hdR : (2 : ℝ) ≤ d := by exact_mod_cast hd
  have hd2 : (d : ℝ) ≤ 94 := by exact_mod_cast (by omega : d ≤ 94)
  unfold invFl
  generalize L.log t 2 = l at *
  have hle : l ≤ 5 := hb.trans hb'
  have hd0 : (0 : ℝ) ≤ d := by linarith
  have u : rne (((6 + d : ℕ) : ℝ) * l) ≤ (6 + d) * l + 0.001 := by
    push_cast
    refine (rne_le le_rfl (by positivity)).trans ?_
    have : (6 + (d : ℝ)) * l ≤ 100 * 5 := mul_le_mul (by linarith) hle hl (by norm_num)
    have e : (2⁻¹ : ℝ) ^ 53 ≤ 1e-10 := by norm_num
    nlinarith
  have v : 6 * l - 0.001 ≤ rne (((6 : ℕ) : ℝ) * l) := by
    push_cast
    refine le_trans ?_ (le_rne le_rfl (by positivity))
    have e : (2⁻¹ : ℝ) ^ 53 ≤ 1e-10 := by norm_num
    nlinarith
  have n1 : 0 ≤ rne (((6 + d : ℕ) : ℝ) * l) := rne_nonneg (by positivity)
  have n2 : 0 ≤ rne (((6 : ℕ) : ℝ) * l) := rne_nonneg (by positivity)
  generalize rne (((6 + d : ℕ) : ℝ) * l) = x at *
  generalize rne (((6 : ℕ) : ℝ) * l) = y at *
  have f1 := Int.floor_le x
  have f2 := Int.lt_floor_add_one y
  have e1 : ((⌊x⌋.toNat : ℕ) : ℝ) = ((⌊x⌋ : ℤ) : ℝ) := by exact_mod_cast Int.toNat_of_nonneg (Int.floor_nonneg.2 n1)
  have e2 : ((⌊y⌋.toNat : ℕ) : ℝ) = ((⌊y⌋ : ℤ) : ℝ) := by exact_mod_cast Int.toNat_of_nonneg (Int.floor_nonneg.2 n2)
  have key : 43 * ((⌊x⌋.toNat : ℕ) : ℝ) + 40 ≤ 43 * ((⌊y⌋.toNat : ℕ) : ℝ) + 40 * (t * d) := by
    rw [e1, e2]
    nlinarith [mul_le_mul_of_nonneg_right hb hd0, mul_le_mul_of_nonneg_right ht hd0]
  exact_mod_cast key

/-- The same when the logarithm is 1. -/
theorem invFl_growth_two (h1 : L.log ((2 : ℕ) : ℝ) 2 = 1) (d : Nat) (hd : 2 ≤ d) (hd' : 6 + d < 100) :
    43 * invFl L 2 (6 + d) + 40 ≤ 43 * invFl L 2 6 + 40 * (2 * d) := by
  have h : ∀ f : Nat, f < 100 → invFl L 2 f = f := fun f hf => by
    unfold invFl
    rw [h1, mul_one, rne_natCast (by omega), Int.floor_natCast, Int.toNat_natCast]
  rw [h _ hd', h _ (by norm_num)]
  omega

theorem findRoundNumbers_inverse {h j F : Nat} (on : Bool) (ht : 2 ≤ t) (hl : 0 ≤ L.log t 2) (hS : (M : ℤ) ≤ (⌊L.log p 2⌋ - 2) * ((t : ℤ) + 1))
    (hh : ⌈rne (0.5 * min (M : ℝ) (L.log p 2))⌉ = h) (hj : ⌈L.log t 2⌉ = j) (hG : (t : ℤ) + ⌈rne ((M : ℝ) / ((t : ℝ) + 1))⌉ ≤ h + 2)
    (hF : invFl L t 6 = F) (hfl : ∀ d, 2 ≤ d → 6 + d < 100 → 43 * invFl L t (6 + d) + 40 ≤ 43 * invFl L t 6 + 40 * (t * d))
    (h1 : F < 1 + h + j) (h400 : h + j < 398) :
    findRoundNumbers L p t (-1) M sboxCostFn on = some (scriptPair on (1 + h + j - F)) :=
  findRoundNumbers_eq (fl := invFl L t) on (satInequiv_inverse L p t M) (fun f ρ _ => by
    rw [satInequivInverse_general hl hS hh hj hG, decide_eq_decide, hF]; omega) ht (by omega) (by omega) hfl

end

end Poseidon
