import Verif.Spec.Trail
import Verif.Spec.Mds
import Verif.Proofs.Cauchy
import Mathlib.Algebra.BigOperators.Intervals

/-!
# A lower bound for the number of active S-boxes
-/

set_option linter.unusedSectionVars false

namespace Poseidon

open Matrix

/-- If every window of `w` consecutive terms sums to at least `c`, then `m` terms sum to at least `m / w * c`. -/
theorem sum_windows {f : Nat → Nat} {w c : Nat} (hw : 0 < w) :
    ∀ (m a : Nat), (∀ r, a ≤ r → r + w ≤ a + m → c ≤ ∑ j ∈ Finset.range w, f (r + j)) →
      m / w * c ≤ ∑ j ∈ Finset.range m, f (a + j) := by
  intro m
  induction m using Nat.strong_induction_on with
  | _ m ih =>
    intro a h
    rcases Nat.lt_or_ge m w with hlt | hge
    · rw [Nat.div_eq_of_lt hlt, Nat.zero_mul]; exact Nat.zero_le _
    · have h1 := ih (m - w) (by omega) (a + w) (fun r h1 h2 => h r (by omega) (by omega))
      have h2 := h a le_rfl (by omega)
      have h3 : m / w = (m - w) / w + 1 := by
        conv_lhs => rw [show m = m - w + w by omega]
        exact Nat.add_div_right _ hw
      have h4 : ∑ j ∈ Finset.range m, f (a + j) =
          ∑ j ∈ Finset.range w, f (a + j) + ∑ j ∈ Finset.range (m - w), f (a + w + j) := by
        conv_lhs => rw [show m = w + (m - w) by omega]
        rw [Finset.sum_range_add]
        simp only [Nat.add_assoc]
      rw [h3, h4, Nat.add_mul, Nat.one_mul]
      omega

variable {F : Type _} [Field F] [DecidableEq F] {t : Nat}

/-- The S-box is injective where it is defined. -/
def Alpha.Injective (F : Type _) [Field F] (a : Alpha) : Prop :=
  ∀ x y : F, a.Defined x → a.Defined y → a.val x = a.val y → x = y

/-- No non-zero vector has word 0 equal to zero after `0, 1, .., t - 1` multiplications. -/
def NoInactiveTrail (M : Matrix (Fin t) (Fin t) F) : Prop :=
  ∀ x : Fin t → F, x ≠ 0 → ∃ n, n < t ∧ ∃ i : Fin t, i.val = 0 ∧ (M ^ n).mulVec x i ≠ 0

section
variable {a : Alpha} {M : Matrix (Fin t) (Fin t) F} {rf rp : Nat} {C : Fin (rf + rp + rf) → Fin t → F}

theorem prefix_zero (x : Fin t → F) : textbookPrefix a M rf rp C 0 x = some x := by
  rw [textbookPrefix, List.take_zero]; rfl

theorem prefix_succ (m : Nat) (hm : m < rf + rp + rf) (x : Fin t → F) :
    textbookPrefix a M rf rp C (m + 1) x = (textbookPrefix a M rf rp C m x).bind
      (textbookRound a M (decide (m < rf ∨ rf + rp ≤ m)) (C ⟨m, hm⟩)) := by
  have hl : m < (List.finRange (rf + rp + rf)).length := by simpa using hm
  rw [textbookPrefix, List.take_succ_eq_append_getElem hl, List.foldlM_append]
  show Option.bind _ _ = _
  congr 1
  funext s
  rw [List.foldlM_cons]
  simp only [List.foldlM_nil, List.getElem_finRange, Fin.val_cast]
  show Option.bind _ _ = _
  rw [Option.bind_eq_bind.symm]
  exact bind_pure _

theorem prefix_all (x : Fin t → F) : textbookPrefix a M rf rp C (rf + rp + rf) x = textbook a M rf rp C x := by
  rw [textbookPrefix, textbook, List.take_of_length_le (by simp)]

theorem prefix_defined {x y : Fin t → F} (h : textbook a M rf rp C x = some y) {m : Nat} (hm : m ≤ rf + rp + rf) :
    ∃ s, textbookPrefix a M rf rp C m x = some s := by
  obtain ⟨d, hd⟩ : ∃ d, rf + rp + rf = m + d := ⟨_, (Nat.add_sub_of_le hm).symm⟩
  clear hm
  induction d generalizing m with
  | zero => exact ⟨y, by rw [show m = rf + rp + rf by omega, prefix_all, h]⟩
  | succ d ih =>
    obtain ⟨s, hs⟩ := ih (m := m + 1) (by omega)
    rw [prefix_succ m (by omega)] at hs
    cases h' : textbookPrefix a M rf rp C m x with
    | none => rw [h'] at hs; cases hs
    | some s' => exact ⟨s', rfl⟩

end

/-- Two runs of the permutation: states `S`, `S'`. -/
structure Runs (a : Alpha) (M : Matrix (Fin t) (Fin t) F) (rf rp : Nat) (C : Fin (rf + rp + rf) → Fin t → F)
    (S : Nat → Fin t → F) : Prop where
  step : ∀ r (hr : r < rf + rp + rf), (∀ i, Active (decide (r < rf ∨ rf + rp ≤ r)) i → a.Defined (S r i + C ⟨r, hr⟩ i)) ∧
    S (r + 1) = M.mulVec fun i => if Active (decide (r < rf ∨ rf + rp ≤ r)) i then a.val (S r i + C ⟨r, hr⟩ i)
      else S r i + C ⟨r, hr⟩ i

theorem runs_of_textbook {a : Alpha} {M : Matrix (Fin t) (Fin t) F} {rf rp : Nat} {C : Fin (rf + rp + rf) → Fin t → F}
    {x y : Fin t → F} (h : textbook a M rf rp C x = some y) :
    ∃ S : Nat → Fin t → F, S 0 = x ∧ (∀ m ≤ rf + rp + rf, textbookPrefix a M rf rp C m x = some (S m)) ∧ Runs a M rf rp C S := by
  have hex : ∀ m, ∃ s, m ≤ rf + rp + rf → textbookPrefix a M rf rp C m x = some s := by
    intro m
    by_cases hm : m ≤ rf + rp + rf
    · obtain ⟨s, hs⟩ := prefix_defined h hm; exact ⟨s, fun _ => hs⟩
    · exact ⟨x, fun h => absurd h hm⟩
  choose S hS using hex
  refine ⟨S, ?_, hS, ⟨fun r hr => ?_⟩⟩
  · have := hS 0 (Nat.zero_le _)
    rw [prefix_zero] at this
    exact (Option.some.inj this).symm
  · have h1 := hS (r + 1) hr
    rw [prefix_succ r hr, hS r hr.le] at h1
    change textbookRound _ _ _ _ _ = _ at h1
    rw [textbookRound] at h1
    split at h1
    · next hd => exact ⟨hd, (Option.some.inj h1).symm⟩
    · cases h1

section
variable {a : Alpha} {M : Matrix (Fin t) (Fin t) F} {rf rp : Nat} {C : Fin (rf + rp + rf) → Fin t → F}
  {S S' : Nat → Fin t → F}

/-- Active S-boxes of round `r`. -/
def roundActive (rf rp : Nat) (S S' : Nat → Fin t → F) (r : Nat) : Nat :=
  (Finset.univ.filter fun i : Fin t => Active (decide (r < rf ∨ rf + rp ≤ r)) i ∧ S r i ≠ S' r i).card

/-- The S-box layer, as a function of one word. -/
def layer (a : Alpha) (full : Bool) (c s : Fin t → F) (i : Fin t) : F :=
  if Active full i then a.val (s i + c i) else s i + c i

theorem layer_eq_iff (ha : a.Injective F) {full : Bool} {c s s' : Fin t → F}
    (h : ∀ i, Active full i → a.Defined (s i + c i)) (h' : ∀ i, Active full i → a.Defined (s' i + c i)) (i : Fin t) :
    layer a full c s i = layer a full c s' i ↔ s i = s' i := by
  rw [layer, layer]
  constructor
  · intro e
    split at e
    · next hi => exact add_right_cancel (ha _ _ (h i hi) (h' i hi) e)
    · exact add_right_cancel e
  · intro e; rw [e]

theorem layer_diff (ha : a.Injective F) {full : Bool} {c s s' : Fin t → F}
    (h : ∀ i, Active full i → a.Defined (s i + c i)) (h' : ∀ i, Active full i → a.Defined (s' i + c i)) :
    diffWords (layer a full c s) (layer a full c s') = diffWords s s' := by
  rw [diffWords, diffWords]
  congr 1
  ext i
  simp only [Finset.mem_filter, Finset.mem_univ, true_and, ne_eq, layer_eq_iff ha h h' i]

theorem diffWords_pos {x y : Fin t → F} (h : x ≠ y) : 1 ≤ diffWords x y := by
  obtain ⟨i, hi⟩ := Function.ne_iff.1 h
  exact Finset.card_pos.2 ⟨i, by simpa using hi⟩

theorem ne_of_diffWords {x y : Fin t → F} (h : 1 ≤ diffWords x y) : x ≠ y := by
  rintro rfl
  simp [diffWords] at h

theorem runs_branch (ha : a.Injective F) (hM : IsMDS M) (hS : Runs a M rf rp C S) (hS' : Runs a M rf rp C S') {r : Nat}
    (hr : r < rf + rp + rf) (hne : S r ≠ S' r) :
    t + 1 ≤ diffWords (S r) (S' r) + diffWords (S (r + 1)) (S' (r + 1)) := by
  obtain ⟨h1, h2⟩ := hS.step r hr
  obtain ⟨h3, h4⟩ := hS'.step r hr
  have hl := layer_diff ha h1 h3
  rw [h2, h4, ← hl]
  refine hM.branch _ _ ?_
  apply ne_of_diffWords
  exact hl ▸ diffWords_pos hne

theorem runs_ne (ha : a.Injective F) (hM : IsMDS M) (hS : Runs a M rf rp C S) (hS' : Runs a M rf rp C S')
    (h0 : S 0 ≠ S' 0) : ∀ r, r ≤ rf + rp + rf → S r ≠ S' r := by
  intro r
  induction r with
  | zero => intro _; exact h0
  | succ r ih =>
    intro hr
    have hne := ih (by omega)
    have h1 := runs_branch ha hM hS hS' (by omega : r < rf + rp + rf) hne
    apply ne_of_diffWords
    have h2 : diffWords (S r) (S' r) ≤ t := by
      rw [diffWords]; exact (Finset.card_filter_le _ _).trans (by simp)
    omega

theorem roundActive_full {r : Nat} (hf : r < rf ∨ rf + rp ≤ r) : roundActive rf rp S S' r = diffWords (S r) (S' r) := by
  rw [roundActive, diffWords]
  congr 1
  ext i
  simp [Active, hf]

theorem window_full (ha : a.Injective F) (hM : IsMDS M) (hS : Runs a M rf rp C S) (hS' : Runs a M rf rp C S')
    (h0 : S 0 ≠ S' 0) {r : Nat} (hr : r + 1 < rf + rp + rf) (h1 : r < rf ∨ rf + rp ≤ r) (h2 : r + 1 < rf ∨ rf + rp ≤ r + 1) :
    t + 1 ≤ ∑ j ∈ Finset.range 2, roundActive rf rp S S' (r + j) := by
  rw [Finset.sum_range_succ, Finset.sum_range_one]
  rw [show r + 0 = r from rfl, roundActive_full h1, roundActive_full h2]
  exact runs_branch ha hM hS hS' (by omega) (runs_ne ha hM hS hS' h0 r (by omega))

theorem window_partial (ha : a.Injective F) (hM : IsMDS M) (hT : NoInactiveTrail M) (hS : Runs a M rf rp C S)
    (hS' : Runs a M rf rp C S') (h0 : S 0 ≠ S' 0) {r : Nat} (h1 : rf ≤ r) (h2 : r + t ≤ rf + rp) :
    1 ≤ ∑ j ∈ Finset.range t, roundActive rf rp S S' (r + j) := by
  by_contra hz
  have hz0 : ∀ j, j < t → roundActive rf rp S S' (r + j) = 0 := by
    intro j hj
    have h3 := Finset.single_le_sum (f := fun j => roundActive rf rp S S' (r + j)) (fun _ _ => Nat.zero_le _) (Finset.mem_range.2 hj)
    omega
  have hword : ∀ j, j < t → ∀ i : Fin t, i.val = 0 → S (r + j) i = S' (r + j) i := by
    intro j hj i hi
    have h3 := hz0 j hj
    rw [roundActive, Finset.card_eq_zero, Finset.filter_eq_empty_iff] at h3
    have h4 := h3 (Finset.mem_univ i)
    by_contra hne
    exact h4 ⟨Or.inr hi, hne⟩
  have hlin : ∀ j, j < t → S (r + j) - S' (r + j) = (M ^ j).mulVec (S r - S' r) := by
    intro j
    induction j with
    | zero => intro _; rw [pow_zero, Matrix.one_mulVec]; rfl
    | succ j ih =>
      intro hj
      have hr : r + j < rf + rp + rf := by omega
      have hnf : decide (r + j < rf ∨ rf + rp ≤ r + j) = false := by
        rw [decide_eq_false_iff_not]; omega
      have e1 := (hS.step (r + j) hr).2
      have e2 := (hS'.step (r + j) hr).2
      have e1' : S (r + (j + 1)) = _ := e1
      have e2' : S' (r + (j + 1)) = _ := e2
      rw [e1', e2', hnf, pow_succ', ← Matrix.mulVec_mulVec, ← ih (by omega), ← Matrix.mulVec_sub]
      congr 1
      funext i
      simp only [Pi.sub_apply]
      by_cases hi : i.val = 0
      · have hA : Active false i := Or.inr hi
        rw [if_pos hA, if_pos hA, hword j (by omega) i hi, sub_self, sub_self]
      · have hA : ¬ Active false i := by
          rintro (h | h)
          · cases h
          · exact hi h
        rw [if_neg hA, if_neg hA]
        ring
  have hne := runs_ne ha hM hS hS' h0 r (by omega)
  obtain ⟨n, hn, i, hi, h3⟩ := hT (S r - S' r) (sub_ne_zero.2 hne)
  rw [← hlin n hn, Pi.sub_apply, hword n hn i hi, sub_self] at h3
  exact h3 rfl

theorem active_sum {x y : Fin t → F} (hS : ∀ m ≤ rf + rp + rf, textbookPrefix a M rf rp C m x = some (S m))
    (hS' : ∀ m ≤ rf + rp + rf, textbookPrefix a M rf rp C m y = some (S' m)) :
    activeSboxes a M rf rp C x y = ∑ r ∈ Finset.range (rf + rp + rf), roundActive rf rp S S' r := by
  rw [activeSboxes, Finset.sum_range fun r => roundActive rf rp S S' r, Finset.card_filter, Fintype.sum_prod_type]
  refine Finset.sum_congr rfl fun r _ => ?_
  rw [roundActive, Finset.card_filter]
  refine Finset.sum_congr rfl fun i _ => ?_
  have e : (sboxInput a M rf rp C r i x ≠ sboxInput a M rf rp C r i y) ↔ S r i ≠ S' r i := by
    rw [sboxInput, sboxInput, hS r r.isLt.le, hS' r r.isLt.le]
    simp
  simp only [e]

theorem active_bound (ht : 0 < t) (ha : a.Injective F) (hM : IsMDS M) (hT : NoInactiveTrail M) {x y x' y' : Fin t → F}
    (hx : textbook a M rf rp C x = some x') (hy : textbook a M rf rp C y = some y') (hne : x ≠ y) :
    2 * (rf / 2) * (t + 1) + rp / t ≤ activeSboxes a M rf rp C x y := by
  obtain ⟨S, h1, h2, h3⟩ := runs_of_textbook hx
  obtain ⟨S', h1', h2', h3'⟩ := runs_of_textbook hy
  have h0 : S 0 ≠ S' 0 := by rw [h1, h1']; exact hne
  rw [active_sum h2 h2', Finset.sum_range_add, Finset.sum_range_add]
  have a1 := sum_windows (f := roundActive rf rp S S') (w := 2) (c := t + 1) (by norm_num) rf 0 (fun r _ hr =>
    window_full ha hM h3 h3' h0 (by omega) (by omega) (by omega))
  have a2 := sum_windows (f := roundActive rf rp S S') (w := t) (c := 1) ht rp rf (fun r hr hr' =>
    window_partial ha hM hT h3 h3' h0 hr hr')
  have a3 := sum_windows (f := roundActive rf rp S S') (w := 2) (c := t + 1) (by norm_num) rf (rf + rp) (fun r hr hr' =>
    window_full ha hM h3 h3' h0 (by omega) (by omega) (by omega))
  simp only [Nat.zero_add] at a1
  rw [Nat.mul_assoc]
  omega

end

end Poseidon
