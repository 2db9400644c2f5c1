import Verif.Proofs.Trail
import Verif.Proofs.Hash
import Mathlib.Algebra.BigOperators.Fin
import Mathlib.Data.Fintype.BigOperators
import Mathlib.Data.Fintype.Pi

/-! # Counting tables of round constants -/

set_option linter.unusedSectionVars false

namespace Poseidon

/-! ## Two ways to count functions -/

/-- If, once the values before `m` are fixed, at most `c m` values are left at `m`, there are at most `∏ c m` functions. -/
theorem card_seq {X : Type*} [Fintype X] [DecidableEq X] : ∀ {n : Nat} (S : Finset (Fin n → X)) (c : Fin n → Nat),
    (∀ C ∈ S, ∀ m, ∃ T : Finset X, T.card ≤ c m ∧ ∀ C' ∈ S, (∀ j, j < m → C' j = C j) → C' m ∈ T) →
    S.card ≤ ∏ m, c m := by
  intro n
  induction n with
  | zero =>
    intro S c _
    rw [Fin.prod_univ_zero]
    exact (Finset.card_le_univ S).trans (by simp)
  | succ n ih =>
    intro S c h
    rw [Fin.prod_univ_castSucc]
    have h1 : S.card ≤ c (Fin.last n) * (S.image Fin.init).card := by
      apply Finset.card_le_mul_card_image_of_maps_to (f := fun C => Fin.init (α := fun _ => X) C) (t := S.image Fin.init)
      · intro C hC; exact Finset.mem_image_of_mem _ hC
      · intro b hb
        obtain ⟨C, hC, rfl⟩ := Finset.mem_image.1 hb
        obtain ⟨T, hT1, hT2⟩ := h C hC (Fin.last n)
        refine le_trans ?_ hT1
        refine Finset.card_le_card_of_injOn (fun C' => C' (Fin.last n)) ?_ ?_
        · intro C' hC'
          obtain ⟨hC1, hC2⟩ := Finset.mem_filter.1 (Finset.mem_coe.1 hC')
          refine Finset.mem_coe.2 (hT2 C' hC1 ?_)
          intro j hj
          have := congrFun hC2 ⟨j.val, hj⟩
          exact this
        · intro C1 h1 C2 h2 he
          obtain ⟨-, h1⟩ := Finset.mem_filter.1 (Finset.mem_coe.1 h1)
          obtain ⟨-, h2⟩ := Finset.mem_filter.1 (Finset.mem_coe.1 h2)
          rw [← Fin.snoc_init_self (α := fun _ => X) C1, ← Fin.snoc_init_self (α := fun _ => X) C2]
          have e1 : Fin.init (α := fun _ => X) C1 = Fin.init (α := fun _ => X) C2 := h1.trans h2.symm
          rw [e1]
          have e2 : C1 (Fin.last n) = C2 (Fin.last n) := he
          rw [e2]
    refine h1.trans ?_
    rw [mul_comm]
    refine Nat.mul_le_mul_right _ (ih (S.image Fin.init) (fun m => c m.castSucc) ?_)
    intro b hb m
    obtain ⟨C, hC, rfl⟩ := Finset.mem_image.1 hb
    obtain ⟨T, hT1, hT2⟩ := h C hC m.castSucc
    refine ⟨T, hT1, ?_⟩
    intro b' hb' h2
    obtain ⟨C', hC', rfl⟩ := Finset.mem_image.1 hb'
    refine hT2 C' hC' ?_
    intro j hj
    have hjn : j.val < n := lt_trans (Fin.lt_def.1 hj) m.isLt
    exact h2 ⟨j.val, hjn⟩ hj

/-- If, once the coordinates off `J` are fixed, each coordinate in `J` has at most `c` values left. -/
theorem card_coord {ι X : Type*} [Fintype ι] [DecidableEq ι] [Fintype X] [DecidableEq X] (S : Finset (ι → X)) (J : Finset ι) (c : Nat)
    (h : ∀ k ∈ S, ∀ j ∈ J, ∃ T : Finset X, T.card ≤ c ∧ ∀ k' ∈ S, (∀ i, i ∉ J → k' i = k i) → k' j ∈ T) :
    S.card ≤ c ^ J.card * Fintype.card X ^ (Fintype.card ι - J.card) := by
  have h0 : (Finset.univ : Finset ({i // i ∉ J} → X)).card = Fintype.card X ^ (Fintype.card ι - J.card) := by
    rw [Finset.card_univ, Fintype.card_fun, Fintype.card_subtype_compl, Fintype.card_coe]
  rw [← h0]
  apply Finset.card_le_mul_card_image_of_maps_to (f := fun (k : ι → X) (i : {i // i ∉ J}) => k i.val)
  · intro k _; exact Finset.mem_univ _
  · intro b _
    rcases (S.filter fun k => (fun i : {i // i ∉ J} => k i.val) = b).eq_empty_or_nonempty with he | ⟨k, hk⟩
    · rw [he]; exact Nat.zero_le _
    obtain ⟨hkS, hkb⟩ := Finset.mem_filter.1 hk
    have hT : ∀ j, ∃ T : Finset X, T.card ≤ (if j ∈ J then c else 1) ∧ ∀ k' ∈ S, (∀ i, i ∉ J → k' i = k i) → k' j ∈ T := by
      intro j
      by_cases hj : j ∈ J
      · simp only [hj, if_true]; exact h k hkS j hj
      · refine ⟨{k j}, by simp [hj], fun k' _ h => Finset.mem_singleton.2 (h j hj)⟩
    choose T hT1 hT2 using hT
    calc _ ≤ (Fintype.piFinset T).card := by
          apply Finset.card_le_card
          intro k' hk'
          obtain ⟨hkS', hkb'⟩ := Finset.mem_filter.1 hk'
          have hag : ∀ i, i ∉ J → k' i = k i := fun i hi => by
            have := congrFun (hkb'.trans hkb.symm) ⟨i, hi⟩
            exact this
          rw [Fintype.mem_piFinset]
          exact fun j => hT2 j k' hkS' hag
      _ = ∏ j, (T j).card := Fintype.card_piFinset T
      _ ≤ ∏ j, (if j ∈ J then c else 1) := Finset.prod_le_prod' fun j _ => hT1 j
      _ = c ^ J.card := by
          rw [Finset.prod_ite]
          simp

/-- A bound for the last round. -/
theorem card_last {X : Type*} [Fintype X] [DecidableEq X] {n : Nat} (S : Finset (Fin (n + 1) → X)) (b : Nat)
    (h : ∀ C ∈ S, ∃ T : Finset X, T.card ≤ b ∧ ∀ C' ∈ S, (∀ j, j < Fin.last n → C' j = C j) → C' (Fin.last n) ∈ T) :
    S.card ≤ Fintype.card X ^ n * b := by
  have h1 := card_seq S (fun m => if m = Fin.last n then b else Fintype.card X) ?_
  · rw [Fin.prod_univ_castSucc] at h1
    simpa [Fin.castSucc_ne_last] using h1
  intro C hC m
  by_cases hm : m = Fin.last n
  · subst hm; simp only [if_true]; exact h C hC
  · simp only [hm, if_false]; exact ⟨Finset.univ, by rw [Finset.card_univ], fun _ _ _ => Finset.mem_univ _⟩

variable {F : Type} [Field F] [DecidableEq F] {t n : Nat}

/-! ## The rounds, with the constants as an argument -/

/-- The state after `m` rounds with constants `C`. -/
def runE (e : Nat) (M : Matrix (Fin t) (Fin t) F) (full : Nat → Bool) (C : Fin n → Fin t → F) (x : Fin t → F) : Nat → Fin t → F
  | 0 => x
  | m + 1 => if h : m < n then roundE e M (full m) (C ⟨m, h⟩) (runE e M full C x m) else runE e M full C x m

theorem runE_succ {e : Nat} {M : Matrix (Fin t) (Fin t) F} {full : Nat → Bool} {C : Fin n → Fin t → F} {x : Fin t → F} (m : Fin n) :
    runE e M full C x (m.val + 1) = roundE e M (full m) (C m) (runE e M full C x m) := by
  rw [runE, dif_pos m.isLt]

theorem runE_congr {e : Nat} {M : Matrix (Fin t) (Fin t) F} {full : Nat → Bool} {C C' : Fin n → Fin t → F} {x : Fin t → F} :
    ∀ m, (∀ j : Fin n, j.val < m → C j = C' j) → runE e M full C x m = runE e M full C' x m := by
  intro m
  induction m with
  | zero => intro _; rfl
  | succ m ih =>
    intro h
    rw [runE, runE, ih fun j hj => h j (by omega)]
    by_cases hm : m < n
    · rw [dif_pos hm, dif_pos hm, h ⟨m, hm⟩ (by simp)]
    · rw [dif_neg hm, dif_neg hm]

/-- `textbookPrefix` is `runE`. -/
theorem prefix_runE {e : Nat} {M : Matrix (Fin t) (Fin t) F} {rf rp : Nat} {C : Fin n → Fin t → F} (hn : rf + rp + rf ≤ n)
    (x : Fin t → F) : ∀ m, m ≤ rf + rp + rf →
    textbookPrefix (.exponent e) M rf rp (fun r => C ⟨r.val, lt_of_lt_of_le r.isLt hn⟩) m x =
      some (runE e M (fun m => decide (m < rf ∨ rf + rp ≤ m)) C x m) := by
  intro m
  induction m with
  | zero => intro _; exact prefix_zero x
  | succ m ih =>
    intro hm
    rw [prefix_succ m (by omega), ih (by omega), Option.bind_some, textbookRound_exponent, runE, dif_pos (by omega)]

theorem textbook_runE {e : Nat} {M : Matrix (Fin t) (Fin t) F} {rf rp : Nat} {C : Fin n → Fin t → F} (hn : n = rf + rp + rf)
    (x : Fin t → F) :
    textbook (.exponent e) M rf rp (fun r => C ⟨r.val, lt_of_lt_of_le r.isLt hn.ge⟩) x =
      some (runE e M (fun m => decide (m < rf ∨ rf + rp ≤ m)) C x n) := by
  subst hn
  rw [← prefix_all, prefix_runE le_rfl x _ le_rfl]

/-! ## What is used of the S-box and the matrix -/

/-- The S-box `x ^ e` is injective and sends at most `c` pairs of a given non-zero difference to a given difference; the matrix is MDS. -/
structure GoodLayers (e c : Nat) (M : Matrix (Fin t) (Fin t) F) [Fintype F] : Prop where
  inj : Function.Injective fun x : F => x ^ e
  dp : ∀ a b : F, a ≠ 0 → (Finset.univ.filter fun x => (x + a) ^ e - x ^ e = b).card ≤ c
  mds : IsMDS M

section
variable [Fintype F] {e c : Nat} {M : Matrix (Fin t) (Fin t) F} (G : GoodLayers e c M)
include G

/-- The S-box layer. -/
def layerE (e : Nat) (full : Bool) (k s : Fin t → F) : Fin t → F := fun i => if Active full i then (s i + k i) ^ e else s i + k i

omit G [Fintype F] in
theorem roundE_layer (full : Bool) (k s : Fin t → F) : roundE e M full k s = M.mulVec (layerE e full k s) := rfl

theorem GoodLayers.mulVec_inj : Function.Injective M.mulVec := by
  intro x y h
  by_contra hne
  have := G.mds.branch x y hne
  rw [h] at this
  have h2 : diffWords (M.mulVec y) (M.mulVec y) = 0 := by simp [diffWords]
  have h3 : diffWords x y ≤ t := (Finset.card_le_univ _).trans (by simp)
  omega

theorem GoodLayers.layer_word (full : Bool) (k s s' : Fin t → F) (i : Fin t) :
    layerE e full k s i = layerE e full k s' i ↔ s i = s' i := by
  simp only [layerE]
  constructor
  · intro h
    split at h
    · exact add_right_cancel (G.inj h)
    · exact add_right_cancel h
  · intro h; rw [h]

theorem GoodLayers.round_inj (full : Bool) (k : Fin t → F) : Function.Injective (roundE e M full k) := by
  intro s s' h
  funext i
  exact (G.layer_word full k s s' i).1 (congrFun (G.mulVec_inj h) i)

theorem GoodLayers.run_ne {full : Nat → Bool} {C : Fin n → Fin t → F} {x y : Fin t → F} (h : x ≠ y) (m : Nat) :
    runE e M full C x m ≠ runE e M full C y m := by
  induction m with
  | zero => exact h
  | succ m ih =>
    rw [runE, runE]
    by_cases hm : m < n
    · rw [dif_pos hm, dif_pos hm]; exact fun he => ih (G.round_inj _ _ he)
    · rw [dif_neg hm, dif_neg hm]; exact ih

/-- At most `c` constants of a word give a prescribed difference after its S-box. -/
theorem GoodLayers.word {a a' : F} (h : a ≠ a') (b : F) :
    (Finset.univ.filter fun v : F => (a + v) ^ e - (a' + v) ^ e = b).card ≤ c := by
  refine le_trans ?_ (G.dp (a - a') b (sub_ne_zero.2 h))
  refine Finset.card_le_card_of_injOn (fun v => a' + v) ?_ ?_
  · intro v hv
    have hv := (Finset.mem_filter.1 (Finset.mem_coe.1 hv)).2
    refine Finset.mem_coe.2 (Finset.mem_filter.2 ⟨Finset.mem_univ _, ?_⟩)
    rw [← hv]
    ring
  · intro v _ w _ h
    exact add_left_cancel h

theorem GoodLayers.entry (a b : Fin t) : M a b ≠ 0 := by
  have h := G.mds 1 (fun _ => a) (fun _ => b) (Function.injective_of_subsingleton _) (Function.injective_of_subsingleton _)
  simpa using h

/-! ## One round -/

/-- One output word of a round on one input: exactly one constant of any word, the others being fixed. -/
theorem GoodLayers.one_word (s : Fin t → F) (o : Fin t) (d : F) (S : Finset (Fin t → F)) (hS : ∀ k ∈ S, roundE e M true k s o = d) :
    S.card ≤ Fintype.card F ^ (t - 1) := by
  have h := card_coord S {o} 1 ?_
  · simpa using h
  intro k hk j hj
  obtain rfl := Finset.mem_singleton.1 hj
  refine ⟨{k j}, by simp, ?_⟩
  intro k1 hk1 h2
  have h1 := hS k1 hk1
  have h3 := hS k hk
  have he : ∀ i, i ≠ j → layerE e true k1 s i = layerE e true k s i := by
    intro i hi
    simp only [layerE, h2 i (by simpa using hi)]
  have hs : M j j * (layerE e true k1 s j - layerE e true k s j) = 0 := by
    have h5 : M.mulVec (layerE e true k1 s) j - M.mulVec (layerE e true k s) j = 0 := by
      rw [← roundE_layer, ← roundE_layer, h1, h3, sub_self]
    rw [← Pi.sub_apply, ← Matrix.mulVec_sub] at h5
    rw [Matrix.mulVec, _root_.dotProduct, Finset.sum_eq_single j] at h5
    · exact h5
    · intro i _ hi; rw [Pi.sub_apply, he i hi, sub_self, mul_zero]
    · intro hj; exact absurd (Finset.mem_univ _) hj
  have h5 := (mul_eq_zero.1 hs).resolve_left (G.entry j j)
  have h6 : (s j + k1 j) ^ e = (s j + k j) ^ e := by
    have : Active true j := by simp [Active]
    simpa [layerE, this, sub_eq_zero] using h5
  exact Finset.mem_singleton.2 (add_left_cancel (G.inj h6))

/-- The whole state after a round on one input determines the constants. -/
theorem GoodLayers.one_state (s y : Fin t → F) (S : Finset (Fin t → F)) (hS : ∀ k ∈ S, roundE e M true k s = y) : S.card ≤ 1 := by
  rw [Finset.card_le_one]
  intro k hk k' hk'
  have h := (hS k hk).trans (hS k' hk').symm
  rw [roundE_layer, roundE_layer] at h
  funext i
  have h5 := congrFun (G.mulVec_inj h) i
  have : Active true i := by simp [Active]
  simp only [layerE, this, if_true] at h5
  exact add_left_cancel (G.inj h5)

/-- One output word of a round on two different inputs: at most `c` constants of a word in which they differ. -/
theorem GoodLayers.two_words {s s' : Fin t → F} (hs : s ≠ s') (o : Fin t) (d : F) (S : Finset (Fin t → F))
    (hS : ∀ k ∈ S, roundE e M true k s o - roundE e M true k s' o = d) : S.card ≤ c * Fintype.card F ^ (t - 1) := by
  obtain ⟨j, hj⟩ := Function.ne_iff.1 hs
  have h := card_coord S {j} c ?_
  · simpa using h
  intro k hk i hi
  obtain rfl := Finset.mem_singleton.1 hi
  have hA : ∀ k : Fin t → F, layerE e true k s i - layerE e true k s' i = (s i + k i) ^ e - (s' i + k i) ^ e := by
    intro k
    have : Active true i := by simp [Active]
    simp only [layerE, this, if_true]
  refine ⟨_, G.word hj ((s i + k i) ^ e - (s' i + k i) ^ e), ?_⟩
  intro k1 hk1 h2
  have h1 := hS k1 hk1
  have h3 := hS k hk
  refine Finset.mem_filter.2 ⟨Finset.mem_univ _, ?_⟩
  have he : ∀ l, l ≠ i → layerE e true k1 s l - layerE e true k1 s' l = layerE e true k s l - layerE e true k s' l := by
    intro l hl
    simp only [layerE, h2 l (by simpa using hl)]
  rw [roundE_layer, roundE_layer, ← Pi.sub_apply, ← Matrix.mulVec_sub] at h1 h3
  have h5 : M o i * (((s i + k1 i) ^ e - (s' i + k1 i) ^ e) - ((s i + k i) ^ e - (s' i + k i) ^ e)) = 0 := by
    have h6 := sub_eq_zero.2 (h1.trans h3.symm)
    rw [← Pi.sub_apply, ← Matrix.mulVec_sub] at h6
    rw [Matrix.mulVec, _root_.dotProduct, Finset.sum_eq_single i] at h6
    · rw [Pi.sub_apply, Pi.sub_apply, Pi.sub_apply, hA, hA] at h6
      exact h6
    · intro l _ hl
      rw [Pi.sub_apply, Pi.sub_apply, Pi.sub_apply, he l hl, sub_self, mul_zero]
    · intro hj; exact absurd (Finset.mem_univ _) hj
  exact sub_eq_zero.1 ((mul_eq_zero.1 h5).resolve_left (G.entry o i))

/-- The words of a layer that an S-box sees with a difference. -/
def seen (full : Bool) (s s' : Fin t → F) : Finset (Fin t) := Finset.univ.filter fun i : Fin t => Active full i ∧ s i ≠ s' i

/-- The whole difference after a round: at most `c` constants for each S-box that sees a difference. -/
theorem GoodLayers.whole (full : Bool) (s s' : Fin t → F) (D : Fin t → F) (S : Finset (Fin t → F))
    (hS : ∀ k ∈ S, roundE e M full k s - roundE e M full k s' = D) :
    S.card ≤ c ^ (seen full s s').card * Fintype.card F ^ (t - (seen full s s').card) := by
  have h := card_coord S (seen full s s') c ?_
  · simpa using h
  intro k hk i hi
  obtain ⟨-, hi1, hi2⟩ := Finset.mem_filter.1 hi
  refine ⟨_, G.word hi2 ((s i + k i) ^ e - (s' i + k i) ^ e), ?_⟩
  intro k1 hk1 _
  refine Finset.mem_filter.2 ⟨Finset.mem_univ _, ?_⟩
  have h4 := (hS k1 hk1).trans (hS k hk).symm
  rw [roundE_layer, roundE_layer, roundE_layer, roundE_layer, ← Matrix.mulVec_sub, ← Matrix.mulVec_sub] at h4
  have h5 := congrFun (G.mulVec_inj h4) i
  simpa [layerE, hi1] using h5

/-- The words without a difference after a full round: at most `c` constants for each of them. -/
theorem GoodLayers.zeros {s s' : Fin t → F} (hs : s ≠ s') (Z : Finset (Fin t)) (S : Finset (Fin t → F))
    (hS : ∀ k ∈ S, ∀ i ∈ Z, roundE e M true k s i = roundE e M true k s' i) :
    S.card ≤ c ^ Z.card * Fintype.card F ^ (t - Z.card) := by
  rcases S.eq_empty_or_nonempty with rfl | ⟨k0, hk0⟩
  · exact Nat.zero_le _
  have hbr : ∀ k ∈ S, Z.card + 1 ≤ diffWords s s' := by
    intro k hk
    have h1 : layerE e true k s ≠ layerE e true k s' := by
      obtain ⟨j, hj⟩ := Function.ne_iff.1 hs
      exact Function.ne_iff.2 ⟨j, fun h => hj ((G.layer_word true k s s' j).1 h)⟩
    have h2 := G.mds.branch _ _ h1
    have h3 : diffWords (layerE e true k s) (layerE e true k s') = diffWords s s' := by
      rw [diffWords, diffWords]
      congr 1
      ext i
      simp only [Finset.mem_filter, Finset.mem_univ, true_and, ne_eq, G.layer_word true k s s' i]
    have h4 : diffWords (M.mulVec (layerE e true k s)) (M.mulVec (layerE e true k s')) + Z.card ≤ t := by
      rw [diffWords, ← Finset.card_union_of_disjoint]
      · exact (Finset.card_le_univ _).trans (by simp)
      · rw [Finset.disjoint_left]
        intro i hi hZ
        exact (Finset.mem_filter.1 hi).2 (hS k hk i hZ)
    omega
  have hle : Z.card ≤ (Finset.univ.filter fun i => s i ≠ s' i).card := by
    have := hbr k0 hk0
    rw [diffWords] at this
    omega
  obtain ⟨B, hB1, hB2⟩ := Finset.exists_subset_card_eq hle
  rw [← hB2]
  have h := card_coord S B c ?_
  · simpa using h
  intro k hk i hi
  have hi2 := (Finset.mem_filter.1 (hB1 hi)).2
  refine ⟨_, G.word hi2 ((s i + k i) ^ e - (s' i + k i) ^ e), ?_⟩
  intro k1 hk1 hag
  refine Finset.mem_filter.2 ⟨Finset.mem_univ _, ?_⟩
  set u := layerE e true k1 s - layerE e true k1 s' with hu
  set v := layerE e true k s - layerE e true k s' with hv
  have huv : u = v := by
    by_contra hne
    have h2 := G.mds.branch u v hne
    have h3 : diffWords u v ≤ B.card := by
      rw [diffWords]
      apply Finset.card_le_card
      intro l hl
      by_contra hlB
      refine (Finset.mem_filter.1 hl).2 ?_
      simp only [hu, hv, Pi.sub_apply, layerE, hag l hlB]
    have h4 : diffWords (M.mulVec u) (M.mulVec v) + Z.card ≤ t := by
      rw [diffWords, ← Finset.card_union_of_disjoint]
      · exact (Finset.card_le_univ _).trans (by simp)
      · rw [Finset.disjoint_left]
        intro l hl hZ
        refine (Finset.mem_filter.1 hl).2 ?_
        have e1 := hS k hk l hZ
        have e2 := hS k1 hk1 l hZ
        rw [roundE_layer, roundE_layer] at e1 e2
        rw [hu, hv, Matrix.mulVec_sub, Matrix.mulVec_sub, Pi.sub_apply, Pi.sub_apply, e1, e2, sub_self, sub_self]
    omega
  have h5 := congrFun huv i
  have : Active true i := by simp [Active]
  simpa [hu, hv, layerE, this] using h5

/-! ## All rounds -/

theorem GoodLayers.all_state {full : Nat → Bool} (hn : 0 < n) (hf : full (n - 1) = true) (x y : Fin t → F)
    (S : Finset (Fin n → Fin t → F)) (hS : ∀ C ∈ S, runE e M full C x n = y) :
    S.card ≤ (Fintype.card F ^ t) ^ (n - 1) := by
  obtain ⟨n, rfl⟩ : ∃ m, n = m + 1 := ⟨n - 1, by omega⟩
  have h := card_last S 1 ?_
  · simpa using h
  intro C hC
  refine ⟨{C (Fin.last n)}, by simp, ?_⟩
  intro C' hC' hag
  have h1 := hS C hC
  have h2 := hS C' hC'
  have e1 := runE_succ (e := e) (M := M) (full := full) (C := C) (x := x) (Fin.last n)
  have e2 := runE_succ (e := e) (M := M) (full := full) (C := C') (x := x) (Fin.last n)
  rw [Fin.val_last] at e1 e2
  rw [e1] at h1
  rw [e2, runE_congr (C' := C) n fun j hj => hag j hj] at h2
  have hf : full n = true := hf
  rw [hf] at h1 h2
  have := G.one_state _ y {C (Fin.last n), C' (Fin.last n)} (by
    intro k hk
    rcases Finset.mem_insert.1 hk with rfl | hk
    · exact h1
    · rw [Finset.mem_singleton.1 hk]; exact h2)
  rw [Finset.card_le_one] at this
  exact Finset.mem_singleton.2 (this _ (by simp) _ (by simp))

theorem GoodLayers.all_word {full : Nat → Bool} (hn : 0 < n) (hf : full (n - 1) = true) (x : Fin t → F) (o : Fin t) (d : F)
    (S : Finset (Fin n → Fin t → F)) (hS : ∀ C ∈ S, runE e M full C x n o = d) :
    S.card ≤ (Fintype.card F ^ t) ^ (n - 1) * Fintype.card F ^ (t - 1) := by
  obtain ⟨n, rfl⟩ : ∃ m, n = m + 1 := ⟨n - 1, by omega⟩
  have hf : full n = true := hf
  have h := card_last S (Fintype.card F ^ (t - 1)) ?_
  · simpa using h
  intro C hC
  refine ⟨Finset.univ.filter fun k => roundE e M true k (runE e M full C x n) o = d, G.one_word (runE e M full C x n) o d _ (fun k hk => (Finset.mem_filter.1 hk).2), ?_⟩
  intro C' hC' hag
  have h2 := hS C' hC'
  have e2 := runE_succ (e := e) (M := M) (full := full) (C := C') (x := x) (Fin.last n)
  rw [Fin.val_last] at e2
  rw [e2, runE_congr (C' := C) n fun j hj => hag j hj, hf] at h2
  exact Finset.mem_filter.2 ⟨Finset.mem_univ _, h2⟩

theorem GoodLayers.all_two_words {full : Nat → Bool} (hn : 0 < n) (hf : full (n - 1) = true) {x y : Fin t → F} (hxy : x ≠ y)
    (o : Fin t) (d : F) (S : Finset (Fin n → Fin t → F)) (hS : ∀ C ∈ S, runE e M full C x n o - runE e M full C y n o = d) :
    S.card ≤ (Fintype.card F ^ t) ^ (n - 1) * (c * Fintype.card F ^ (t - 1)) := by
  obtain ⟨n, rfl⟩ : ∃ m, n = m + 1 := ⟨n - 1, by omega⟩
  have hf : full n = true := hf
  have h := card_last S (c * Fintype.card F ^ (t - 1)) ?_
  · simpa using h
  intro C hC
  refine ⟨Finset.univ.filter fun k => roundE e M true k (runE e M full C x n) o - roundE e M true k (runE e M full C y n) o = d,
    G.two_words (G.run_ne (full := full) (C := C) hxy n) o d _ (fun k hk => (Finset.mem_filter.1 hk).2), ?_⟩
  intro C' hC' hag
  have h2 := hS C' hC'
  have e1 := runE_succ (e := e) (M := M) (full := full) (C := C') (x := x) (Fin.last n)
  have e2 := runE_succ (e := e) (M := M) (full := full) (C := C') (x := y) (Fin.last n)
  rw [Fin.val_last] at e1 e2
  rw [e1, e2, runE_congr (x := x) (C' := C) n fun j hj => hag j hj, runE_congr (x := y) (C' := C) n fun j hj => hag j hj, hf] at h2
  exact Finset.mem_filter.2 ⟨Finset.mem_univ _, h2⟩

omit G in
theorem seen_true (s s' : Fin t → F) : (seen true s s').card = diffWords s s' := by
  rw [seen, diffWords]
  congr 1
  ext i
  simp [Active]

theorem GoodLayers.all_two_states {full : Nat → Bool} (hn : 2 ≤ n) (hf : full (n - 1) = true) (hf2 : full (n - 2) = true)
    {x y : Fin t → F} (hxy : x ≠ y) (D : Fin t → F) (S : Finset (Fin n → Fin t → F))
    (hS : ∀ C ∈ S, runE e M full C x n - runE e M full C y n = D) :
    S.card ≤ (Fintype.card F ^ t) ^ (n - 2) * (c ^ t * Fintype.card F ^ t) := by
  obtain ⟨n, rfl⟩ : ∃ m, n = m + 2 := ⟨n - 2, by omega⟩
  have hf : full (n + 1) = true := hf
  have hf2 : full n = true := hf2
  rcases S.eq_empty_or_nonempty with rfl | ⟨C0, hC0⟩
  · exact Nat.zero_le _
  -- the difference before the last matrix
  set b := layerE e true (C0 (Fin.last (n + 1))) (runE e M full C0 x (n + 1)) -
    layerE e true (C0 (Fin.last (n + 1))) (runE e M full C0 y (n + 1)) with hb
  have step : ∀ (C : Fin (n + 2) → Fin t → F) (z : Fin t → F), runE e M full C z (n + 2) =
      roundE e M true (C (Fin.last (n + 1))) (runE e M full C z (n + 1)) := by
    intro C z
    have := runE_succ (e := e) (M := M) (full := full) (C := C) (x := z) (Fin.last (n + 1))
    rw [Fin.val_last, hf] at this
    exact this
  have step2 : ∀ (C : Fin (n + 2) → Fin t → F) (z : Fin t → F), runE e M full C z (n + 1) =
      roundE e M true (C (Fin.last n).castSucc) (runE e M full C z n) := by
    intro C z
    have := runE_succ (e := e) (M := M) (full := full) (C := C) (x := z) (Fin.last n).castSucc
    rw [Fin.val_castSucc, Fin.val_last, hf2] at this
    exact this
  have hbC : ∀ C ∈ S, layerE e true (C (Fin.last (n + 1))) (runE e M full C x (n + 1)) -
      layerE e true (C (Fin.last (n + 1))) (runE e M full C y (n + 1)) = b := by
    intro C hC
    apply G.mulVec_inj
    have h1 := hS C hC
    have h2 := hS C0 hC0
    rw [step, step, roundE_layer, roundE_layer, ← Matrix.mulVec_sub] at h1 h2
    rw [hb, h1, h2]
  set Z := Finset.univ.filter fun i => b i = 0 with hZ
  have hword : ∀ C ∈ S, ∀ i, b i = 0 ↔ runE e M full C x (n + 1) i = runE e M full C y (n + 1) i := by
    intro C hC i
    rw [← hbC C hC, Pi.sub_apply, sub_eq_zero, G.layer_word]
  have hdiff : ∀ C ∈ S, (seen true (runE e M full C x (n + 1)) (runE e M full C y (n + 1))).card = t - Z.card := by
    intro C hC
    rw [seen_true, diffWords]
    have h1 := Finset.card_filter_add_card_filter_not (s := (Finset.univ : Finset (Fin t))) (fun i => b i = 0)
    rw [Finset.card_univ, Fintype.card_fin] at h1
    have h2 : (Finset.univ.filter fun i => runE e M full C x (n + 1) i ≠ runE e M full C y (n + 1) i) =
        Finset.univ.filter fun i => ¬ b i = 0 := by
      ext i
      simp only [Finset.mem_filter, Finset.mem_univ, true_and, hword C hC i, ne_eq]
    rw [h2]
    have h3 : Z.card + (Finset.univ.filter fun i => ¬ b i = 0).card = t := h1
    omega
  have hZt : Z.card ≤ t := (Finset.card_le_univ _).trans (by simp)
  set z := Z.card with hz
  have h := card_seq S (fun m => if m = Fin.last (n + 1) then c ^ (t - z) * Fintype.card F ^ z
    else if m = (Fin.last n).castSucc then c ^ z * Fintype.card F ^ (t - z) else Fintype.card F ^ t) ?_
  · rw [Fin.prod_univ_castSucc, Fin.prod_univ_castSucc] at h
    have h3 : ∀ i : Fin n, ¬ i.castSucc.castSucc = (Fin.last n).castSucc := by
      intro i hi
      exact Fin.castSucc_ne_last i (Fin.castSucc_injective _ hi)
    simp only [Fin.castSucc_ne_last, if_false, if_true, h3, Finset.prod_const, Finset.card_univ, Fintype.card_fin] at h
    refine h.trans (le_of_eq ?_)
    have e1 : c ^ t = c ^ z * c ^ (t - z) := by rw [← pow_add]; congr 1; omega
    have e2 : Fintype.card F ^ t = Fintype.card F ^ z * Fintype.card F ^ (t - z) := by rw [← pow_add]; congr 1; omega
    rw [show n + 2 - 2 = n by omega, mul_assoc]
    congr 1
    rw [e1, e2]
    ring
  intro C hC m
  by_cases hm : m = Fin.last (n + 1)
  · subst hm
    simp only [if_true]
    refine ⟨Finset.univ.filter fun k => roundE e M true k (runE e M full C x (n + 1)) - roundE e M true k (runE e M full C y (n + 1)) = D, ?_, ?_⟩
    · have h4 := G.whole true (runE e M full C x (n + 1)) (runE e M full C y (n + 1)) D
        (Finset.univ.filter fun k => roundE e M true k (runE e M full C x (n + 1)) - roundE e M true k (runE e M full C y (n + 1)) = D)
        (fun k hk => (Finset.mem_filter.1 hk).2)
      rw [hdiff C hC, Nat.sub_sub_self hZt] at h4
      exact h4
    · intro C' hC' hag
      have h2 := hS C' hC'
      rw [step, step, runE_congr (x := x) (C' := C) (n + 1) fun j hj => hag j hj, runE_congr (x := y) (C' := C) (n + 1) fun j hj => hag j hj] at h2
      exact Finset.mem_filter.2 ⟨Finset.mem_univ _, h2⟩
  by_cases hm2 : m = (Fin.last n).castSucc
  · subst hm2
    simp only [hm, if_false, if_true]
    refine ⟨Finset.univ.filter fun k => ∀ i ∈ Z, roundE e M true k (runE e M full C x n) i = roundE e M true k (runE e M full C y n) i,
      G.zeros (G.run_ne hxy n) Z _ (fun k hk => (Finset.mem_filter.1 hk).2), ?_⟩
    intro C' hC' hag
    refine Finset.mem_filter.2 ⟨Finset.mem_univ _, ?_⟩
    intro i hi
    have h2 := (hword C' hC' i).1 (Finset.mem_filter.1 hi).2
    rw [step2, step2, runE_congr (x := x) (C' := C) n fun j hj => hag j hj, runE_congr (x := y) (C' := C) n fun j hj => hag j hj] at h2
    exact h2
  · simp only [hm, hm2, if_false]
    exact ⟨Finset.univ, by rw [Finset.card_univ, Fintype.card_fun, Fintype.card_fin], fun _ _ _ => Finset.mem_univ _⟩

theorem GoodLayers.trail {full : Nat → Bool} (x y : Fin t → F) (Δ : Nat → Fin t → F) (S : Finset (Fin n → Fin t → F))
    (hS : ∀ C ∈ S, ∀ m ≤ n, runE e M full C x m - runE e M full C y m = Δ m) :
    S.card ≤ ∏ m : Fin n, (c ^ (seen (full m) (Δ m) 0).card * Fintype.card F ^ (t - (seen (full m) (Δ m) 0).card)) := by
  apply card_seq S
  intro C hC m
  have hseen : seen (full m) (Δ m) 0 = seen (full m) (runE e M full C x m) (runE e M full C y m) := by
    rw [seen, seen]
    ext i
    simp only [Finset.mem_filter, Finset.mem_univ, true_and, Pi.zero_apply, ← hS C hC m m.isLt.le, Pi.sub_apply, ne_eq, sub_eq_zero]
  rw [hseen]
  refine ⟨Finset.univ.filter fun k => roundE e M (full m) k (runE e M full C x m) - roundE e M (full m) k (runE e M full C y m) = Δ (m + 1),
    G.whole _ _ _ (Δ (m + 1)) _ (fun k hk => (Finset.mem_filter.1 hk).2), ?_⟩
  intro C' hC' hag
  have h2 := hS C' hC' (m + 1) m.isLt
  rw [runE_succ, runE_succ, runE_congr (x := x) (C' := C) m fun j hj => hag j hj, runE_congr (x := y) (C' := C) m fun j hj => hag j hj] at h2
  exact Finset.mem_filter.2 ⟨Finset.mem_univ _, h2⟩

end

end Poseidon
