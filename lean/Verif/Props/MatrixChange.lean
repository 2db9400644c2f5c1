import Verif.Proofs.MatrixChange
import Verif.Props.ConstantChange

/-!
# Property C122: every entry of the optimized matrices matters

What happens to the optimized hash when one entry of a matrix it reads is another one, and which matrices of a parameter set it does not read.
-/

set_option linter.unusedSectionVars false

namespace Poseidon

open Polynomial

/-! ## The entries that must not be zero -/

/-- No entry of the rows of the sparse matrices is zero; four full rounds after a column of the last sparse matrix no leading coefficient of word 1 is zero. -/
def checkSparseLead (t : Nat) (r : RawTables) : Bool :=
  forceL (canons r.mds) fun mds => forceLL (r.wHatCollection.map canons) fun ws =>
    (allN 31 fun j => allN (t - 1) fun a => !Nat.beq (nth (nthL ws j) a % q) 0) &&
    allN (t - 1) fun a => !Nat.beq (nth ((List.replicate 4 true).foldl (fun L full => leadN t mds full L)
      (tabN t fun i => Nat.rec (nth (nthL ws 0) a) (fun i' _ => bif Nat.beq i' a then 1 else 0) i)) 1 % q) 0

theorem sparseLead1 : checkSparseLead 2 rate1Raw = true := by decide +kernel
theorem sparseLead2 : checkSparseLead 3 rate2Raw = true := by decide +kernel
theorem sparseLead3 : checkSparseLead 4 rate3Raw = true := by decide +kernel
theorem sparseLead4 : checkSparseLead 5 rate4Raw = true := by decide +kernel
theorem sparseLead5 : checkSparseLead 6 rate5Raw = true := by decide +kernel
theorem sparseLead6 : checkSparseLead 7 rate6Raw = true := by decide +kernel
theorem sparseLead7 : checkSparseLead 8 rate7Raw = true := by decide +kernel

theorem natCast_ne_zero_of_check {n : Nat} (h : (!Nat.beq (n % q) 0) = true) : ((n : Nat) : Fq) ≠ 0 := by
  intro h0
  have h1 : n % q = 0 := Nat.mod_eq_zero_of_dvd ((ZMod.natCast_eq_zero_iff n q).1 h0)
  rw [h1] at h
  exact absurd h (by decide)

theorem checkSparseLead_spec {k : Nat} {r : RawTables} (hw : r.wf (k + 2) = true) (hc : checkSparseLead (k + 2) r = true) :
    (∀ (j : Nat) (h : j < 31) (a : Fin (k + 1)), (r.toParams hw).optimizedMds.wHatCollection[j].elements[a] ≠ 0) ∧
    ∀ (m00 : Fq) (v : Fin (k + 1) → Fq) (a : Fin (k + 1)), leadRounds 17 (Mat.toM rfl (r.toParams hw).mds) (List.replicate 4 true)
      (fun i => sparseM m00 v (fun b => (r.toParams hw).optimizedMds.wHatCollection[0].elements[b]) i a.succ) 1 ≠ 0 := by
  simp only [checkSparseLead, forceL_eq, forceLL_eq, Bool.and_eq_true, show k + 2 - 1 = k + 1 from rfl] at hc
  have W := RawTables.wf_iff hw
  have eMds : Mat.toM rfl (r.toParams hw).mds = natM (k + 2) (k + 2) (canons r.mds) := vecM _ _ _
  have eWs : ∀ (j : Nat) (h : j < 31) (i : Fin (k + 1)), (r.toParams hw).optimizedMds.wHatCollection[j].elements[i] =
      ((nth (nthL (r.wHatCollection.map canons) j) i : Nat) : Fq) := by
    intro j hj i
    have hj' : j < r.wHatCollection.length := by omega
    rw [nthL_lt (by simpa using hj'), List.getElem_map]
    have hl : (r.wHatCollection[j]'hj').length = k + 1 := W.2.2.2.2.2.2.2.2.2.2.2.2.2.1 _ (List.getElem_mem _)
    rw [← vecOf_get (k + 1) _ hl i i.isLt]
    simp [RawTables.toParams]
  refine ⟨fun j h a => ?_, fun m00 v a => ?_⟩
  · rw [eWs]
    exact natCast_ne_zero_of_check (allN_iff.1 (allN_iff.1 hc.1 j h) a a.isLt)
  · have h1 : (fun i => sparseM m00 v (fun b => (r.toParams hw).optimizedMds.wHatCollection[0].elements[b]) i a.succ) =
        natV (k + 2) (tabN (k + 2) fun i => Nat.rec (nth (nthL (r.wHatCollection.map canons) 0) a) (fun i' _ => bif Nat.beq i' a then 1 else 0) i) := by
      funext i
      rw [natV, nth_tabN _ i.isLt]
      cases i using Fin.cases with
      | zero => exact eWs 0 (by norm_num) a
      | succ i =>
        show (if i = a then (1 : Fq) else 0) = ((bif Nat.beq i.val a.val then 1 else 0 : Nat) : Fq)
        by_cases hi : i = a
        · rw [if_pos hi, hi, show Nat.beq a.val a.val = true from Nat.beq_refl _, cond_true, Nat.cast_one]
        · rw [if_neg hi, show Nat.beq i.val a.val = false from Bool.eq_false_iff.2 fun hh => hi (Fin.ext (Nat.eq_of_beq_eq_true hh)), cond_false, Nat.cast_zero]
    rw [h1, eMds, leadRounds_cast]
    exact natCast_ne_zero_of_check (allN_iff.1 hc.2 a a.isLt)

theorem shipped_sparse_lead (i : Fin 7) :
    (∀ (j : Nat) (h : j < 31) (a : Fin (i.val + 1)), (shippedParams i).optimizedMds.wHatCollection[j].elements[a] ≠ 0) ∧
    ∀ (m00 : Fq) (v : Fin (i.val + 1) → Fq) (a : Fin (i.val + 1)), leadRounds 17 (Mat.toM rfl (shippedParams i).mds) (List.replicate 4 true)
      (fun b => sparseM m00 v (fun b => (shippedParams i).optimizedMds.wHatCollection[0].elements[b]) b a.succ) 1 ≠ 0 := by
  fin_cases i
  · exact checkSparseLead_spec rate1Raw_wf sparseLead1
  · exact checkSparseLead_spec rate2Raw_wf sparseLead2
  · exact checkSparseLead_spec rate3Raw_wf sparseLead3
  · exact checkSparseLead_spec rate4Raw_wf sparseLead4
  · exact checkSparseLead_spec rate5Raw_wf sparseLead5
  · exact checkSparseLead_spec rate6Raw_wf sparseLead6
  · exact checkSparseLead_spec rate7Raw_wf sparseLead7

/-! ## The shipped permutation, split at a partial round -/

/-- The kinds of the rounds. -/
abbrev roundKinds : Nat → Bool := fun r => decide (r < 4 ∨ 35 ≤ r)

/-- The rounds of a list. -/
abbrev shippedText (i : Fin 7) (l : List Nat) : (Fin (i.val + 2) → Fq) → Fin (i.val + 2) → Fq :=
  textE 17 (cauchyMds Fq (i.val + 2)) roundKinds (rowFn rfl (shippedParams i).arc) l

theorem shippedText_append (i : Fin 7) (l l' : List Nat) (x : Fin (i.val + 2) → Fq) : shippedText i l' (shippedText i l x) = shippedText i (l ++ l') x :=
  (textE_append _ _ _ _ _ _).symm

theorem perm377_text (i : Fin 7) {n : Nat} (hn : n ≤ 31) (x : Fin (i.val + 2) → Fq) :
    perm377 i x = shippedText i (List.range' (4 + n) (35 - n)) (shippedText i (List.range' 0 (4 + n)) x) := by
  rw [shippedText, ← textE_append]
  have h1 := List.range'_append_1 (s := 0) (m := 4 + n) (n := 35 - n)
  rw [Nat.zero_add, show 4 + n + (35 - n) = 39 by omega] at h1
  rw [h1, ← List.range_eq_range', ← List.map_coe_finRange_eq_range, textE, List.foldl_map, perm377, permE]
  refine List.foldl_ext _ _ _ fun y r _ => ?_
  rw [rowFn, dif_pos r.isLt]
  rfl

theorem roundKinds_map : ∀ n, n ≤ 31 → (List.range' (4 + n) (35 - n)).map roundKinds = List.replicate (31 - n) false ++ List.replicate 4 true := by
  have : ∀ n : Fin 32, (List.range' (4 + n.val) (35 - n.val)).map roundKinds = List.replicate (31 - n.val) false ++ List.replicate 4 true := by decide
  exact fun n hn => this ⟨n, by omega⟩

theorem textE_first {t e : Nat} {F : Type} [Field F] [DecidableEq F] (M : Matrix (Fin t) (Fin t) F) (full : Nat → Bool) (c : Nat → Fin t → F) (s n : Nat) (x : Fin t → F) :
    textE e M full c (List.range' s (n + 1)) x = textE e M full c (List.range' (s + 1) n) (roundE e M (full s) (c s) x) := by
  rw [textE, List.range'_succ]
  rfl

/-- On every line in the direction of a change the digest is a polynomial whose degree is a power of 17. -/
theorem shipped_line_power (i : Fin 7) {n : Nat} (hn : n ≤ 31) {A : Nat → Matrix (Fin (i.val + 1)) (Fin (i.val + 1)) Fq} {c : Nat → Fin (i.val + 2) → Fq} {κ : Nat → Fq} {d : Nat → Fin (i.val + 2) → Fq}
    (h : Related (cauchyMds Fq (i.val + 2)) 31 (storedSparse (shippedParams i).optimizedMds) c κ A d) {a : Fin (i.val + 2)} {D : Fin (i.val + 2) → Fq}
    (hD : (diag1 (A (31 - n))).mulVec D = Pi.single a 1) (y : Fin (i.val + 2) → Fq) :
    ∃ (Q : Fq[X]) (m : Nat), Q.natDegree = 17 ^ m ∧ Q.natDegree ≤ 17 ^ (35 - n) ∧
      ∀ z, shippedText i (List.range' (4 + n) (35 - n)) (y + z • D) 1 = Q.eval z := by
  have key : leadRounds 17 (cauchyMds Fq (i.val + 2)) ((List.range' (4 + n) (35 - n)).map roundKinds) D 1 ≠ 0 →
      ∃ (Q : Fq[X]) (m : Nat), Q.natDegree = 17 ^ m ∧ Q.natDegree ≤ 17 ^ (35 - n) ∧
        ∀ z, shippedText i (List.range' (4 + n) (35 - n)) (y + z • D) 1 = Q.eval z := by
    intro hl
    obtain ⟨Q, h1, h2⟩ := textE_line (cauchyMds Fq (i.val + 2)) roundKinds (rowFn rfl (shippedParams i).arc) (by norm_num : 2 ≤ 17) _ hl y
    rw [List.length_range'] at h1
    exact ⟨Q, _, h1, h1.le, h2⟩
  have hD0 : D 0 = (Pi.single a 1 : Fin (i.val + 2) → Fq) 0 := by rw [← hD, diag1_zero]
  rw [roundKinds_map n hn] at key
  rcases Nat.lt_or_ge n 31 with hn' | hn'
  · cases a using Fin.cases with
    | zero =>
      apply key
      rw [show 31 - n = (30 - n) + 1 by omega]
      exact shipped_tail i _ _ (by rw [hD0, Pi.single_eq_same]; exact one_ne_zero) 1
    | succ a =>
      rw [Pi.single_eq_of_ne (Fin.succ_ne_zero a).symm] at hD0
      -- one linear round
      have hnext := h.next (j := 30 - n) (by omega) (a := a.succ) (D := D) (by rw [show 30 - n + 1 = 31 - n by omega]; exact hD)
      have hfirst : ∀ z : Fq, shippedText i (List.range' (4 + n) (35 - n)) (y + z • D) =
          shippedText i (List.range' (4 + n + 1) (34 - n)) (roundE 17 (cauchyMds Fq (i.val + 2)) false (rowFn rfl (shippedParams i).arc (4 + n)) y + z • (cauchyMds Fq (i.val + 2)).mulVec D) := by
        intro z
        rw [← roundE_line _ _ _ _ hD0, show 35 - n = (34 - n) + 1 by omega, shippedText, textE_first, show roundKinds (4 + n) = false by
          rw [decide_eq_false_iff_not]; omega]
      have hl : leadRounds 17 (cauchyMds Fq (i.val + 2)) ((List.range' (4 + n + 1) (34 - n)).map roundKinds) ((cauchyMds Fq (i.val + 2)).mulVec D) 1 ≠ 0 := by
        have hk := roundKinds_map (n + 1) (by omega)
        rw [show 4 + (n + 1) = 4 + n + 1 by omega, show 35 - (n + 1) = 34 - n by omega] at hk
        rw [hk]
        rcases Nat.lt_or_ge n 30 with h30 | h30
        · rw [show 31 - (n + 1) = (29 - n) + 1 by omega]
          refine shipped_tail i _ _ ?_ 1
          have h0 := congrFun hnext 0
          rw [diag1_zero] at h0
          rw [h0, storedSparse, dif_pos (by omega : 30 - n < 31)]
          exact (shipped_sparse_lead i).1 (30 - n) (by omega) a
        · rw [show 30 - n = 0 by omega, h.one, diag1_one, Matrix.one_mulVec] at hnext
          rw [hnext, show 31 - (n + 1) = 0 by omega, List.replicate_zero, List.nil_append, ← shipped_mds_cauchy]
          have := (shipped_sparse_lead i).2 (shippedParams i).optimizedMds.m00 (fun b => (shippedParams i).optimizedMds.vCollection[0].elements[b]) a
          rw [storedSparse, dif_pos (by norm_num : 0 < 31)]
          exact this
      obtain ⟨Q, h1, h2⟩ := textE_line (cauchyMds Fq (i.val + 2)) roundKinds (rowFn rfl (shippedParams i).arc) (by norm_num : 2 ≤ 17) _ hl
        (roundE 17 (cauchyMds Fq (i.val + 2)) false (rowFn rfl (shippedParams i).arc (4 + n)) y)
      rw [List.length_range'] at h1
      refine ⟨Q, _, h1, ?_, fun z => by rw [hfirst, ← h2]⟩
      rw [h1]
      exact Nat.pow_le_pow_right (by norm_num) (by omega)
  · apply key
    rw [show 31 - n = 0 by omega, h.one, diag1_one, Matrix.one_mulVec] at hD
    rw [hD, show 31 - n = 0 by omega, List.replicate_zero, List.nil_append]
    exact shipped_full_lead i (n := 4) (by norm_num) (by norm_num) 1 a

/-! ## The hash with a changed matrix -/

/-- What a changed entry does: the hash still succeeds, leaves the state of the shipped hash for one input in `q`, and has its digest for at most `17 ^ B + 1` inputs in `q`. -/
def FewSame (i : Fin 7) (B : Nat) (P : Params Fq (i.val + 2) (i.val + 1) ((i.val + 2) * (i.val + 2)) ((i.val + 1) * (i.val + 1)) 39 (i.val + 2) (39 * (i.val + 2)) 31) : Prop :=
  (∀ s x, ∃ o, outcome (Instance.nTo1FixedHash ⟨P, s⟩ (Vector.ofFn x)) = .ok o) ∧
  ∀ s s', Nat.card {x // outcome (Instance.nTo1FixedHash ⟨P, s⟩ (Vector.ofFn x)) = outcome (Instance.nTo1FixedHash ⟨shippedParams i, s'⟩ (Vector.ofFn x))} = q ^ (i.val + 1) ∧
    Nat.card {x // ∃ d S S', outcome (Instance.nTo1FixedHash ⟨P, s⟩ (Vector.ofFn x)) = .ok (d, S) ∧
      outcome (Instance.nTo1FixedHash ⟨shippedParams i, s'⟩ (Vector.ofFn x)) = .ok (d, S')} * q ≤ (17 ^ B + 1) * q ^ (i.val + 2)

theorem fewSame_of {i : Fin 7} {B : Nat} {P : Params Fq (i.val + 2) (i.val + 1) ((i.val + 2) * (i.val + 2)) ((i.val + 1) * (i.val + 1)) 39 (i.val + 2) (39 * (i.val + 2)) 31}
    {f : (Fin (i.val + 2) → Fq) → Fin (i.val + 2) → Fq} (hP : ∀ x, permute P (Vector.ofFn x) = .ok (Vector.ofFn (f x)))
    (h1 : Nat.card {x // f x = perm377 i x} = q ^ (i.val + 1)) (h2 : Nat.card {x // f x 1 = perm377 i x 1} * q ≤ (17 ^ B + 1) * q ^ (i.val + 2)) : FewSame i B P := by
  have hh : ∀ s x, outcome (Instance.nTo1FixedHash ⟨P, s⟩ (Vector.ofFn x)) = .ok (f x 1, Vector.ofFn (f x)) := by
    intro s x
    rw [Instance.nTo1FixedHash, setState_eq]
    dsimp only [bind, Except.bind]
    rw [hP]
    dsimp only
    rw [aget_ofFn _ (by omega : 1 < i.val + 2), show (⟨1, by omega⟩ : Fin (i.val + 2)) = 1 from rfl]
    rfl
  refine ⟨fun s x => ⟨_, hh s x⟩, fun s s' => ⟨?_, ?_⟩⟩
  · rw [← h1]
    apply Nat.card_congr
    apply Equiv.subtypeEquivRight
    intro x
    rw [hh, outcome_shipped]
    constructor
    · intro h
      exact ofFn_inj (congrArg Prod.snd (Except.ok.inj h))
    · intro h
      rw [h]
  · refine le_trans (le_of_eq ?_) h2
    congr 1
    apply Nat.card_congr
    apply Equiv.subtypeEquivRight
    intro x
    rw [hh, outcome_shipped]
    constructor
    · rintro ⟨d, S, S', h1, h2⟩
      exact (congrArg Prod.fst (Except.ok.inj h1)).trans (congrArg Prod.fst (Except.ok.inj h2)).symm
    · intro h1
      rw [h1]
      exact ⟨_, _, _, rfl, rfl⟩

theorem shipped_related (i : Fin 7) : ∃ A d, Related (cauchyMds Fq (i.val + 2)) 31 (storedSparse (shippedParams i).optimizedMds) (fun r => rowFn rfl (shippedParams i).arc (4 + r))
      (innerConstants rfl (shippedParams i).optimizedArc 4 31) A d ∧
    (shippedParams i).optimizedMds.mI.toM rfl = diag1 (A 31) ∧ d 0 = rowFn rfl (shippedParams i).optimizedArc 4 := by
  have h := (shipped_consistent i).related (rf := 4) (rp := 31) (by rw [shipped_rounds]; rfl) (by rw [shipped_rounds])
  rw [shipped_mds_cauchy] at h
  exact h

/-- The optimized hash with other matrices. -/
theorem shipped_permute (i : Fin 7) (o : OptimizedMds Fq 31 (i.val + 2) (i.val + 1) ((i.val + 2) * (i.val + 2)) ((i.val + 1) * (i.val + 1))) (x : Fin (i.val + 2) → Fq) :
    permute { shippedParams i with optimizedMds := o } (Vector.ofFn x) = .ok (Vector.ofFn (shippedText i (List.range' 35 4)
      (midE 17 (storedSparse o) (innerConstants rfl (shippedParams i).optimizedArc 4 31) 31 (List.range' 0 31)
        ((o.mI.toM rfl).mulVec (shippedText i (List.range' 0 4) x + rowFn rfl (shippedParams i).optimizedArc 4))))) := by
  have hc := shipped_consistent i
  have e1 : (shippedParams i).rounds.rF / 2 = 4 := by rw [shipped_rounds]; rfl
  have e2 : (shippedParams i).rounds.rP = 31 := by rw [shipped_rounds]
  have h := permute_pure { shippedParams i with optimizedMds := o } rfl rfl (rf := 4) (rp := 31) e1 e2 (le_refl 39) (by norm_num) (le_refl 31) (shipped_alpha i) x
  dsimp only at h
  rw [shipped_mds_cauchy] at h
  rw [h]
  have hpre := hc.full_pre
  have hpost := hc.full_post
  rw [e1] at hpre
  rw [e1, e2] at hpost
  have f1 : ∀ x : Fin (i.val + 2) → Fq, sameE 17 (cauchyMds Fq (i.val + 2)) true (rowFn rfl (shippedParams i).optimizedArc) (List.range' 0 4) x = shippedText i (List.range' (0 + 0) 4) x := by
    refine sameE_textE fun r h1 h2 => ⟨?_, ?_⟩
    · rw [decide_eq_true_eq]; omega
    · rw [Nat.zero_add]; exact hpre r (by omega)
  have f2 : ∀ x : Fin (i.val + 2) → Fq, sameE 17 (cauchyMds Fq (i.val + 2)) true (rowFn rfl (shippedParams i).optimizedArc) (List.range' 35 4) x = shippedText i (List.range' (0 + 35) 4) x := by
    refine sameE_textE fun r h1 h2 => ⟨?_, ?_⟩
    · rw [decide_eq_true_eq]; omega
    · rw [Nat.zero_add]; exact hpost r (by omega) (by omega)
  rw [show 4 + 31 = 35 from rfl, f1, f2]

theorem shipped_same (i : Fin 7) {m n : Nat} (h : m + n ≤ 31) (x : Fin (i.val + 2) → Fq) :
    sameE 17 (cauchyMds Fq (i.val + 2)) false (fun r => rowFn rfl (shippedParams i).arc (4 + r)) (List.range' m n) x = shippedText i (List.range' (4 + m) n) x := by
  refine sameE_textE (F := Fq) (full := roundKinds) (c := rowFn rfl (shippedParams i).arc) (l := 4) (fun r h1 h2 => ⟨?_, rfl⟩) x
  rw [decide_eq_false_iff_not]
  omega

/-- One changed entry, seen in the textbook rounds. -/
theorem shipped_rank_one (i : Fin 7) {n : Nat} (hn : n ≤ 31) {A : Nat → Matrix (Fin (i.val + 1)) (Fin (i.val + 1)) Fq} {c : Nat → Fin (i.val + 2) → Fq} {κ : Nat → Fq} {d : Nat → Fin (i.val + 2) → Fq}
    (h : Related (cauchyMds Fq (i.val + 2)) 31 (storedSparse (shippedParams i).optimizedMds) c κ A d) {a b : Fin (i.val + 2)} {D : Fin (i.val + 2) → Fq}
    (hD : (diag1 (A (31 - n))).mulVec D = Pi.single a 1) {K K' : Matrix (Fin (i.val + 2)) (Fin (i.val + 2)) Fq} (hK : K * K' = 1) (w : Fin (i.val + 2) → Fq) {δ : Fq} (hδ : δ ≠ 0)
    {P : Params Fq (i.val + 2) (i.val + 1) ((i.val + 2) * (i.val + 2)) ((i.val + 1) * (i.val + 1)) 39 (i.val + 2) (39 * (i.val + 2)) 31}
    (hP : ∀ x, permute P (Vector.ofFn x) = .ok (Vector.ofFn (shippedText i (List.range' (4 + n) (35 - n)) (shippedText i (List.range' 0 (4 + n)) x +
      (δ * K.mulVec (shippedText i (List.range' 0 (4 + n)) x + w) b) • D)))) : FewSame i (35 - n) P := by
  have : Fact q.Prime := ⟨q_prime⟩
  have : CharP Fq q := charP_of_card_eq_prime card_Fq
  have hM := (shippedAll i).1.mInverse
  rw [shipped_mds_cauchy] at hM
  have hD0 : D ≠ 0 := by
    intro h0
    rw [h0, Matrix.mulVec_zero] at hD
    exact one_ne_zero (α := Fq) (by simpa using (congrFun hD a).symm)
  obtain ⟨h1, h2⟩ := card_changed (p := q) (e := 17) card_Fq (by omega) (by norm_num) pow17_bijective.1 hK w 1 b hδ hD0
    (g := shippedText i (List.range' 0 (4 + n))) (T := shippedText i (List.range' (4 + n) (35 - n))) (textE_bijective hM pow17_bijective _ _ _)
    (textE_bijective hM pow17_bijective _ _ _).1 (17 ^ (35 - n)) ((Nat.pow_le_pow_right (by norm_num) (by omega)).trans_lt (by decide +kernel : 17 ^ 39 < q))
    fun y => shipped_line_power i hn h hD y
  refine fewSame_of hP ?_ ?_
  · simp only [perm377_text i hn]
    exact h1
  · simp only [perm377_text i hn]
    exact h2

/-- An entry of the first matrix. -/
theorem shipped_first (i : Fin 7) (a b : Fin (i.val + 2)) {δ : Fq} (hδ : δ ≠ 0) {o : OptimizedMds Fq 31 (i.val + 2) (i.val + 1) ((i.val + 2) * (i.val + 2)) ((i.val + 1) * (i.val + 1))}
    (hE : storedSparse o = storedSparse (shippedParams i).optimizedMds)
    (hM : ∀ z, (o.mI.toM rfl).mulVec z = ((shippedParams i).optimizedMds.mI.toM rfl).mulVec z + (δ * z b) • Pi.single a 1) :
    FewSame i 35 { shippedParams i with optimizedMds := o } := by
  have hMi := (shippedAll i).1.mInverse
  rw [shipped_mds_cauchy] at hMi
  obtain ⟨A, d, h, h1, h2⟩ := shipped_related i
  rw [h1] at hM
  obtain ⟨D, hD, hx⟩ := h.change_first (e := 17) hMi a b hM
  refine shipped_rank_one i (n := 0) (b := b) (by norm_num) h hD (one_mul 1) (d 0) hδ fun x => ?_
  rw [shipped_permute, hE, ← h2, hx, shipped_same i (by norm_num), shippedText_append]
  rfl

/-- An entry of a sparse matrix. -/
theorem shipped_sparse (i : Fin 7) (a b : Fin (i.val + 2)) {δ : Fq} (hδ : δ ≠ 0) {o : OptimizedMds Fq 31 (i.val + 2) (i.val + 1) ((i.val + 2) * (i.val + 2)) ((i.val + 1) * (i.val + 1))}
    {j : Nat} (hj : j < 31) (hE : ∀ j', j' < 31 → j' ≠ j → storedSparse o j' = storedSparse (shippedParams i).optimizedMds j')
    (hEj : ∀ z, (storedSparse o j).mulVec z = (storedSparse (shippedParams i).optimizedMds j).mulVec z + (δ * z b) • Pi.single a 1)
    (hM : o.mI = (shippedParams i).optimizedMds.mI) :
    FewSame i (j + 4) { shippedParams i with optimizedMds := o } := by
  have hMi := (shippedAll i).1.mInverse
  rw [shipped_mds_cauchy] at hMi
  obtain ⟨A, d, h, h1, h2⟩ := shipped_related i
  obtain ⟨D, K, K', hK, hD, hx⟩ := h.change_sparse (e := 17) hMi a b hj hE hEj
  have hfew := shipped_rank_one i (n := 31 - j) (by omega) h (a := a) (b := b) (D := D) (by rw [show 31 - (31 - j) = j by omega]; exact hD) hK (d (31 - j)) hδ
    (P := { shippedParams i with optimizedMds := o }) fun x => ?_
  · rw [show 35 - (31 - j) = j + 4 by omega] at hfew
    exact hfew
  rw [shipped_permute, hM, h1, ← h2, hx, shipped_same i (by omega), shipped_same i (by omega), shippedText_append, shippedText_append]
  have l1 := List.range'_append_1 (s := 4 + (31 - j)) (m := j) (n := 4)
  rw [show 4 + (31 - j) + j = 35 by omega, show j + 4 = 35 - (31 - j) by omega] at l1
  have l2 := List.range'_append_1 (s := 0) (m := 4) (n := 31 - j)
  rw [Nat.zero_add] at l2
  rw [l1, show 4 + 0 = 4 from rfl, l2]

section
variable {F : Type} [Field F] [DecidableEq F] {k nmds nhat npart : Nat}

theorem row_elements (m : Mat F 1 k k) (a : Fin k) : m.elements[a] = m.toM (Nat.one_mul k).symm 0 a := by
  simp [Mat.toM]

theorem column_elements (m : Mat F k 1 k) (a : Fin k) : m.elements[a] = m.toM (Nat.mul_one k).symm a 0 := by
  simp [Mat.toM]

theorem sparseM_change_v (m00 : F) (v w : Fin k → F) (j : Fin k) (x : F) (z : Fin (k + 1) → F) :
    (sparseM m00 (fun a => if a = j then x else v a) w).mulVec z = (sparseM m00 v w).mulVec z + ((x - v j) * z 0) • Pi.single j.succ 1 := by
  funext a
  cases a using Fin.cases with
  | zero =>
    rw [Pi.add_apply, sparseM_zero, sparseM_zero, Pi.smul_apply, Pi.single_eq_of_ne (Fin.succ_ne_zero j).symm, smul_zero, add_zero]
  | succ a =>
    rw [Pi.add_apply, sparseM_succ, sparseM_succ, Pi.smul_apply, smul_eq_mul]
    by_cases h : a = j
    · subst h
      rw [if_pos rfl, Pi.single_eq_same]
      ring
    · rw [if_neg h, Pi.single_eq_of_ne (fun hh => h (Fin.succ_injective _ hh)), mul_zero, add_zero]

theorem sparseM_change_w (m00 : F) (v w : Fin k → F) (j : Fin k) (x : F) (z : Fin (k + 1) → F) :
    (sparseM m00 v (fun a => if a = j then x else w a)).mulVec z = (sparseM m00 v w).mulVec z + ((x - w j) * z j.succ) • Pi.single 0 1 := by
  funext a
  cases a using Fin.cases with
  | zero =>
    rw [Pi.add_apply, sparseM_zero, sparseM_zero, Pi.smul_apply, Pi.single_eq_same, smul_eq_mul, mul_one, add_assoc]
    congr 1
    rw [← sub_eq_iff_eq_add', ← Finset.sum_sub_distrib, Finset.sum_eq_single j]
    · rw [if_pos rfl, sub_mul]
    · intro a _ ha
      rw [if_neg ha, sub_self]
    · intro h
      exact absurd (Finset.mem_univ j) h
  | succ a => rw [Pi.add_apply, sparseM_succ, sparseM_succ, Pi.smul_apply, Pi.single_eq_of_ne (Fin.succ_ne_zero a), smul_zero, add_zero]

theorem mulVec_change {t : Nat} (M : Matrix (Fin t) (Fin t) F) (a b : Fin t) (x : F) (z : Fin t → F) :
    (Matrix.of fun a' b' => if a' = a ∧ b' = b then x else M a' b').mulVec z = M.mulVec z + ((x - M a b) * z b) • Pi.single a 1 := by
  funext a'
  rw [Pi.add_apply, Pi.smul_apply, smul_eq_mul]
  simp only [Matrix.mulVec, _root_.dotProduct, Matrix.of_apply]
  rw [← sub_eq_iff_eq_add', ← Finset.sum_sub_distrib, Finset.sum_eq_single b]
  · by_cases h : a' = a
    · rw [if_pos ⟨h, rfl⟩, h, Pi.single_eq_same, mul_one, sub_mul]
    · rw [if_neg (fun hh => h hh.1), Pi.single_eq_of_ne h, mul_zero, sub_self]
  · intro b' _ hb
    rw [if_neg (fun hh => hb hh.2), sub_self]
  · intro h
    exact absurd (Finset.mem_univ b) h

end

/-- **C122, `v`.** Replace one entry of one of the matrices `v` of the partial rounds by another value. The optimized hash still succeeds; for exactly one input in `q` it leaves the state
of the shipped hash, and at most `17 ^ (r + 4) + 1` inputs in `q` have the digest of the shipped hash. -/
theorem C122_v (i : Fin 7) (r : Fin 31) (j : Fin (i.val + 1)) (x : Fq) (hx : (shippedParams i).optimizedMds.vCollection[r].get 0 j ≠ .ok x) :
    ∃ m, (shippedParams i).optimizedMds.vCollection[r].set 0 j x = .ok m ∧
      FewSame i (r.val + 4) { shippedParams i with optimizedMds := { (shippedParams i).optimizedMds with vCollection := (shippedParams i).optimizedMds.vCollection.set r m } } := by
  have hn : i.val + 1 = 1 * (i.val + 1) := (Nat.one_mul _).symm
  refine ⟨_, Mat.set_eq hn _ Nat.zero_lt_one j.isLt x, ?_⟩
  rw [Mat.get_eq hn _ Nat.zero_lt_one j.isLt] at hx
  have hδ : x - (shippedParams i).optimizedMds.vCollection[r].elements[j] ≠ 0 :=
    sub_ne_zero.2 fun hh => hx (congrArg Except.ok (by rw [hh, row_elements]; rfl))
  refine shipped_sparse i j.succ 0 hδ r.isLt (fun j' h1 h2 => ?_) (fun z => ?_) rfl
  · rw [storedSparse, storedSparse, dif_pos h1, dif_pos h1]
    simp only [Vector.getElem_set_ne _ _ (Ne.symm h2)]
  · rw [storedSparse, storedSparse, dif_pos r.isLt, dif_pos r.isLt]
    have hset : (fun a : Fin (i.val + 1) => ((shippedParams i).optimizedMds.vCollection.set r
        (Mat.ofM hn (Matrix.of fun a b => if a = ⟨0, Nat.zero_lt_one⟩ ∧ b = ⟨j.val, j.isLt⟩ then x else (shippedParams i).optimizedMds.vCollection[r].toM hn a b)))[r.val].elements[a]) =
        fun a => if a = j then x else (shippedParams i).optimizedMds.vCollection[r.val].elements[a] := by
      funext a
      rw [Vector.getElem_set_self, row_elements, Mat.toM_ofM, Matrix.of_apply, row_elements]
      by_cases h : a = j
      · rw [if_pos ⟨rfl, h⟩, if_pos h]
      · rw [if_neg (fun hh => h hh.2), if_neg h]
        rfl
    have := sparseM_change_v (shippedParams i).optimizedMds.m00 (fun a => (shippedParams i).optimizedMds.vCollection[r.val].elements[a])
      (fun a => (shippedParams i).optimizedMds.wHatCollection[r.val].elements[a]) j x z
    rw [← hset] at this
    exact this

/-- **C122, `w_hat`.** The same for the entries of the matrices `w_hat` of the partial rounds. -/
theorem C122_w_hat (i : Fin 7) (r : Fin 31) (j : Fin (i.val + 1)) (x : Fq) (hx : (shippedParams i).optimizedMds.wHatCollection[r].get j 0 ≠ .ok x) :
    ∃ m, (shippedParams i).optimizedMds.wHatCollection[r].set j 0 x = .ok m ∧
      FewSame i (r.val + 4) { shippedParams i with optimizedMds := { (shippedParams i).optimizedMds with wHatCollection := (shippedParams i).optimizedMds.wHatCollection.set r m } } := by
  have hn : i.val + 1 = (i.val + 1) * 1 := (Nat.mul_one _).symm
  refine ⟨_, Mat.set_eq hn _ j.isLt Nat.zero_lt_one x, ?_⟩
  rw [Mat.get_eq hn _ j.isLt Nat.zero_lt_one] at hx
  have hδ : x - (shippedParams i).optimizedMds.wHatCollection[r].elements[j] ≠ 0 :=
    sub_ne_zero.2 fun hh => hx (congrArg Except.ok (by rw [hh, column_elements]; rfl))
  refine shipped_sparse i 0 j.succ hδ r.isLt (fun j' h1 h2 => ?_) (fun z => ?_) rfl
  · rw [storedSparse, storedSparse, dif_pos h1, dif_pos h1]
    simp only [Vector.getElem_set_ne _ _ (Ne.symm h2)]
  · rw [storedSparse, storedSparse, dif_pos r.isLt, dif_pos r.isLt]
    have hset : (fun a : Fin (i.val + 1) => ((shippedParams i).optimizedMds.wHatCollection.set r
        (Mat.ofM hn (Matrix.of fun a b => if a = ⟨j.val, j.isLt⟩ ∧ b = ⟨0, Nat.zero_lt_one⟩ then x else (shippedParams i).optimizedMds.wHatCollection[r].toM hn a b)))[r.val].elements[a]) =
        fun a => if a = j then x else (shippedParams i).optimizedMds.wHatCollection[r.val].elements[a] := by
      funext a
      rw [Vector.getElem_set_self, column_elements, Mat.toM_ofM, Matrix.of_apply, column_elements]
      by_cases h : a = j
      · rw [if_pos ⟨h, rfl⟩, if_pos h]
      · rw [if_neg (fun hh => h hh.1), if_neg h]
        rfl
    have := sparseM_change_w (shippedParams i).optimizedMds.m00 (fun a => (shippedParams i).optimizedMds.vCollection[r.val].elements[a])
      (fun a => (shippedParams i).optimizedMds.wHatCollection[r.val].elements[a]) j x z
    rw [← hset] at this
    exact this

/-- **C122, `M_i`.** The same for all entries of the matrix `M_i`, also those that are 0 or 1 by construction. -/
theorem C122_m_i (i : Fin 7) (a b : Fin (i.val + 2)) (x : Fq) (hx : (shippedParams i).optimizedMds.mI.get a b ≠ .ok x) :
    ∃ m, (shippedParams i).optimizedMds.mI.set a b x = .ok m ∧
      FewSame i 35 { shippedParams i with optimizedMds := { (shippedParams i).optimizedMds with mI := m } } := by
  refine ⟨_, Mat.set_eq rfl _ a.isLt b.isLt x, ?_⟩
  rw [Mat.get_eq rfl _ a.isLt b.isLt] at hx
  have hδ : x - (shippedParams i).optimizedMds.mI.toM rfl a b ≠ 0 := sub_ne_zero.2 fun hh => hx (congrArg Except.ok hh.symm)
  refine shipped_first i a b hδ rfl fun z => ?_
  dsimp only
  rw [Mat.toM_ofM]
  exact mulVec_change _ a b x z

theorem permute_outcome {i : Fin 7} {P : Params Fq (i.val + 2) (i.val + 1) ((i.val + 2) * (i.val + 2)) ((i.val + 1) * (i.val + 1)) 39 (i.val + 2) (39 * (i.val + 2)) 31}
    {x y : Fin (i.val + 2) → Fq} (hP : permute P (Vector.ofFn x) = .ok (Vector.ofFn y)) (s : Vector Fq (i.val + 2)) :
    outcome (Instance.nTo1FixedHash ⟨P, s⟩ (Vector.ofFn x)) = .ok (y 1, Vector.ofFn y) := by
  rw [Instance.nTo1FixedHash, setState_eq]
  dsimp only [bind, Except.bind]
  rw [hP]
  dsimp only
  rw [aget_ofFn _ (by omega : 1 < i.val + 2), show (⟨1, by omega⟩ : Fin (i.val + 2)) = 1 from rfl]
  rfl

/-- The digest as a polynomial in `M_00`. -/
theorem shipped_m00 (i : Fin 7) (x : Fin (i.val + 2) → Fq)
    (hx : (shippedText i (List.range' 0 4) x + rowFn rfl (shippedParams i).optimizedArc 4) 0 ^ 17 + innerConstants rfl (shippedParams i).optimizedArc 4 31 0 ≠ 0) :
    ∃ Q : Fq[X], 1 ≤ Q.natDegree ∧ Q.natDegree ≤ 17 ^ 35 ∧ ∀ m, ∃ y, permute { shippedParams i with optimizedMds := { (shippedParams i).optimizedMds with m00 := m } } (Vector.ofFn x) =
      .ok (Vector.ofFn y) ∧ y 1 = Q.eval m := by
  obtain ⟨A, d, -, h1, -⟩ := shipped_related i
  have h0 : ((shippedParams i).optimizedMds.mI.toM rfl).mulVec (shippedText i (List.range' 0 4) x + rowFn rfl (shippedParams i).optimizedArc 4) 0 =
      (shippedText i (List.range' 0 4) x + rowFn rfl (shippedParams i).optimizedArc 4) 0 := by
    rw [h1, diag1_zero]
  rw [← h0] at hx
  obtain ⟨P, n, c, h2, h3, h4, h5, h6⟩ := midE_entry_first (by norm_num : 2 ≤ 17)
    (fun j a => if h : j < 31 then (shippedParams i).optimizedMds.vCollection[j].elements[a] else 0)
    (fun j a => if h : j < 31 then (shippedParams i).optimizedMds.wHatCollection[j].elements[a] else 0)
    (innerConstants rfl (shippedParams i).optimizedArc 4 31) 31 30 _ hx
  obtain ⟨Q, h7, h8⟩ := rounds_poly (cauchyMds Fq (i.val + 2)) roundKinds (rowFn rfl (shippedParams i).arc) (by norm_num : 2 ≤ 17) (List.range' 35 4) h2 h5
  rw [List.length_range'] at h7
  have hl : leadRounds 17 (cauchyMds Fq (i.val + 2)) ((List.range' 35 4).map roundKinds) (Pi.single 0 c) 1 ≠ 0 := by
    have hs : (Pi.single 0 c : Fin (i.val + 2) → Fq) = c • Pi.single 0 1 := by
      rw [← Pi.single_smul, smul_eq_mul, mul_one]
    rw [hs, leadRounds_smul, Pi.smul_apply, smul_eq_mul]
    refine mul_ne_zero (pow_ne_zero _ h4) ?_
    exact shipped_full_lead i (n := 4) (by norm_num) (by norm_num) 1 0
  have hdeg : (Q 1).natDegree = n * 17 ^ 4 := le_antisymm (h7 1).1 (le_natDegree_of_ne_zero (by rw [(h7 1).2]; exact hl))
  refine ⟨Q 1, ?_, ?_, fun m => ⟨_, shipped_permute i _ x, ?_⟩⟩
  · rw [hdeg]; omega
  · rw [hdeg]
    calc n * 17 ^ 4 ≤ (17 ^ 30 * 2) * 17 ^ 4 := Nat.mul_le_mul_right _ (by omega)
      _ ≤ 17 ^ 35 := by norm_num
  · refine Eq.trans ?_ (congrFun (h8 m) 1).symm
    rw [← h6 m, shippedText, textE, midE_congr (E := fun j => sparseM m (fun a => if h : j < 31 then (shippedParams i).optimizedMds.vCollection[j].elements[a] else 0)
      (fun a => if h : j < 31 then (shippedParams i).optimizedMds.wHatCollection[j].elements[a] else 0))]
    intro r hr
    have hr := List.mem_range'_1.1 hr
    have h31 : 31 - r - 1 < 31 := by omega
    rw [storedSparse, dif_pos h31]
    simp only [dif_pos h31]

/-- **C122, `M_00`.** With any value of `M_00`, which is read in all partial rounds, the optimized hash succeeds; and for all inputs but at most one in `q`, at most `17 ^ 35` of the `q` values give
the digest of the shipped hash: a single test vector finds nearly every wrong value. -/
theorem C122_m_00 (i : Fin 7) :
    (∀ m s x, ∃ o, outcome (Instance.nTo1FixedHash ⟨{ shippedParams i with optimizedMds := { (shippedParams i).optimizedMds with m00 := m } }, s⟩ (Vector.ofFn x)) = .ok o) ∧
    Nat.card {x : Fin (i.val + 2) → Fq // ¬ ∀ s s', Nat.card {m // ∃ d S S', outcome (Instance.nTo1FixedHash ⟨shippedParams i, s⟩ (Vector.ofFn x)) = .ok (d, S) ∧
      outcome (Instance.nTo1FixedHash ⟨{ shippedParams i with optimizedMds := { (shippedParams i).optimizedMds with m00 := m } }, s'⟩ (Vector.ofFn x)) = .ok (d, S')} ≤ 17 ^ 35} ≤
        q ^ (i.val + 1) := by
  refine ⟨fun m s x => ⟨_, permute_outcome (shipped_permute i _ x) s⟩, ?_⟩
  have hM := (shippedAll i).1.mInverse
  rw [shipped_mds_cauchy] at hM
  have hbij : Function.Bijective (shippedText i (List.range' 0 4)) := textE_bijective hM pow17_bijective _ _ _
  obtain ⟨z, hz⟩ := pow17_bijective.2 (-(innerConstants rfl (shippedParams i).optimizedArc 4 31 0))
  have hz : z ^ 17 = _ := hz
  have hcard := card_word_zero (F := Fq) (one_mul (1 : Matrix (Fin (i.val + 2)) (Fin (i.val + 2)) Fq)) (rowFn rfl (shippedParams i).optimizedArc 4 - Pi.single 0 z) 0
  rw [card_Fq, Nat.add_succ_sub_one] at hcard
  rw [← hcard, ← Fintype.card_subtype, ← Nat.card_eq_fintype_card]
  refine Nat.card_le_card_of_injective (fun x => ⟨shippedText i (List.range' 0 4) x.1, ?_⟩) fun x y h => Subtype.ext (hbij.1 (congrArg Subtype.val h))
  rw [Matrix.one_mulVec]
  by_contra hne
  refine x.2 fun s s' => ?_
  obtain ⟨Q, h1, h2, h3⟩ := shipped_m00 i x.1 (fun h0 => hne (by
    have h4 := pow17_bijective.1 (hz.trans (eq_neg_of_add_eq_zero_left h0).symm)
    rw [← add_sub_assoc, Pi.sub_apply, Pi.single_eq_same, h4, sub_self]))
  have h5 := card_eval_eq (g := Q) (f := Polynomial.C (perm377 i x.1 1)) (by rw [natDegree_C]; omega)
  refine le_trans ?_ (h5.trans h2)
  refine Nat.card_le_card_of_injective (fun m => ⟨m.1, ?_⟩) fun v w h => Subtype.ext (congrArg (fun z => z.1) h)
  obtain ⟨d, S, S', h6, h7⟩ := m.2
  obtain ⟨y, h8, h9⟩ := h3 m.1
  rw [outcome_shipped] at h6
  rw [permute_outcome h8] at h7
  rw [eval_C, ← h9]
  exact (congrArg Prod.fst (Except.ok.inj h7)).trans (congrArg Prod.fst (Except.ok.inj h6)).symm

/-- **C122, `M_00`, all inputs.** For all but at most `K * (17 ^ 35 + 1)` of the `q` values of `M_00`, less than one input in `K` has the digest of the shipped hash. -/
theorem C122_m_00_inputs (i : Fin 7) (K : Nat) (s s' : Vector Fq (i.val + 2)) :
    Nat.card {m // q ^ (i.val + 2) ≤ K * Nat.card {x // ∃ d S S', outcome (Instance.nTo1FixedHash ⟨shippedParams i, s⟩ (Vector.ofFn x)) = .ok (d, S) ∧
      outcome (Instance.nTo1FixedHash ⟨{ shippedParams i with optimizedMds := { (shippedParams i).optimizedMds with m00 := m } }, s'⟩ (Vector.ofFn x)) = .ok (d, S')}} ≤ K * (17 ^ 35 + 1) := by
  have hq : Nat.card (Fin (i.val + 2) → Fq) = q ^ (i.val + 2) := by rw [Nat.card_eq_fintype_card, Fintype.card_fun, card_Fq, Fintype.card_fin]
  rw [← hq]
  refine card_markov (fun m x => ∃ d S S', outcome (Instance.nTo1FixedHash ⟨shippedParams i, s⟩ (Vector.ofFn x)) = .ok (d, S) ∧
      outcome (Instance.nTo1FixedHash ⟨{ shippedParams i with optimizedMds := { (shippedParams i).optimizedMds with m00 := m } }, s'⟩ (Vector.ofFn x)) = .ok (d, S'))
    (17 ^ 35) (fun x => ¬ ∀ s s', Nat.card {m // ∃ d S S', outcome (Instance.nTo1FixedHash ⟨shippedParams i, s⟩ (Vector.ofFn x)) = .ok (d, S) ∧
      outcome (Instance.nTo1FixedHash ⟨{ shippedParams i with optimizedMds := { (shippedParams i).optimizedMds with m00 := m } }, s'⟩ (Vector.ofFn x)) = .ok (d, S')} ≤ 17 ^ 35)
    ?_ (fun x hx => not_not.1 hx s s') K
  rw [hq, Nat.card_eq_fintype_card (α := Fq), card_Fq, pow_succ q (i.val + 1)]
  exact Nat.mul_le_mul_right _ (C122_m_00 i).2

/-- Not vacuous: there is an input that finds nearly every wrong value. -/
example (i : Fin 7) (s s' : Vector Fq (i.val + 2)) :
    ∃ x, Nat.card {m // ∃ d S S', outcome (Instance.nTo1FixedHash ⟨shippedParams i, s⟩ (Vector.ofFn x)) = .ok (d, S) ∧
      outcome (Instance.nTo1FixedHash ⟨{ shippedParams i with optimizedMds := { (shippedParams i).optimizedMds with m00 := m } }, s'⟩ (Vector.ofFn x)) = .ok (d, S')} ≤ 17 ^ 35 := by
  by_contra h
  have h1 := (C122_m_00 i).2
  rw [Nat.card_congr (Equiv.subtypeUnivEquiv fun x h2 => h ⟨x, h2 s s'⟩), Nat.card_eq_fintype_card, Fintype.card_fun, card_Fq, Fintype.card_fin] at h1
  exact absurd h1 (Nat.not_le_of_lt (Nat.pow_lt_pow_right q_prime.one_lt (by omega)))

section
variable {F : Type} [Field F] [DecidableEq F] {t tm1 nmds nhat rows cols nround npart : Nat}

/-- **C122, the matrices the hashes do not read.** For all parameters: the optimized hash ignores `M_hat`, `v`, `w`, `M'`, `M''` and both inverses, and the table of round constants of the
unoptimized hash; the unoptimized hash ignores all optimized matrices and constants. -/
theorem C122_unread (P : Params F t tm1 nmds nhat rows cols nround npart) (o : OptimizedMds F npart t tm1 nmds nhat) (A : Mat F rows cols nround) (s x : Vector F t) :
    outcome (Instance.nTo1FixedHash ⟨{ P with arc := A, optimizedMds := { o with
        m00 := P.optimizedMds.m00, mI := P.optimizedMds.mI, vCollection := P.optimizedMds.vCollection, wHatCollection := P.optimizedMds.wHatCollection } }, s⟩ x) =
      outcome (Instance.nTo1FixedHash ⟨P, s⟩ x) ∧
    outcome (Instance.unoptimizedNTo1FixedHash ⟨{ P with optimizedArc := A, optimizedMds := o }, s⟩ x) = outcome (Instance.unoptimizedNTo1FixedHash ⟨P, s⟩ x) := by
  constructor
  · rw [Instance.nTo1FixedHash, Instance.nTo1FixedHash]
    cases setState s x with
    | error e => rfl
    | ok s =>
      simp only [ok_bind]
      show outcome (permute P s >>= _) = outcome (permute P s >>= _)
      cases permute P s with
      | error e => rfl
      | ok s =>
        simp only [ok_bind]
        cases aget s 1 <;> rfl
  · rw [Instance.unoptimizedNTo1FixedHash, Instance.unoptimizedNTo1FixedHash]
    cases setState s x with
    | error e => rfl
    | ok s =>
      simp only [ok_bind]
      show outcome (unoptimizedPermute P s >>= _) = outcome (unoptimizedPermute P s >>= _)
      cases unoptimizedPermute P s with
      | error e => rfl
      | ok s =>
        simp only [ok_bind]
        cases aget s 1 <;> rfl

end

/-- Not vacuous: every entry can be replaced, and the bounds are far below the number of inputs. -/
example (i : Fin 7) (r : Fin 31) (j : Fin (i.val + 1)) (a b : Fin (i.val + 2)) :
    (∃ x, (shippedParams i).optimizedMds.vCollection[r].get 0 j ≠ .ok x) ∧ (∃ x, (shippedParams i).optimizedMds.wHatCollection[r].get j 0 ≠ .ok x) ∧
      (∃ x, (shippedParams i).optimizedMds.mI.get a b ≠ .ok x) ∧ (17 ^ 35 + 1) * 2 ^ 100 < q := by
  have h : ∀ y : Fq, ∃ x, (Except.ok y : R Fq) ≠ .ok x := fun y => ⟨y + 1, fun h => one_ne_zero (α := Fq) (add_eq_left.1 (Except.ok.inj h).symm)⟩
  refine ⟨?_, ?_, ?_, by decide +kernel⟩
  · rw [Mat.get_eq (Nat.one_mul _).symm _ Nat.zero_lt_one j.isLt]
    exact h _
  · rw [Mat.get_eq (Nat.mul_one _).symm _ j.isLt Nat.zero_lt_one]
    exact h _
  · rw [Mat.get_eq rfl _ a.isLt b.isLt]
    exact h _

end Poseidon
