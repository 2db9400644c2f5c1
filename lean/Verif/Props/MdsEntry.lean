import Verif.Proofs.MdsEntry
import Verif.Props.MatrixChange

/-!
# Property C122, the MDS matrix

An entry of the MDS matrix is read in every full round of the optimized hash and in every round of the unoptimized one.
-/

set_option linter.unusedSectionVars false

namespace Poseidon

open Polynomial

section
variable {F : Type} [Field F] [DecidableEq F] {t e : Nat}

theorem permE_two (M : Matrix (Fin t) (Fin t) F) (C : Fin 39 → Fin t → F) (x : Fin t → F) :
    permE e M 4 31 C x = ((List.finRange 39).drop 2).foldl (fun x r => roundE e M (decide (r.val < 4 ∨ 4 + 31 ≤ r.val)) (C r) x) (roundE e M true (C 1) (roundE e M true (C 0) x)) := by
  rw [permE, show List.finRange (4 + 31 + 4) = 0 :: 1 :: (List.finRange 39).drop 2 by decide +kernel, List.foldl_cons, List.foldl_cons]
  rfl

theorem sameE_two (M : Matrix (Fin t) (Fin t) F) (c : Nat → Fin t → F) (x : Fin t → F) :
    sameE e M true c (List.range' 0 4) x = (List.range' 2 2).foldl (fun x r => roundE e M true (c r) x) (roundE e M true (c 1) (roundE e M true (c 0) x)) := rfl

theorem sameE_one (M : Matrix (Fin t) (Fin t) F) (c : Nat → Fin t → F) (x : Fin t → F) :
    sameE e M true c (List.range' 35 4) x = (List.range' 36 3).foldl (fun x r => roundE e M true (c r) x) (roundE e M true (c 35) x) := rfl

theorem midE_last {k : Nat} (E : Nat → Matrix (Fin (k + 1)) (Fin (k + 1)) F) (κ : Nat → F) (y : Fin (k + 1) → F) :
    midE e E κ 31 (List.range' 0 31) y = (E 0).mulVec (s0E e (midE e E κ 31 (List.range' 0 30) y) + Pi.single 0 (κ 30)) := by
  rw [show List.range' 0 31 = List.range' 0 30 ++ [30] from rfl, midE_append]
  rfl

end

/-- Two full rounds: no coefficient of the second matrix product vanishes. -/
theorem shipped_entry_two (i : Fin 7) (a j : Fin (i.val + 2)) : (cauchyMds Fq (i.val + 2)).mulVec (fun l => cauchyMds Fq (i.val + 2) l j ^ 17) a ≠ 0 := by
  have h := shipped_full_lead i (n := 2) (by norm_num) (by norm_num) a j
  rw [show leadRounds 17 (cauchyMds Fq (i.val + 2)) (List.replicate 2 true) (Pi.single j 1) =
    leadRound 17 (cauchyMds Fq (i.val + 2)) true (leadRound 17 (cauchyMds Fq (i.val + 2)) true (Pi.single j 1)) from rfl, leadRound_single _ _ (by norm_num), leadRound] at h
  simpa [Active] using h

/-- The digest of the unoptimized hash as a polynomial in the entry. -/
theorem unoptimized_entry (i : Fin 7) (a b : Fin (i.val + 2)) (C : Fin 39 → Fin (i.val + 2) → Fq) (x : Fin (i.val + 2) → Fq) (hx : x b + C 0 b ≠ 0) :
    ∃ Q : Fq[X], 1 ≤ Q.natDegree ∧ Q.natDegree ≤ 17 ^ 39 ∧ ∀ m, permE 17 (entryM (cauchyMds Fq (i.val + 2)) a b m) 4 31 C x 1 = Q.eval m := by
  obtain ⟨d, P, h1, h2, h3⟩ := start_after (by norm_num : 4 ≤ 17) (shipped_entry i) (shipped_entry_two i) a b (C 0) (C 1) x hx
  obtain ⟨d', Q, h4, h5, h6⟩ := rounds_after (by norm_num : 4 ≤ 17) (shipped_entry i) (shipped_entry_two i) a b (fun r : Fin 39 => decide (r.val < 4 ∨ 4 + 31 ≤ r.val)) C
    ((List.finRange 39).drop 2) h2
  have hl : ((List.finRange 39).drop 2).length = 37 := by rw [List.length_drop, List.length_finRange]
  rw [hl] at h4
  refine ⟨Q 1, h5.words 1, ?_, fun m => ?_⟩
  · have h7 := (h5.wide.2 1).2
    have h8 : 17 ^ 37 * (d + 1) ≤ 17 ^ 37 * 19 := Nat.mul_le_mul_left _ (by omega)
    have h9 : 17 ^ 37 * 19 ≤ 17 ^ 39 := by norm_num
    omega
  · have h7 := congrFun (h6 m) 1
    rw [← h7, ← h3 m, permE_two]

/-- The digest of the optimized hash as a polynomial in the entry. -/
theorem optimized_entry (i : Fin 7) (a b : Fin (i.val + 2)) (x : Fin (i.val + 2) → Fq) (hx : x b + rowFn rfl (shippedParams i).optimizedArc 0 b ≠ 0) :
    ∃ Q : Fq[X], 1 ≤ Q.natDegree ∧ Q.natDegree ≤ 17 ^ 39 ∧ ∀ m, ∃ y, permute { shippedParams i with mds := Mat.ofM rfl (entryM (cauchyMds Fq (i.val + 2)) a b m) } (Vector.ofFn x) =
      .ok (Vector.ofFn y) ∧ y 1 = Q.eval m := by
  obtain ⟨A, D, hrel, hI, -⟩ := shipped_related i
  -- column 0 of the sparse matrices
  have hcol : ∀ j, j < 31 → storedSparse (shippedParams i).optimizedMds j 0 0 ≠ 0 := by
    intro j hj
    have h := congrArg (fun N : Matrix (Fin (i.val + 2)) (Fin (i.val + 2)) Fq => N.mulVec (Pi.single 0 1) 0) (hrel.mats j hj)
    rw [← Matrix.mulVec_mulVec, ← Matrix.mulVec_mulVec, diag1_zero, single_diag1, Matrix.mulVec_single_one, Matrix.mulVec_single_one] at h
    exact fun h0 => shipped_entry i 0 0 (h.trans h0)
  have hcol0 : (fun l => storedSparse (shippedParams i).optimizedMds 0 l 0) = fun l => cauchyMds Fq (i.val + 2) l 0 := by
    funext l
    have h := congrArg (fun N : Matrix (Fin (i.val + 2)) (Fin (i.val + 2)) Fq => N.mulVec (Pi.single 0 1) l) (hrel.mats 0 (by norm_num))
    rw [hrel.one, diag1_one, one_mul, ← Matrix.mulVec_mulVec, single_diag1, Matrix.mulVec_single_one, Matrix.mulVec_single_one] at h
    exact h.symm
  obtain ⟨d1, P1, a1, b1, c1⟩ := start_after (by norm_num : 4 ≤ 17) (shipped_entry i) (shipped_entry_two i) a b (rowFn rfl (shippedParams i).optimizedArc 0)
    (rowFn rfl (shippedParams i).optimizedArc 1) x hx
  obtain ⟨d2, P2, a2, b2, c2⟩ := rounds_after (by norm_num : 4 ≤ 17) (shipped_entry i) (shipped_entry_two i) a b (fun _ => true) (rowFn rfl (shippedParams i).optimizedArc) (List.range' 2 2) b1
  obtain ⟨P3, b3, c3⟩ := diag1_wide (A 31) (rowFn rfl (shippedParams i).optimizedArc 4) b2.wide
  obtain ⟨d4, P4, p4, a4, b4, c4⟩ := midE_wide (by norm_num : 4 ≤ 17) (storedSparse (shippedParams i).optimizedMds) (innerConstants rfl (shippedParams i).optimizedArc 4 31) 31 (List.range' 0 30)
    (fun r hr => hcol _ (by omega)) b2.pos b3
  obtain ⟨n, u, p5, a5, hu, b5⟩ := fixed_top (by norm_num : 4 ≤ 17) (storedSparse (shippedParams i).optimizedMds (31 - 30 - 1)) (innerConstants rfl (shippedParams i).optimizedArc 4 31 30) b4
  rw [show 31 - 30 - 1 = 0 from rfl, hcol0] at b5
  obtain ⟨d6, a6, b6⟩ := full_after (by norm_num : 3 ≤ 17) (shipped_entry i) (shipped_entry_two i) a b (rowFn rfl (shippedParams i).optimizedArc 35) p5 ⟨u, hu, Or.inr ⟨0, b5⟩⟩
  obtain ⟨d7, P7, a7, b7, c7⟩ := rounds_after (by norm_num : 4 ≤ 17) (shipped_entry i) (shipped_entry_two i) a b (fun _ => true) (rowFn rfl (shippedParams i).optimizedArc) (List.range' 36 3) b6
  rw [List.length_range'] at a2 a4 a7
  have e1 : (shippedParams i).rounds.rF / 2 = 4 := by rw [shipped_rounds]; rfl
  have e2 : (shippedParams i).rounds.rP = 31 := by rw [shipped_rounds]
  refine ⟨P7 1, b7.words 1, ?_, fun m => ⟨_, permute_pure { shippedParams i with mds := Mat.ofM rfl (entryM (cauchyMds Fq (i.val + 2)) a b m) } rfl rfl (rf := 4) (rp := 31) e1 e2 (le_refl 39)
    (by norm_num) (le_refl 31) (shipped_alpha i) x, ?_⟩⟩
  · have h7 := (b7.wide.2 1).2
    have : 17 ^ 2 * (d1 + 1) ≤ 17 ^ 2 * 19 := Nat.mul_le_mul_left _ (by omega)
    have h4 : 17 ^ 30 * (d2 + 1) ≤ 17 ^ 30 * (17 ^ 2 * 19) := Nat.mul_le_mul_left _ (by omega)
    have h6 : d6 + 1 ≤ 17 * 17 * (17 ^ 30 * (17 ^ 2 * 19)) := by omega
    have : 17 ^ 3 * (d6 + 1) ≤ 17 ^ 3 * (17 * 17 * (17 ^ 30 * (17 ^ 2 * 19))) := Nat.mul_le_mul_left _ h6
    have h9 : 17 ^ 3 * (17 * 17 * (17 ^ 30 * (17 ^ 2 * 19))) ≤ 17 ^ 39 := by norm_num
    omega
  · have hpre : sameE 17 (entryM (cauchyMds Fq (i.val + 2)) a b m) true (rowFn rfl (shippedParams i).optimizedArc) (List.range' 0 4) x = fun l => (P2 l).eval m := by
      rw [← c2 m, ← c1 m, sameE_two]
    have hmid : midE 17 (storedSparse (shippedParams i).optimizedMds) (innerConstants rfl (shippedParams i).optimizedArc 4 31) 31 (List.range' 0 31) (fun l => (P3 l).eval m) =
        fun l => (fixedPoly 17 (storedSparse (shippedParams i).optimizedMds 0) (innerConstants rfl (shippedParams i).optimizedArc 4 31 30) P4 l).eval m := by
      rw [fixedPoly_eval, ← c4 m, midE_last]
    dsimp only
    rw [Mat.toM_ofM, hpre, hI, c3, hmid, ← congrFun (c7 m) 1, entryPoly_eval, sameE_one]

/-- The matrix with a new entry. -/
theorem set_entry (i : Fin 7) (a b : Fin (i.val + 2)) (m : Fq) :
    (shippedParams i).mds.set a b m = .ok (Mat.ofM rfl (entryM (cauchyMds Fq (i.val + 2)) a b m)) := by
  rw [Mat.set_eq rfl _ a.isLt b.isLt, shipped_mds_cauchy]
  rfl

/-- **C122, the MDS matrix.** Replace an entry of a shipped MDS matrix by any value. Both hashes still succeed. Take any input whose word in the column of the entry is not the negative of the first round
constant for that word (these are all inputs but one in `q`): at most `17 ^ 39` of the `q` values give the digest of the shipped hash, in either of the two hashes. -/
theorem C122_mds (i : Fin 7) (a b : Fin (i.val + 2)) :
    (∀ m, ∃ M, (shippedParams i).mds.set a b m = .ok M ∧ ∀ s x, (∃ o, outcome (Instance.nTo1FixedHash ⟨{ shippedParams i with mds := M }, s⟩ (Vector.ofFn x)) = .ok o) ∧
      ∃ o, outcome (Instance.unoptimizedNTo1FixedHash ⟨{ shippedParams i with mds := M }, s⟩ (Vector.ofFn x)) = .ok o) ∧
    ∀ x : Fin (i.val + 2) → Fq, (shippedParams i).arc.get 0 b ≠ .ok (-x b) → ∀ s s',
      Nat.card {m // ∃ M d S S', (shippedParams i).mds.set a b m = .ok M ∧ outcome (Instance.nTo1FixedHash ⟨shippedParams i, s⟩ (Vector.ofFn x)) = .ok (d, S) ∧
        outcome (Instance.nTo1FixedHash ⟨{ shippedParams i with mds := M }, s'⟩ (Vector.ofFn x)) = .ok (d, S')} ≤ 17 ^ 39 ∧
      Nat.card {m // ∃ M d S S', (shippedParams i).mds.set a b m = .ok M ∧ outcome (Instance.nTo1FixedHash ⟨shippedParams i, s⟩ (Vector.ofFn x)) = .ok (d, S) ∧
        outcome (Instance.unoptimizedNTo1FixedHash ⟨{ shippedParams i with mds := M }, s'⟩ (Vector.ofFn x)) = .ok (d, S')} ≤ 17 ^ 39 := by
  have e1 : (shippedParams i).rounds.rF / 2 = 4 := by rw [shipped_rounds]; rfl
  have e2 : (shippedParams i).rounds.rP = 31 := by rw [shipped_rounds]
  have hopt := fun m x => permute_pure { shippedParams i with mds := Mat.ofM rfl (entryM (cauchyMds Fq (i.val + 2)) a b m) } rfl rfl (rf := 4) (rp := 31) e1 e2 (le_refl 39)
    (by norm_num) (le_refl 31) (shipped_alpha i) x
  have hun : ∀ m s x, outcome (Instance.unoptimizedNTo1FixedHash ⟨{ shippedParams i with mds := Mat.ofM rfl (entryM (cauchyMds Fq (i.val + 2)) a b m) }, s⟩ (Vector.ofFn x)) =
      .ok (permE 17 (entryM (cauchyMds Fq (i.val + 2)) a b m) 4 31 (fun r => (shippedParams i).arc.toM rfl r) x 1,
        Vector.ofFn (permE 17 (entryM (cauchyMds Fq (i.val + 2)) a b m) 4 31 (fun r => (shippedParams i).arc.toM rfl r) x)) := by
    intro m s x
    have h := unoptimized_permE { shippedParams i with mds := Mat.ofM rfl (entryM (cauchyMds Fq (i.val + 2)) a b m) } (Nat.le_add_left 1 i.val) rfl rfl (rf := 4) (rp := 31) e1 e2 (le_refl 39)
      (shipped_alpha i) s x
    dsimp only at h
    rw [Mat.toM_ofM] at h
    exact congrArg outcome h
  refine ⟨fun m => ⟨_, set_entry i a b m, fun s x => ⟨⟨_, permute_outcome (hopt m x) s⟩, ⟨_, hun m s x⟩⟩⟩, fun x hx s s' => ?_⟩
  rw [Mat.get_eq rfl _ (by norm_num : 0 < 39) b.isLt] at hx
  have hx0 : x b + (shippedParams i).arc.toM rfl 0 b ≠ 0 := fun h => hx (congrArg Except.ok (eq_neg_of_add_eq_zero_right h))
  have hrow : rowFn rfl (shippedParams i).optimizedArc 0 = (shippedParams i).arc.toM rfl 0 := by
    have h := (shipped_consistent i).full_pre
    rw [e1] at h
    rw [h 0 (by norm_num), rowFn, dif_pos (by norm_num : 0 < 39)]
    rfl
  constructor
  · obtain ⟨Q, h1, h2, h3⟩ := optimized_entry i a b x (by rw [hrow]; exact hx0)
    have h5 := card_eval_eq (g := Q) (f := Polynomial.C (perm377 i x 1)) (by rw [natDegree_C]; omega)
    refine le_trans ?_ (h5.trans h2)
    refine Nat.card_le_card_of_injective (fun m => ⟨m.1, ?_⟩) fun v w h => Subtype.ext (congrArg (fun z => z.1) h)
    obtain ⟨M, d, S, S', h4, h6, h7⟩ := m.2
    rw [set_entry] at h4
    obtain rfl := Except.ok.inj h4
    obtain ⟨y, h8, h9⟩ := h3 m.1
    rw [outcome_shipped] at h6
    rw [permute_outcome h8] at h7
    rw [eval_C, ← h9]
    exact (congrArg Prod.fst (Except.ok.inj h7)).trans (congrArg Prod.fst (Except.ok.inj h6)).symm
  · obtain ⟨Q, h1, h2, h3⟩ := unoptimized_entry i a b (fun r => (shippedParams i).arc.toM rfl r) x hx0
    have h5 := card_eval_eq (g := Q) (f := Polynomial.C (perm377 i x 1)) (by rw [natDegree_C]; omega)
    refine le_trans ?_ (h5.trans h2)
    refine Nat.card_le_card_of_injective (fun m => ⟨m.1, ?_⟩) fun v w h => Subtype.ext (congrArg (fun z => z.1) h)
    obtain ⟨M, d, S, S', h4, h6, h7⟩ := m.2
    rw [set_entry] at h4
    obtain rfl := Except.ok.inj h4
    rw [outcome_shipped] at h6
    rw [hun] at h7
    rw [eval_C, ← h3]
    exact (congrArg Prod.fst (Except.ok.inj h7)).trans (congrArg Prod.fst (Except.ok.inj h6)).symm

/-- The inputs with a given word. -/
theorem card_word_at (i : Fin 7) (b : Fin (i.val + 2)) (c : Fq) : Nat.card {x : Fin (i.val + 2) → Fq // x b + c = 0} * Nat.card Fq ≤ Nat.card (Fin (i.val + 2) → Fq) := by
  have h := card_word_zero (F := Fq) (one_mul (1 : Matrix (Fin (i.val + 2)) (Fin (i.val + 2)) Fq)) (fun _ => c) b
  simp only [Matrix.one_mulVec, Pi.add_apply] at h
  rw [Nat.card_eq_fintype_card, Fintype.card_subtype, h, Nat.card_eq_fintype_card, Nat.card_eq_fintype_card, Fintype.card_fun, Fintype.card_fin, Nat.add_succ_sub_one, ← pow_succ]

/-- **C122, the MDS matrix, all inputs.** For all but at most `K * (17 ^ 39 + 1)` of the `q` values of an entry, less than one input in `K` has the digest of the shipped hash, in either hash. -/
theorem C122_mds_inputs (i : Fin 7) (a b : Fin (i.val + 2)) (K : Nat) (s s' : Vector Fq (i.val + 2)) :
    Nat.card {m // q ^ (i.val + 2) ≤ K * Nat.card {x // ∃ M d S S', (shippedParams i).mds.set a b m = .ok M ∧ outcome (Instance.nTo1FixedHash ⟨shippedParams i, s⟩ (Vector.ofFn x)) = .ok (d, S) ∧
      outcome (Instance.nTo1FixedHash ⟨{ shippedParams i with mds := M }, s'⟩ (Vector.ofFn x)) = .ok (d, S')}} ≤ K * (17 ^ 39 + 1) ∧
    Nat.card {m // q ^ (i.val + 2) ≤ K * Nat.card {x // ∃ M d S S', (shippedParams i).mds.set a b m = .ok M ∧ outcome (Instance.nTo1FixedHash ⟨shippedParams i, s⟩ (Vector.ofFn x)) = .ok (d, S) ∧
      outcome (Instance.unoptimizedNTo1FixedHash ⟨{ shippedParams i with mds := M }, s'⟩ (Vector.ofFn x)) = .ok (d, S')}} ≤ K * (17 ^ 39 + 1) := by
  have hq : Nat.card (Fin (i.val + 2) → Fq) = q ^ (i.val + 2) := by rw [Nat.card_eq_fintype_card, Fintype.card_fun, card_Fq, Fintype.card_fin]
  have hx : ∀ x : Fin (i.val + 2) → Fq, ¬ x b + (shippedParams i).arc.toM rfl 0 b = 0 → (shippedParams i).arc.get 0 b ≠ .ok (-x b) := by
    intro x hx h
    rw [Mat.get_eq rfl _ (by norm_num : 0 < 39) b.isLt] at h
    exact hx (add_eq_zero_iff_eq_neg'.2 (Except.ok.inj h))
  rw [← hq]
  constructor
  · exact card_markov (fun m x => ∃ M d S S', (shippedParams i).mds.set a b m = .ok M ∧ outcome (Instance.nTo1FixedHash ⟨shippedParams i, s⟩ (Vector.ofFn x)) = .ok (d, S) ∧
      outcome (Instance.nTo1FixedHash ⟨{ shippedParams i with mds := M }, s'⟩ (Vector.ofFn x)) = .ok (d, S')) (17 ^ 39) _ (card_word_at i b _)
      (fun x h => ((C122_mds i a b).2 x (hx x h) s s').1) K
  · exact card_markov (fun m x => ∃ M d S S', (shippedParams i).mds.set a b m = .ok M ∧ outcome (Instance.nTo1FixedHash ⟨shippedParams i, s⟩ (Vector.ofFn x)) = .ok (d, S) ∧
      outcome (Instance.unoptimizedNTo1FixedHash ⟨{ shippedParams i with mds := M }, s'⟩ (Vector.ofFn x)) = .ok (d, S')) (17 ^ 39) _ (card_word_at i b _)
      (fun x h => ((C122_mds i a b).2 x (hx x h) s s').2) K

/-- **C122, circuits.** Replace an entry of the MDS matrix in the parameters of a circuit. For the same inputs and all but `17 ^ 39` of the values, no assignment that satisfies the constraints gives
the output the value of the native digest, in whatever constraint system the gadget was called. -/
theorem C122_circuit (i : Fin 7) (a b : Fin (i.val + 2)) (x : Fin (i.val + 2) → Fq) (hx : (shippedParams i).arc.get 0 b ≠ .ok (-x b)) (s : Vector Fq (i.val + 2)) :
    Nat.card {m // ∃ (M : Mat Fq (i.val + 2) (i.val + 2) ((i.val + 2) * (i.val + 2))) (inputs : Vector (R1cs.FpVar Fq) (i.val + 2)) (cs cs' : R1cs.CS Fq) (out : R1cs.FpVar Fq) (σ : R1cs.Variable → Fq),
      (shippedParams i).mds.set a b m = .ok M ∧ R1cs.nTo1FixedHash { shippedParams i with mds := M } inputs cs = .ok (out, cs') ∧ R1cs.Satisfies σ cs' ∧
      inputs.map (R1cs.FpVar.eval σ) = Vector.ofFn x ∧ ∃ I, Instance.nTo1FixedHash ⟨shippedParams i, s⟩ (Vector.ofFn x) = .ok (out.eval σ, I)} ≤ 17 ^ 39 := by
  refine le_trans ?_ ((C122_mds i a b).2 x hx s (Vector.replicate _ 0)).2
  refine Nat.card_le_card_of_injective (fun m => ⟨m.1, ?_⟩) fun m n h => Subtype.ext (congrArg (fun z => z.1) h)
  obtain ⟨M, inputs, cs, cs', out, σ, h1, h3, h4, h5, I, h6⟩ := m.2
  obtain ⟨I', h7⟩ := C09_soundness { shippedParams i with mds := M } (shipped_alpha i) (by norm_num) (by omega) rfl inputs cs cs' out h3 σ h4
  rw [h5] at h7
  exact ⟨M, out.eval σ, I.outputWords, I'.outputWords, h1, by rw [h6]; rfl, (congrArg outcome h7).trans rfl⟩

section
variable {F : Type} [Field F] [DecidableEq F] {t tm1 nmds nhat rows cols nround npart : Nat}

/-- **C122, circuits do not read the optimized tables.** -/
theorem C122_circuit_unread (P : Params F t tm1 nmds nhat rows cols nround npart) (o : OptimizedMds F npart t tm1 nmds nhat) (A : Mat F rows cols nround)
    (inputs : Vector (R1cs.FpVar F) t) (cs : R1cs.CS F) :
    R1cs.nTo1FixedHash { P with optimizedArc := A, optimizedMds := o } inputs cs = R1cs.nTo1FixedHash P inputs cs := rfl

end

/-- Not vacuous: there are such inputs, and the bound is far below the number of values. -/
example (i : Fin 7) (b : Fin (i.val + 2)) : (∃ x : Fin (i.val + 2) → Fq, (shippedParams i).arc.get 0 b ≠ .ok (-x b)) ∧ 17 ^ 39 * 2 ^ 92 < q := by
  refine ⟨⟨fun _ => -((shippedParams i).arc.toM rfl 0 b + 1), ?_⟩, by decide +kernel⟩
  rw [Mat.get_eq rfl _ (by norm_num : 0 < 39) b.isLt, neg_neg]
  exact fun h => one_ne_zero (α := Fq) (add_eq_left.1 (Except.ok.inj h).symm)

end Poseidon
