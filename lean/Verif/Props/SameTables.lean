import Verif.Proofs.SameTables
import Verif.Props.MatrixChange
import Verif.Proofs.MvDegree
import Mathlib.Algebra.MvPolynomial.SchwartzZippel

/-!
# Property C123: which tables of round constants give the same hash

A round constant that no S-box of its round sees can be moved through the matrix into the next round. No other change of the table goes unnoticed.
-/

set_option linter.unusedSectionVars false

namespace Poseidon

open Polynomial

section
variable {F : Type} [Field F] [DecidableEq F] {t e : Nat}

theorem permE_range (M : Matrix (Fin t) (Fin t) F) (A : Fin 39 → Fin t → F) (x : Fin t → F) :
    permE e M 4 31 A x = textE e M roundKinds (extend A) (List.range 39) x := by
  rw [← List.map_coe_finRange_eq_range, textE, List.foldl_map, permE]
  refine List.foldl_ext _ _ _ fun y r _ => ?_
  rw [extend_lt A r.isLt]

theorem leadRounds_append (M : Matrix (Fin t) (Fin t) F) (l l' : List Bool) (L : Fin t → F) : leadRounds e M (l ++ l') L = leadRounds e M l' (leadRounds e M l L) :=
  List.foldl_append

theorem card_zero_on {α : Type} (p : α → Prop) [DecidablePred p] : Nat.card {D : α → F // ∀ a, p a → D a = 0} = Nat.card ({a // ¬ p a} → F) := by
  refine Nat.card_congr (Equiv.trans (Equiv.subtypeEquivRight fun D => ?_) (Equiv.subtypePreimage p fun _ => 0))
  constructor
  · intro h
    funext a
    exact h a a.2
  · intro h a ha
    exact congrFun h ⟨a, ha⟩

/-- A table of round constants as rows. -/
def tableRows (n t : Nat) : Mat F n t (n * t) ≃ (Fin n → Fin t → F) where
  toFun A := fun r j => A.toM rfl r j
  invFun D := Mat.ofM rfl (Matrix.of D)
  left_inv A := Mat.ofM_toM rfl A
  right_inv D := Mat.toM_ofM rfl (Matrix.of D)

/-- A change described by a list of vectors is described by the gaps. -/
theorem gap_of_moves (M : Matrix (Fin t) (Fin t) F) (c c' D : Nat → Fin t → F) (n : Nat) (h0 : c' 0 = c 0 + D 0) (h : ∀ r, r < n → c' (r + 1) + M.mulVec (D r) = c (r + 1) + D (r + 1)) (r : Nat) (hr : r ≤ n) :
    gap M c c' r = D r := by
  induction r with
  | zero => rw [gap, h0, add_sub_cancel_left]
  | succ r ih =>
    rw [gap, ih (by omega), sub_add_eq_add_sub, h r (by omega), add_sub_cancel_left]

end

theorem kinds_range : ∀ m, m ≤ 39 → (List.range m).map roundKinds = List.replicate (min m 4) true ++ (List.replicate (min (m - 4) 31) false ++ List.replicate (m - 35) true) := by
  have : ∀ m : Fin 40, (List.range m.val).map roundKinds = List.replicate (min m.val 4) true ++ (List.replicate (min (m.val - 4) 31) false ++ List.replicate (m.val - 35) true) := by decide
  exact fun m hm => this ⟨m, by omega⟩

/-- No leading coefficient vanishes after any number of rounds. -/
theorem prefix_lead (i : Fin 7) (m : Nat) (hm : m < 39) (j : Fin (i.val + 2)) :
    leadRounds 17 (cauchyMds Fq (i.val + 2)) ((List.range m).map roundKinds) (Pi.single j 1) j ≠ 0 := by
  rw [kinds_range m hm.le, leadRounds_append]
  rcases Nat.lt_or_ge 4 m with h4 | h4
  · obtain ⟨n, hn⟩ : ∃ n, min (m - 4) 31 = n + 1 := ⟨min (m - 4) 31 - 1, by omega⟩
    rw [hn, show min m 4 = 4 by omega]
    obtain ⟨μ, h1, h2⟩ := leadRounds_partial (cauchyMds Fq (i.val + 2)) (shipped_entry i 0 0) (e := 17) (by norm_num) n (List.replicate (m - 35) true) _
      (shipped_full_lead i (n := 4) (by norm_num) (by norm_num) 0 j)
    rw [h2, Pi.smul_apply, smul_eq_mul]
    exact mul_ne_zero h1 (shipped_full_lead i (n := m - 35 + 1) (by omega) (by omega) j 0)
  · rw [show m - 4 = 0 by omega, show m - 35 = 0 by omega, show min m 4 = m by omega]
    rcases Nat.eq_zero_or_pos m with h0 | h0
    · subst h0
      show (Pi.single j (1 : Fq) : Fin (i.val + 2) → Fq) j ≠ 0
      rw [Pi.single_eq_same]
      exact one_ne_zero
    · exact shipped_full_lead i h0 (by omega) j j

theorem pow_lt_q : 17 ^ 39 < q := by decide +kernel

/-- A word before an S-box, raised to the power 17, determines the word. -/
theorem shipped_pow (i : Fin 7) (c c' : Nat → Fin (i.val + 2) → Fq) (m : Nat) (hm : m < 39) (j : Fin (i.val + 2)) (ε : Fq)
    (h : ∀ x, (textE 17 (cauchyMds Fq (i.val + 2)) roundKinds c' (List.range m) x j + c' m j) ^ 17 = (textE 17 (cauchyMds Fq (i.val + 2)) roundKinds c (List.range m) x j + c m j) ^ 17 + ε) :
    ε = 0 := by
  have : Fact q.Prime := ⟨q_prime⟩
  have : CharP Fq q := charP_of_card_eq_prime card_Fq
  obtain ⟨Q, h1, h2⟩ := rounds_poly (cauchyMds Fq (i.val + 2)) roundKinds c (e := 17) (by norm_num) (List.range m) (le_refl 1) (varWord_top 0 j)
  obtain ⟨R, h3, h4⟩ := rounds_poly (cauchyMds Fq (i.val + 2)) roundKinds c' (e := 17) (by norm_num) (List.range m) (le_refl 1) (varWord_top 0 j)
  rw [List.length_range, one_mul] at h1 h3
  have hpow : 17 ^ m * 17 ≤ 17 ^ 39 := by rw [← pow_succ]; exact Nat.pow_le_pow_right (by norm_num) hm
  have hpos : 1 ≤ 17 ^ m := Nat.one_le_pow _ _ (by norm_num)
  have hq := pow_lt_q
  have hdeg : (Q j + C (c m j)).natDegree = 17 ^ m := by
    rw [natDegree_add_C]
    exact natDegree_eq_of_le_of_coeff_ne_zero (h1 j).1 (by rw [(h1 j).2]; exact prefix_lead i m hm j)
  refine pow_add_const (p := q) (e := 17) (by norm_num) (by omega) (Q := Q j + C (c m j)) (R := R j + C (c' m j)) (by omega) (by omega) ?_
  have d1 : ((Q j + C (c m j)) ^ 17).natDegree < q := by
    rw [natDegree_pow, hdeg]
    omega
  have d2 : ((R j + C (c' m j)) ^ 17).natDegree < q := by
    rw [natDegree_pow, natDegree_add_C]
    have := (h3 j).1
    omega
  refine Polynomial.eq_of_natDegree_lt_card_of_eval_eq _ _ (f := fun z : Fq => z) Function.injective_id (fun z => ?_) ?_
  · have e1 := congrFun (h2 z) j
    have e2 := congrFun (h4 z) j
    rw [varWord_eval] at e1 e2
    rw [eval_add, eval_C, eval_pow, eval_pow, eval_add, eval_add, eval_C, eval_C, e1, e2]
    exact h (Function.update 0 j z)
  · rw [card_Fq]
    exact max_lt d2 (by rw [natDegree_add_C]; exact d1)

theorem same_perm (i : Fin 7) (A A' : Fin 39 → Fin (i.val + 2) → Fq) :
    (∀ x, permE 17 (cauchyMds Fq (i.val + 2)) 4 31 A' x = permE 17 (cauchyMds Fq (i.val + 2)) 4 31 A x) ↔
      ∀ r, r < 39 → ∀ j, Active (roundKinds r) j → gap (cauchyMds Fq (i.val + 2)) (extend A) (extend A') r j = 0 := by
  have hN := (shippedAll i).1.mInverse
  rw [shipped_mds_cauchy] at hN
  simp only [permE_range]
  constructor
  · intro h
    exact gap_text (n := 39) (mul_eq_one_comm.1 hN) pow17_bijective.1 roundKinds _ _ (shipped_pow i _ _) 39 (le_refl 39) 0 fun x => by rw [h x, add_zero]
  · intro h x
    rw [text_gap _ _ _ _ 39 h, show carried (cauchyMds Fq (i.val + 2)) (gap (cauchyMds Fq (i.val + 2)) (extend A) (extend A')) 39 =
      (cauchyMds Fq (i.val + 2)).mulVec (gap (cauchyMds Fq (i.val + 2)) (extend A) (extend A') 38) from rfl,
      show gap (cauchyMds Fq (i.val + 2)) (extend A) (extend A') 38 = 0 from funext fun j => h 38 (by norm_num) j (Or.inl rfl), Matrix.mulVec_zero, add_zero]

/-- The digest and the state of the unoptimized hash of a fresh instance, for a table of round constants and all inputs. -/
def tableHash (i : Fin 7) (A : Mat Fq 39 (i.val + 2) (39 * (i.val + 2))) (x : Fin (i.val + 2) → Fq) : R (Fq × Vector Fq (i.val + 2)) :=
  outcome ((Instance.new { shippedParams i with arc := A }).unoptimizedNTo1FixedHash (Vector.ofFn x))

theorem outcome_with (i : Fin 7) (A : Mat Fq 39 (i.val + 2) (39 * (i.val + 2))) (s : Vector Fq (i.val + 2)) (x : Fin (i.val + 2) → Fq) :
    outcome (Instance.unoptimizedNTo1FixedHash ⟨{ shippedParams i with arc := A }, s⟩ (Vector.ofFn x)) =
      .ok (permE 17 (cauchyMds Fq (i.val + 2)) 4 31 (tableRows 39 _ A) x 1, Vector.ofFn (permE 17 (cauchyMds Fq (i.val + 2)) 4 31 (tableRows 39 _ A) x)) := by
  have h := congrArg outcome (shipped_unopt i (A.toM rfl) s x)
  rw [Mat.ofM_toM] at h
  exact h

theorem same_hash (i : Fin 7) (A A' : Mat Fq 39 (i.val + 2) (39 * (i.val + 2))) (s s' : (Fin (i.val + 2) → Fq) → Vector Fq (i.val + 2)) :
    (∀ x, outcome (Instance.unoptimizedNTo1FixedHash ⟨{ shippedParams i with arc := A' }, s' x⟩ (Vector.ofFn x)) =
      outcome (Instance.unoptimizedNTo1FixedHash ⟨{ shippedParams i with arc := A }, s x⟩ (Vector.ofFn x))) ↔
      ∀ r, r < 39 → ∀ j, Active (roundKinds r) j → gap (cauchyMds Fq (i.val + 2)) (extend (tableRows 39 _ A)) (extend (tableRows 39 _ A')) r j = 0 := by
  rw [← same_perm]
  refine forall_congr' fun x => ?_
  rw [outcome_with, outcome_with]
  constructor
  · intro h
    exact ofFn_inj (congrArg Prod.snd (Except.ok.inj h))
  · intro h
    rw [h]

/-- **C123.** Two tables of round constants give the same digest and the same state for every input exactly if the second comes from the first by moving constants of
words without S-box through the matrix into the next round: there are vectors `D r`, zero in the full rounds and in word 0, with `D r` added to row `r` and
`M D r` taken from row `r + 1`. -/
theorem C123_same (i : Fin 7) (A A' : Mat Fq 39 (i.val + 2) (39 * (i.val + 2))) (s s' : (Fin (i.val + 2) → Fq) → Vector Fq (i.val + 2)) :
    (∀ x, outcome (Instance.unoptimizedNTo1FixedHash ⟨{ shippedParams i with arc := A' }, s' x⟩ (Vector.ofFn x)) =
      outcome (Instance.unoptimizedNTo1FixedHash ⟨{ shippedParams i with arc := A }, s x⟩ (Vector.ofFn x))) ↔
      ∃ D : Nat → Fin (i.val + 2) → Fq, (∀ r, r < 4 ∨ 35 ≤ r → D r = 0) ∧ (∀ r, D r 0 = 0) ∧ (∀ j, A'.toM rfl 0 j = A.toM rfl 0 j) ∧
        ∀ r (h : r + 1 < 39) j, A'.toM rfl ⟨r + 1, h⟩ j = A.toM rfl ⟨r + 1, h⟩ j + D (r + 1) j - ((shippedParams i).mds.toM rfl).mulVec (D r) j := by
  rw [same_hash, shipped_mds_cauchy]
  constructor
  · intro h
    refine ⟨fun r => if r < 39 then gap (cauchyMds Fq (i.val + 2)) (extend (tableRows 39 _ A)) (extend (tableRows 39 _ A')) r else 0, fun r hr => ?_, fun r => ?_, ?_, fun r hr j => ?_⟩
    · dsimp only
      split_ifs with h1
      · exact funext fun j => h r h1 j (Or.inl (decide_eq_true hr))
      · rfl
    · dsimp only
      split_ifs with h1
      · exact h r h1 0 (Or.inr rfl)
      · rfl
    · intro j
      have h0 : gap (cauchyMds Fq (i.val + 2)) (extend (tableRows 39 _ A)) (extend (tableRows 39 _ A')) 0 = 0 := funext fun j => h 0 (by norm_num) j (Or.inl rfl)
      rw [gap, extend_lt _ (by norm_num), extend_lt _ (by norm_num), sub_eq_zero] at h0
      exact congrFun h0 j
    · dsimp only
      rw [if_pos hr, if_pos (by omega), gap, extend_lt _ hr, extend_lt _ hr, Pi.add_apply, Pi.sub_apply,
        show tableRows 39 _ A' ⟨r + 1, hr⟩ j = A'.toM rfl ⟨r + 1, hr⟩ j from rfl, show tableRows 39 _ A ⟨r + 1, hr⟩ j = A.toM rfl ⟨r + 1, hr⟩ j from rfl]
      ring
  · rintro ⟨D, h1, h2, h3, h4⟩ r hr j hj
    have hg := gap_of_moves (cauchyMds Fq (i.val + 2)) (extend (tableRows 39 _ A)) (extend (tableRows 39 _ A')) D 38
      (by rw [h1 0 (by norm_num), add_zero, extend_lt _ (by norm_num), extend_lt _ (by norm_num)]; exact funext h3)
      (fun r hr => by rw [extend_lt _ (by omega), extend_lt _ (by omega), show tableRows 39 _ A' ⟨r + 1, by omega⟩ = tableRows 39 _ A ⟨r + 1, by omega⟩ + D (r + 1) - (cauchyMds Fq (i.val + 2)).mulVec (D r) from funext (h4 r (by omega)), sub_add_cancel]) r (by omega)
    rw [hg]
    rcases hj with hj | hj
    · exact congrFun (h1 r (of_decide_eq_true hj)) j
    · rw [show j = 0 from Fin.ext hj]
      exact h2 r

/-- The words without S-box. -/
theorem card_free (i : Fin 7) : Fintype.card {p : Fin 39 × Fin (i.val + 2) // ¬ Active (roundKinds p.1.val) p.2} = 31 * (i.val + 1) := by
  fin_cases i <;> decide +kernel

theorem card_same (i : Fin 7) (A : Mat Fq 39 (i.val + 2) (39 * (i.val + 2))) : Nat.card {A' // tableHash i A' = tableHash i A} = q ^ (31 * (i.val + 1)) := by
  have e1 : {A' // tableHash i A' = tableHash i A} ≃ {D : Fin 39 × Fin (i.val + 2) → Fq // ∀ p, Active (roundKinds p.1.val) p.2 → D p = 0} := by
    refine Equiv.subtypeEquiv (((tableRows 39 (i.val + 2)).trans
      (gapEquiv (cauchyMds Fq (i.val + 2)) (tableRows 39 _ A))).trans (Equiv.curry _ _ _).symm) fun A' => ?_
    have h := same_hash i A A' (fun _ => Vector.replicate _ 0) (fun _ => Vector.replicate _ 0)
    refine Iff.trans (Iff.trans ⟨fun hh x => congrFun hh x, fun hh => funext hh⟩ h) ⟨fun hh p => hh p.1.val p.1.isLt p.2, fun hh r hr j => hh (⟨r, hr⟩, j)⟩
  rw [Nat.card_congr e1, card_zero_on, Nat.card_fun, Nat.card_eq_fintype_card, Nat.card_eq_fintype_card, card_free, card_Fq]

/-- **C123, how many.** Of the `q ^ (39 t)` tables, `t = i + 2`, exactly `q ^ (31 (t - 1))` give the same hash as a given one. -/
theorem C123_count (i : Fin 7) (A : Mat Fq 39 (i.val + 2) (39 * (i.val + 2))) (s s' : (Fin (i.val + 2) → Fq) → Vector Fq (i.val + 2)) :
    Nat.card {A' : Mat Fq 39 (i.val + 2) (39 * (i.val + 2)) // ∀ x, outcome (Instance.unoptimizedNTo1FixedHash ⟨{ shippedParams i with arc := A' }, s' x⟩ (Vector.ofFn x)) =
      outcome (Instance.unoptimizedNTo1FixedHash ⟨{ shippedParams i with arc := A }, s x⟩ (Vector.ofFn x))} = q ^ (31 * (i.val + 1)) := by
  rw [← card_same i A]
  refine Nat.card_congr (Equiv.subtypeEquivRight fun A' => ?_)
  rw [same_hash i A A' s s', ← same_hash i A A' (fun _ => Vector.replicate _ 0) (fun _ => Vector.replicate _ 0)]
  exact ⟨fun hh => funext hh, fun hh x => congrFun hh x⟩

theorem card_by_fibres {α β : Type} [Finite α] (f : α → β) (n : Nat) (h : ∀ a, Nat.card {a' // f a' = f a} = n) : Nat.card α = Nat.card (Set.range f) * n := by
  have : Finite (Set.range f) := Set.finite_range f
  have : Fintype (Set.range f) := Fintype.ofFinite _
  have e1 : α ≃ Σ y : Set.range f, {a // Set.rangeFactorization f a = y} := (Equiv.sigmaFiberEquiv (Set.rangeFactorization f)).symm
  rw [Nat.card_congr e1, Nat.card_sigma, Finset.sum_congr rfl (g := fun _ => n), Finset.sum_const, smul_eq_mul, Finset.card_univ, Nat.card_eq_fintype_card]
  rintro ⟨y, a, rfl⟩ _
  rw [← h a]
  exact Nat.card_congr (Equiv.subtypeEquivRight fun a' => Subtype.ext_iff)

/-- **C123, the hashes.** All tables together give exactly `q ^ (8 t + 31)` different hashes: one free number for each S-box, `t` in each of the 8 full rounds and one
in each of the 31 partial rounds. -/
theorem C123_hashes (i : Fin 7) :
    Nat.card (Set.range fun (A : Mat Fq 39 (i.val + 2) (39 * (i.val + 2))) (x : Fin (i.val + 2) → Fq) =>
      outcome ((Instance.new { shippedParams i with arc := A }).unoptimizedNTo1FixedHash (Vector.ofFn x))) = q ^ (8 * (i.val + 2) + 31) := by
  have e1 : Mat Fq 39 (i.val + 2) (39 * (i.val + 2)) ≃ (Fin 39 → Fin (i.val + 2) → Fq) := tableRows 39 _
  have : Finite (Mat Fq 39 (i.val + 2) (39 * (i.val + 2))) := Finite.of_equiv _ e1.symm
  have h := card_by_fibres (tableHash i) _ (card_same i)
  rw [Nat.card_congr e1, Nat.card_fun, Nat.card_fun, Nat.card_eq_fintype_card (α := Fq), card_Fq, Nat.card_eq_fintype_card, Nat.card_eq_fintype_card, Fintype.card_fin, Fintype.card_fin, ← pow_mul,
    show (i.val + 2) * 39 = 8 * (i.val + 2) + 31 + 31 * (i.val + 1) by ring, pow_add] at h
  exact (Nat.eq_of_mul_eq_mul_right (Nat.pow_pos q_prime.pos) h).symm

/-! ## The optimized hash -/

theorem Consistent.of_moved {k nmds nhat rows nround npart : Nat} {F : Type} [Field F] [DecidableEq F] {P : Params F (k + 1) k nmds nhat rows (k + 1) nround npart} {hm : nmds = (k + 1) * (k + 1)}
    {ha : nround = rows * (k + 1)} (hc : Consistent P hm ha) (A O : Mat F rows (k + 1) nround) (h : Moved (P.mds.toM hm) (P.rounds.rF / 2) P.rounds.rP (rowFn ha A) (rowFn ha O))
    (h' : ∀ r, r < rows → r < P.rounds.rF / 2 ∨ P.rounds.rF / 2 + P.rounds.rP ≤ r → rowFn ha O r = rowFn ha A r) :
    Consistent { P with arc := A, optimizedArc := O } hm ha :=
  ⟨hc.rows_le, hc.rp_pos, hc.rp_le, ⟨hc.rel.mats, h⟩, fun r hr => h' r (by have := hc.rows_le; have : r < P.rounds.rF / 2 := hr; omega) (Or.inl hr),
    fun r h1 h2 => h' r (lt_of_lt_of_le h2 hc.rows_le) (Or.inr h1)⟩

theorem Moved.congr {k : Nat} {F : Type} [Field F] [DecidableEq F] {M : Matrix (Fin (k + 1)) (Fin (k + 1)) F} {rf rp : Nat} {c o c' o' : Nat → Fin (k + 1) → F} (hrp : 1 ≤ rp) (h : Moved M rf rp c o)
    (h1 : ∀ r, r < rf + rp → c' r = c r) (h2 : ∀ r, r < rf + rp → o' r = o r) : Moved M rf rp c' o' := by
  obtain ⟨d, a1, a2, a3⟩ := h
  refine ⟨d, by rw [a1, h2 _ (by omega)], by rw [a2, h1 _ (by omega)], fun r hr => ?_⟩
  rw [h1 _ (by omega), h2 _ (by omega)]
  exact a3 r hr

theorem rowFn_table {k rows : Nat} {F : Type} [Field F] (c : Nat → Fin (k + 1) → F) {r : Nat} (h : r < rows) :
    rowFn rfl ((tableRows rows (k + 1)).symm fun r => c r.val) r = c r := by
  rw [rowFn, dif_pos h, show (tableRows rows (k + 1)).symm (fun r => c r.val) = Mat.ofM rfl (Matrix.of fun r : Fin rows => c r.val) from rfl, Mat.toM_ofM]
  rfl

theorem outcome_optimized (i : Fin 7) {A O : Mat Fq 39 (i.val + 2) (39 * (i.val + 2))} (hc : Consistent { shippedParams i with arc := A, optimizedArc := O } rfl rfl) (s s' : Vector Fq (i.val + 2))
    (x : Fin (i.val + 2) → Fq) :
    outcome (Instance.nTo1FixedHash ⟨{ shippedParams i with optimizedArc := O }, s⟩ (Vector.ofFn x)) =
      outcome (Instance.unoptimizedNTo1FixedHash ⟨{ shippedParams i with arc := A }, s'⟩ (Vector.ofFn x)) := by
  have h1 := congrArg outcome (shipped_opt i (A.toM rfl) (O.toM rfl) (by rw [Mat.ofM_toM, Mat.ofM_toM]; exact hc) s x)
  have h2 := congrArg outcome (shipped_unopt i (A.toM rfl) s' x)
  rw [Mat.ofM_toM] at h1 h2
  exact h1.trans h2.symm

theorem exists_plain (i : Fin 7) (O : Mat Fq 39 (i.val + 2) (39 * (i.val + 2))) : ∃ A, Consistent { shippedParams i with arc := A, optimizedArc := O } rfl rfl := by
  have e1 : (shippedParams i).rounds.rF / 2 = 4 := by rw [shipped_rounds]; rfl
  have e2 : (shippedParams i).rounds.rP = 31 := by rw [shipped_rounds]
  refine ⟨(tableRows 39 _).symm fun r => plainOf ((shippedParams i).mds.toM rfl) 4 31 (rowFn rfl O) r.val, ?_⟩
  refine (shipped_consistent i).of_moved _ O ?_ fun r h1 h2 => ?_
  · rw [e1, e2]
    exact (plainOf_moved _ 4 31 _).congr (by norm_num) (fun r hr => rowFn_table _ (by omega)) fun _ _ => rfl
  · rw [e1, e2] at h2
    rw [rowFn_table _ h1, plainOf, if_neg (by omega)]

/-- **C123, optimized tables.** With any table, the optimized hash computes what the unoptimized hash computes with some table, and the other way round: the same
`q ^ (8 t + 31)` functions. -/
theorem C123_optimized (i : Fin 7) :
    (Set.range fun (O : Mat Fq 39 (i.val + 2) (39 * (i.val + 2))) (x : Fin (i.val + 2) → Fq) =>
      outcome ((Instance.new { shippedParams i with optimizedArc := O }).nTo1FixedHash (Vector.ofFn x))) =
    Set.range fun (A : Mat Fq 39 (i.val + 2) (39 * (i.val + 2))) (x : Fin (i.val + 2) → Fq) =>
      outcome ((Instance.new { shippedParams i with arc := A }).unoptimizedNTo1FixedHash (Vector.ofFn x)) := by
  have e1 : (shippedParams i).rounds.rF / 2 = 4 := by rw [shipped_rounds]; rfl
  have e2 : (shippedParams i).rounds.rP = 31 := by rw [shipped_rounds]
  have hN := (shippedAll i).1.mInverse
  apply Set.Subset.antisymm
  · rintro _ ⟨O, rfl⟩
    obtain ⟨A, hA⟩ := exists_plain i O
    exact ⟨A, funext fun x => (outcome_optimized i hA _ _ x).symm⟩
  · rintro _ ⟨A, rfl⟩
    refine ⟨(tableRows 39 _).symm fun r => optimizedOf ((shippedParams i).optimizedMds.mInverse.toM rfl) 4 31 (rowFn rfl A) r.val, funext fun x => outcome_optimized i ?_ _ _ x⟩
    refine (shipped_consistent i).of_moved A _ ?_ fun r h1 h2 => ?_
    · rw [e1, e2]
      exact (optimizedOf_moved hN 4 31 _).congr (by norm_num) (fun _ _ => rfl) fun r hr => rowFn_table _ (by omega)
    · rw [e1, e2] at h2
      rw [rowFn_table _ h1, optimizedOf, if_neg (by omega), if_neg (by omega)]

/-- The same number of hashes from optimized tables. -/
theorem C123_optimized_hashes (i : Fin 7) :
    Nat.card (Set.range fun (O : Mat Fq 39 (i.val + 2) (39 * (i.val + 2))) (x : Fin (i.val + 2) → Fq) =>
      outcome ((Instance.new { shippedParams i with optimizedArc := O }).nTo1FixedHash (Vector.ofFn x))) = q ^ (8 * (i.val + 2) + 31) := by
  rw [C123_optimized, C123_hashes]

/-! ## One test vector -/

/-- A word of the states agrees for all inputs or for few. -/
theorem word_agree (i : Fin 7) (A A' : Fin 39 → Fin (i.val + 2) → Fq) (a : Fin (i.val + 2)) :
    (∀ x, permE 17 (cauchyMds Fq (i.val + 2)) 4 31 A' x a = permE 17 (cauchyMds Fq (i.val + 2)) 4 31 A x a) ∨
      Nat.card {x // permE 17 (cauchyMds Fq (i.val + 2)) 4 31 A' x a = permE 17 (cauchyMds Fq (i.val + 2)) 4 31 A x a} * q ≤ 17 ^ 39 * q ^ (i.val + 2) := by
  obtain ⟨Q, h1, h2⟩ := permE_mv (e := 17) (cauchyMds Fq (i.val + 2)) (rf := 4) (rp := 31) A (by norm_num) (P := MvPolynomial.X) (m := 1) fun j => (MvPolynomial.totalDegree_X j).le
  obtain ⟨Q', h1', h2'⟩ := permE_mv (e := 17) (cauchyMds Fq (i.val + 2)) (rf := 4) (rp := 31) A' (by norm_num) (P := MvPolynomial.X) (m := 1) fun j => (MvPolynomial.totalDegree_X j).le
  simp only [MvPolynomial.eval_X] at h2 h2'
  have hev : ∀ x, permE 17 (cauchyMds Fq (i.val + 2)) 4 31 A' x a = permE 17 (cauchyMds Fq (i.val + 2)) 4 31 A x a ↔ MvPolynomial.eval x (Q' a - Q a) = 0 := by
    intro x
    rw [h2 x, h2' x, map_sub, sub_eq_zero]
  simp only [hev]
  by_cases h0 : Q' a - Q a = 0
  · left
    intro x
    rw [h0, map_zero]
  · right
    have hz := MvPolynomial.schwartz_zippel_totalDegree h0 (Finset.univ : Finset Fq)
    have hd : (Q' a - Q a).totalDegree ≤ 17 ^ 39 := (MvPolynomial.totalDegree_sub _ _).trans (max_le ((h1' a).trans (one_mul _).le) ((h1 a).trans (one_mul _).le))
    simp only [Fintype.piFinset_univ, Finset.card_univ] at hz
    rw [card_Fq] at hz
    have hq : (0 : ℚ≥0) < (q : ℚ≥0) := by exact_mod_cast q_prime.pos
    rw [div_le_div_iff₀ (by positivity) hq] at hz
    rw [Nat.card_eq_fintype_card, Fintype.card_subtype]
    generalize Finset.card _ = m at hz ⊢
    have hz2 : m * q ≤ (Q' a - Q a).totalDegree * q ^ (i.val + 2) := by exact_mod_cast hz
    exact hz2.trans (Nat.mul_le_mul_right _ hd)

/-- **C123, one test vector.** For any two tables, the states are the same for all inputs or for at most `17^39` inputs in `q`. The same for the digests. -/
theorem C123_test (i : Fin 7) (A A' : Mat Fq 39 (i.val + 2) (39 * (i.val + 2))) (s s' : (Fin (i.val + 2) → Fq) → Vector Fq (i.val + 2)) :
    ((∀ x, outcome (Instance.unoptimizedNTo1FixedHash ⟨{ shippedParams i with arc := A' }, s' x⟩ (Vector.ofFn x)) =
        outcome (Instance.unoptimizedNTo1FixedHash ⟨{ shippedParams i with arc := A }, s x⟩ (Vector.ofFn x))) ∨
      Nat.card {x // outcome (Instance.unoptimizedNTo1FixedHash ⟨{ shippedParams i with arc := A' }, s' x⟩ (Vector.ofFn x)) =
        outcome (Instance.unoptimizedNTo1FixedHash ⟨{ shippedParams i with arc := A }, s x⟩ (Vector.ofFn x))} * q ≤ 17 ^ 39 * q ^ (i.val + 2)) ∧
    ((∀ x, (outcome (Instance.unoptimizedNTo1FixedHash ⟨{ shippedParams i with arc := A' }, s' x⟩ (Vector.ofFn x))).map Prod.fst =
        (outcome (Instance.unoptimizedNTo1FixedHash ⟨{ shippedParams i with arc := A }, s x⟩ (Vector.ofFn x))).map Prod.fst) ∨
      Nat.card {x // (outcome (Instance.unoptimizedNTo1FixedHash ⟨{ shippedParams i with arc := A' }, s' x⟩ (Vector.ofFn x))).map Prod.fst =
        (outcome (Instance.unoptimizedNTo1FixedHash ⟨{ shippedParams i with arc := A }, s x⟩ (Vector.ofFn x))).map Prod.fst} * q ≤ 17 ^ 39 * q ^ (i.val + 2)) := by
  have key : ∀ f g : Fin (i.val + 2) → Fq, ((.ok (f 1, Vector.ofFn f) : R (Fq × Vector Fq (i.val + 2))) = .ok (g 1, Vector.ofFn g)) ↔ f = g := by
    intro f g
    exact ⟨fun h => ofFn_inj (congrArg Prod.snd (Except.ok.inj h)), fun h => by rw [h]⟩
  have key' : ∀ f g : Fin (i.val + 2) → Fq, ((.ok (f 1, Vector.ofFn f) : R (Fq × Vector Fq (i.val + 2))).map Prod.fst = (.ok (g 1, Vector.ofFn g) : R (Fq × Vector Fq (i.val + 2))).map Prod.fst) ↔ f 1 = g 1 :=
    fun f g => ⟨fun h => Except.ok.inj h, fun h => congrArg Except.ok h⟩
  simp only [outcome_with, key, key']
  refine ⟨?_, word_agree i _ _ 1⟩
  by_cases h : ∀ a x, permE 17 (cauchyMds Fq (i.val + 2)) 4 31 (tableRows 39 _ A') x a = permE 17 (cauchyMds Fq (i.val + 2)) 4 31 (tableRows 39 _ A) x a
  · exact Or.inl fun x => funext fun a => h a x
  · right
    rw [not_forall] at h
    obtain ⟨a, ha⟩ := h
    refine le_trans (Nat.mul_le_mul_right q ?_) ((word_agree i _ _ a).resolve_left ha)
    exact Nat.card_le_card_of_injective (Subtype.impEmbedding _ _ fun x hx => congrFun hx a) (Function.Embedding.injective _)

/-- **C123, one test vector, optimized hash.** For any optimized table and any plain table. -/
theorem C123_optimized_test (i : Fin 7) (O A : Mat Fq 39 (i.val + 2) (39 * (i.val + 2))) (s s' : (Fin (i.val + 2) → Fq) → Vector Fq (i.val + 2)) :
    ((∀ x, outcome (Instance.nTo1FixedHash ⟨{ shippedParams i with optimizedArc := O }, s' x⟩ (Vector.ofFn x)) =
        outcome (Instance.unoptimizedNTo1FixedHash ⟨{ shippedParams i with arc := A }, s x⟩ (Vector.ofFn x))) ∨
      Nat.card {x // outcome (Instance.nTo1FixedHash ⟨{ shippedParams i with optimizedArc := O }, s' x⟩ (Vector.ofFn x)) =
        outcome (Instance.unoptimizedNTo1FixedHash ⟨{ shippedParams i with arc := A }, s x⟩ (Vector.ofFn x))} * q ≤ 17 ^ 39 * q ^ (i.val + 2)) ∧
    ((∀ x, (outcome (Instance.nTo1FixedHash ⟨{ shippedParams i with optimizedArc := O }, s' x⟩ (Vector.ofFn x))).map Prod.fst =
        (outcome (Instance.unoptimizedNTo1FixedHash ⟨{ shippedParams i with arc := A }, s x⟩ (Vector.ofFn x))).map Prod.fst) ∨
      Nat.card {x // (outcome (Instance.nTo1FixedHash ⟨{ shippedParams i with optimizedArc := O }, s' x⟩ (Vector.ofFn x))).map Prod.fst =
        (outcome (Instance.unoptimizedNTo1FixedHash ⟨{ shippedParams i with arc := A }, s x⟩ (Vector.ofFn x))).map Prod.fst} * q ≤ 17 ^ 39 * q ^ (i.val + 2)) := by
  obtain ⟨A', hA'⟩ := exists_plain i O
  have h := C123_test i A A' s s'
  simp only [← fun x => outcome_optimized i hA' (s' x) (s' x) x] at h
  exact h

/-- Not vacuous: for each rate there is another table with the same hash as the shipped one. -/
example (i : Fin 7) : ∃ A, A ≠ (shippedParams i).arc ∧ ∀ x, outcome ((Instance.new { shippedParams i with arc := A }).unoptimizedNTo1FixedHash (Vector.ofFn x)) =
    outcome ((Instance.new (shippedParams i)).unoptimizedNTo1FixedHash (Vector.ofFn x)) := by
  by_contra hc
  push Not at hc
  have h := C123_count i (shippedParams i).arc (fun _ => Vector.replicate _ 0) (fun _ => Vector.replicate _ 0)
  have h1 : 1 < q ^ (31 * (i.val + 1)) := Nat.one_lt_pow (by omega) q_prime.one_lt
  have : Finite (Mat Fq 39 (i.val + 2) (39 * (i.val + 2))) := Finite.of_equiv _ (tableRows 39 (i.val + 2)).symm
  rw [← h, Finite.one_lt_card_iff_nontrivial] at h1
  obtain ⟨⟨A, hA⟩, ⟨B, hB⟩, hAB⟩ := h1
  have key : ∀ A, (∀ x, outcome (Instance.unoptimizedNTo1FixedHash ⟨{ shippedParams i with arc := A }, Vector.replicate _ 0⟩ (Vector.ofFn x)) =
      outcome (Instance.unoptimizedNTo1FixedHash ⟨{ shippedParams i with arc := (shippedParams i).arc }, Vector.replicate _ 0⟩ (Vector.ofFn x))) → A = (shippedParams i).arc := by
    intro A hA
    by_contra hne
    obtain ⟨x, hx⟩ := hc A hne
    exact hx (hA x)
  exact hAB (Subtype.ext ((key A hA).trans (key B hB).symm))

end Poseidon
