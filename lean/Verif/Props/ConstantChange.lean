import Verif.Proofs.ConstantChange
import Verif.Props.CircuitHash
import Verif.Props.Degree
import Verif.Props.InverseConstants

/-!
# Property C120: every round constant matters

What happens to a hash when one round constant is another one: a wrong digit in a table, a bit that flips in memory, a constant that
was changed on purpose.
-/

set_option linter.unusedSectionVars false

namespace Poseidon

open Polynomial

variable {F : Type} [Field F] [DecidableEq F] {k tm1 rows nmds nhat nround npart : Nat}

/-- The unoptimized hash with a power S-box. -/
theorem unoptimized_permE (P : Params F (k + 1) tm1 nmds nhat rows (k + 1) nround npart) (hk : 1 ≤ k) (hm : nmds = (k + 1) * (k + 1))
    (ha : nround = rows * (k + 1)) {rf rp e : Nat} (h1 : P.rounds.rF / 2 = rf) (h2 : P.rounds.rP = rp) (hr : rf + rp + rf ≤ rows)
    (he : P.alpha = .exponent e) (s : Vector F (k + 1)) (x : Fin (k + 1) → F) :
    Instance.unoptimizedNTo1FixedHash ⟨P, s⟩ (Vector.ofFn x) =
      .ok (permE e (P.mds.toM hm) rf rp (fun r => P.arc.toM ha ⟨r.val, lt_of_lt_of_le r.isLt hr⟩) x 1,
        ⟨P, Vector.ofFn (permE e (P.mds.toM hm) rf rp (fun r => P.arc.toM ha ⟨r.val, lt_of_lt_of_le r.isLt hr⟩) x)⟩) := by
  subst h1 h2
  have hu := unoptimizedPermute_eq P (Nat.succ_pos k) hm ha hr x
  rw [he, textbook_exponent] at hu
  have h1 : (1 : Nat) < k + 1 := by omega
  have h1' : (⟨1, h1⟩ : Fin (k + 1)) = 1 := by
    ext
    rw [Fin.val_one']
    exact (Nat.mod_eq_of_lt h1).symm
  rw [Instance.unoptimizedNTo1FixedHash, setState_eq]
  dsimp only [bind, Except.bind]
  rw [hu]
  dsimp only [reported]
  rw [aget_ofFn _ h1, h1']
  rfl

theorem ofFn_inj {t : Nat} {a b : Fin t → F} (h : Vector.ofFn a = Vector.ofFn b) : a = b := by
  funext i
  have := congrArg (fun v : Vector F t => v[i]) h
  simpa using this

/-- **C120, states.** For all parameters with a power S-box that is a bijection and an invertible matrix, over any finite field: if two tables of round constants differ in
exactly one of the rows used, the unoptimized hash leaves different states with them, for every input. -/
theorem C120_state [Finite F] (P : Params F (k + 1) tm1 nmds nhat rows (k + 1) nround npart) (hk : 1 ≤ k) (hm : nmds = (k + 1) * (k + 1))
    (ha : nround = rows * (k + 1)) {e : Nat} (he : P.alpha = .exponent e) (hinj : Function.Injective fun x : F => x ^ e)
    (hdet : (P.mds.toM hm).det ≠ 0) (hrows : P.rounds.rF / 2 + P.rounds.rP + P.rounds.rF / 2 ≤ rows)
    (A A' : Matrix (Fin rows) (Fin (k + 1)) F) (r : Fin rows) (hr : r.val < P.rounds.rF / 2 + P.rounds.rP + P.rounds.rF / 2)
    (h : ∀ r', r' ≠ r → A' r' = A r') (hne : A' r ≠ A r) (s s' : Vector F (k + 1)) (x : Fin (k + 1) → F) :
    ∃ d I d' I', Instance.unoptimizedNTo1FixedHash ⟨{ P with arc := Mat.ofM ha A }, s⟩ (Vector.ofFn x) = .ok (d, I) ∧
      Instance.unoptimizedNTo1FixedHash ⟨{ P with arc := Mat.ofM ha A' }, s'⟩ (Vector.ofFn x) = .ok (d', I') ∧ I.outputWords ≠ I'.outputWords := by
  refine ⟨_, _, _, _, unoptimized_permE { P with arc := Mat.ofM ha A } hk hm ha rfl rfl hrows he s x,
    unoptimized_permE { P with arc := Mat.ofM ha A' } hk hm ha rfl rfl hrows he s' x, ?_⟩
  intro hh
  have hh := (ofFn_inj hh).symm
  dsimp only at hh
  rw [Mat.toM_ofM, Mat.toM_ofM] at hh
  have hM : P.mds.toM hm * (P.mds.toM hm)⁻¹ = 1 := Matrix.mul_nonsing_inv _ (isUnit_iff_ne_zero.2 hdet)
  refine roundsE_ne hM (Finite.injective_iff_bijective.1 hinj) (fun r => decide (r.val < P.rounds.rF / 2 ∨ P.rounds.rF / 2 + P.rounds.rP ≤ r.val))
    (C := fun r => A ⟨r.val, lt_of_lt_of_le r.isLt hrows⟩) (C' := fun r => A' ⟨r.val, lt_of_lt_of_le r.isLt hrows⟩) ⟨r.val, hr⟩ ?_ ?_ x hh
  · intro r' hr'
    exact h _ fun h2 => hr' (Fin.ext (congrArg (fun z : Fin rows => z.val) h2))
  · exact hne

/-! ## The optimized tables -/

theorem rowFn_ofM (ha : nround = rows * (k + 1)) (A : Matrix (Fin rows) (Fin (k + 1)) F) {r : Nat} (h : r < rows) : rowFn ha (Mat.ofM ha A) r = A ⟨r, h⟩ := by
  rw [rowFn, dif_pos h, Mat.toM_ofM]

/-- Tables in which row `r` was changed are again consistent, if the changes of the two tables belong together. -/
theorem Consistent.shift {P : Params F (k + 1) k nmds nhat rows (k + 1) nround npart} {hm : nmds = (k + 1) * (k + 1)} {ha : nround = rows * (k + 1)}
    (hc : Consistent P hm ha) (r : Fin rows) (A' O' : Matrix (Fin rows) (Fin (k + 1)) F) (hA : ∀ r', r' ≠ r → A' r' = P.arc.toM ha r')
    (hO : ∀ r', r' ≠ r → O' r' = P.optimizedArc.toM ha r')
    (h : ((r.val ≤ P.rounds.rF / 2 ∨ P.rounds.rF / 2 + P.rounds.rP ≤ r.val) ∧ ∃ D, A' r = P.arc.toM ha r + D ∧ O' r = P.optimizedArc.toM ha r + D) ∨
      (P.rounds.rF / 2 < r.val ∧ r.val < P.rounds.rF / 2 + P.rounds.rP ∧ ∃ δ, A' r = P.arc.toM ha r + δ • (fun a => P.mds.toM hm a 0) ∧ O' r 0 = P.optimizedArc.toM ha r 0 + δ)) :
    Consistent { P with arc := Mat.ofM ha A', optimizedArc := Mat.ofM ha O' } hm ha := by
  obtain ⟨rows_le, rp_pos, rp_le, ⟨mats, d, h0, hl, hd⟩, full_pre, full_post⟩ := hc
  set rf := P.rounds.rF / 2 with hrf
  set rp := P.rounds.rP with hrp
  have hrow : ∀ (m : Mat F rows (k + 1) nround) r' (h : r' < rows), rowFn ha m r' = m.toM ha ⟨r', h⟩ := fun m r' h => by rw [rowFn, dif_pos h]
  have hAo : ∀ r', r' < rows → r' ≠ r.val → rowFn ha (Mat.ofM ha A') r' = rowFn ha P.arc r' := by
    intro r' h1 h2
    rw [rowFn_ofM ha A' h1, hrow _ _ h1, hA _ fun h => h2 (congrArg Fin.val h)]
  have hOo : ∀ r', r' < rows → r' ≠ r.val → rowFn ha (Mat.ofM ha O') r' = rowFn ha P.optimizedArc r' := by
    intro r' h1 h2
    rw [rowFn_ofM ha O' h1, hrow _ _ h1, hO _ fun h => h2 (congrArg Fin.val h)]
  -- the change of the row
  have hfull : ∀ r', r' < rows → (r' < rf ∨ rf + rp ≤ r') → rowFn ha P.optimizedArc r' = rowFn ha P.arc r' →
      rowFn ha (Mat.ofM ha O') r' = rowFn ha (Mat.ofM ha A') r' := by
    intro r' h1 h2 h3
    by_cases hr : r' = r.val
    · subst hr
      rcases h with ⟨-, D, hA2, hO2⟩ | ⟨h4, h5, -⟩
      · rw [rowFn_ofM ha O' h1, rowFn_ofM ha A' h1, hA2, hO2]
        rw [hrow _ _ h1, hrow _ _ h1] at h3
        rw [h3]
      · omega
    · rw [hAo r' h1 hr, hOo r' h1 hr, h3]
  refine ⟨rows_le, rp_pos, rp_le, ⟨mats, ?_⟩, fun r' hr' => ?_, fun r' h1 h2 => ?_⟩
  · set E : Fin (k + 1) → F := A' r - P.arc.toM ha r with hE
    by_cases hin : rf ≤ r.val ∧ r.val < rf + rp
    · refine ⟨fun m => if rf + m = r.val then d m + E else d m, ?_, ?_, ?_⟩
      · dsimp only
        by_cases hr : rf = r.val
        · rw [if_pos (by omega), h0]
          rcases h with ⟨-, D, hA2, hO2⟩ | ⟨h4, h5, -⟩
          · rw [hrow _ rf (by omega), rowFn_ofM ha O' (by omega : rf < rows)]
            simp only [hr, Fin.eta]
            rw [hO2, hE, hA2, add_sub_cancel_left]
          · omega
        · rw [if_neg (by omega), h0, hOo rf (by omega) hr]
      · dsimp only
        by_cases hr : rf + (rp - 1) = r.val
        · rw [if_pos hr, hl, hrow _ _ (by omega : rf + (rp - 1) < rows), rowFn_ofM ha A' (by omega : rf + (rp - 1) < rows)]
          simp only [hr, Fin.eta]
          rw [hE, add_sub_cancel]
        · rw [if_neg hr, hl, hAo _ (by omega) hr]
      · intro m hm'
        replace hm' : m < rp - 1 := hm'
        obtain ⟨a1, a2⟩ := hd m hm'
        have hdiff : (if rf + m = r.val then d m + E else d m) - rowFn ha (Mat.ofM ha A') (rf + m) = d m - rowFn ha P.arc (rf + m) := by
          by_cases hr : rf + m = r.val
          · rw [if_pos hr, rowFn_ofM ha A' (by omega : rf + m < rows), hrow _ _ (by omega : rf + m < rows)]
            simp only [hr, Fin.eta]
            rw [hE]
            abel
          · rw [if_neg hr, hAo _ (by omega) hr]
        refine ⟨?_, ?_⟩
        · have := congrFun hdiff 0
          rw [Pi.sub_apply, Pi.sub_apply, a1, sub_self, sub_eq_zero] at this
          exact this
        · dsimp only
          rw [hdiff]
          by_cases hr : rf + (m + 1) = r.val
          · rw [if_pos hr, ← a2]
            rcases h with ⟨h4, -⟩ | ⟨-, -, δ, hA2, hO2⟩
            · omega
            · have ho : rowFn ha (Mat.ofM ha O') (rf + m + 1) 0 = rowFn ha P.optimizedArc (rf + m + 1) 0 + δ := by
                rw [rowFn_ofM ha O' (by omega : rf + m + 1 < rows), hrow _ _ (by omega : rf + m + 1 < rows)]
                simp only [show rf + m + 1 = r.val by omega, Fin.eta]
                exact hO2
              rw [ho, Pi.single_add, ← add_assoc, Matrix.mulVec_add]
              congr 1
              rw [hE, hA2, add_sub_cancel_left]
              funext a
              simp [mul_comm]
          · rw [if_neg hr, hOo _ (by omega) (by omega), a2]
    · refine ⟨d, h0.trans (hOo rf (by omega) (by omega)).symm, hl.trans (hAo (rf + (rp - 1)) (by omega) (by omega)).symm, ?_⟩
      intro m hm'
      replace hm' : m < rp - 1 := hm'
      obtain ⟨a1, a2⟩ := hd m hm'
      have e1 := hAo (rf + m) (by omega) (by omega)
      have e2 := hOo (rf + m + 1) (by omega) (by omega)
      rw [← e1] at a1
      rw [← e1, ← e2] at a2
      exact ⟨a1, a2⟩
  · replace hr' : r' < rf := hr'
    exact hfull r' (by omega) (Or.inl hr') (full_pre r' hr')
  · replace h1 : rf + rp ≤ r' := h1
    replace h2 : r' < rf + rp + rf := h2
    exact hfull r' (by omega) (Or.inr h1) (full_post r' h1 h2)

/-! ## Shipped parameters -/

/-- Every list of one to 61 full rounds: no leading coefficient vanishes. -/
theorem shipped_full_lead (i : Fin 7) {n : Nat} (h1 : 1 ≤ n) (h5 : n ≤ 61) (a j : Fin (i.val + 2)) :
    leadRounds 17 (cauchyMds Fq (i.val + 2)) (List.replicate n true) (Pi.single j 1) a ≠ 0 := by
  have hM : ∀ (m : List Nat), (shippedParams i).mds.toM rfl = natM (i.val + 2) (i.val + 2) m →
      (allN 61 fun n => checkLead (i.val + 2) m (List.replicate (n + 1) true)) = true →
      leadRounds 17 (cauchyMds Fq (i.val + 2)) (List.replicate n true) (Pi.single j 1) a ≠ 0 := by
    intro m h2 h3
    obtain ⟨n, rfl⟩ : ∃ n', n = n' + 1 := ⟨n - 1, by omega⟩
    rw [← shipped_mds_cauchy, h2]
    exact checkLead_spec (allN_iff.1 h3 n (by omega)) a j
  fin_cases i
  · exact hM (canons rate1_mds) (vecM _ _ rfl) (by decide +kernel)
  · exact hM (canons rate2_mds) (vecM _ _ rfl) (by decide +kernel)
  · exact hM (canons rate3_mds) (vecM _ _ rfl) (by decide +kernel)
  · exact hM (canons rate4_mds) (vecM _ _ rfl) (by decide +kernel)
  · exact hM (canons rate5_mds) (vecM _ _ rfl) (by decide +kernel)
  · exact hM (canons rate6_mds) (vecM _ _ rfl) (by decide +kernel)
  · exact hM (canons rate7_mds) (vecM _ _ rfl) (by decide +kernel)

theorem shipped_entry (i : Fin 7) (a j : Fin (i.val + 2)) : cauchyMds Fq (i.val + 2) a j ≠ 0 := by
  have h := shipped_full_lead i (le_refl 1) (by norm_num) a j
  rwa [show leadRounds 17 (cauchyMds Fq (i.val + 2)) (List.replicate 1 true) (Pi.single j 1) =
    leadRound 17 (cauchyMds Fq (i.val + 2)) true (Pi.single j 1) from rfl, leadRound_single _ _ (by norm_num)] at h

/-- Partial rounds, then the four full rounds of the end. -/
theorem shipped_tail (i : Fin 7) (m : Nat) (L : Fin (i.val + 2) → Fq) (hL : L 0 ≠ 0) (a : Fin (i.val + 2)) :
    leadRounds 17 (cauchyMds Fq (i.val + 2)) (List.replicate (m + 1) false ++ List.replicate 4 true) L a ≠ 0 := by
  obtain ⟨μ, h1, h2⟩ := leadRounds_partial (e := 17) (cauchyMds Fq (i.val + 2)) (shipped_entry i 0 0) (by norm_num) m (List.replicate 4 true) L hL
  rw [h2, Pi.smul_apply, smul_eq_mul]
  exact mul_ne_zero h1 (shipped_full_lead i (n := 5) (by norm_num) (by norm_num) a 0)

/-- The kinds of the rounds. -/
abbrev kinds : Fin 39 → Bool := fun r => decide (r.val < 4 ∨ 4 + 31 ≤ r.val)

theorem kinds_front (r : Fin 39) (h : r.val < 4) :
    (r :: (List.finRange 39).drop (r + 1)).map kinds = List.replicate (4 - r) true ++ (List.replicate (30 + 1) false ++ List.replicate 4 true) := by
  revert r
  decide

theorem kinds_middle (r : Fin 39) (h : 4 ≤ r.val ∧ r.val < 35) :
    (r :: (List.finRange 39).drop (r + 1)).map kinds = List.replicate (34 - r + 1) false ++ List.replicate 4 true := by
  revert r
  decide

theorem kinds_next (r : Fin 39) (h : 4 ≤ r.val ∧ r.val < 35) :
    ((List.finRange 39).drop (r + 1)).map kinds = List.replicate (34 - r) false ++ List.replicate 4 true := by
  revert r
  decide

theorem kinds_back (r : Fin 39) (h : 35 ≤ r.val) : (r :: (List.finRange 39).drop (r + 1)).map kinds = List.replicate (39 - r) true := by
  revert r
  decide

theorem kinds_length (r : Fin 39) : (r :: (List.finRange 39).drop (r + 1)).length = 39 - r := by
  have := r.isLt
  simp
  omega

theorem leadRounds_five {t e : Nat} (M : Matrix (Fin t) (Fin t) F) (L : Fin t → F) :
    leadRounds e M (List.replicate 0 false ++ List.replicate 4 true) (leadRound e M true L) = leadRounds e M (List.replicate 5 true) L := rfl

theorem roundsE_cons {t e n : Nat} (M : Matrix (Fin t) (Fin t) F) (full : Fin n → Bool) (C : Fin n → Fin t → F) (r : Fin n) (l : List (Fin n)) (x : Fin t → F) :
    roundsE e M full C (r :: l) x = roundsE e M full C l (roundE e M (full r) (C r) x) := rfl

/-- From round `r` on, on every line in the direction of a word (in the partial rounds: or in a direction with a component in word 0), the digest is a polynomial of
positive degree, at most `17^(39 - r)`. -/
theorem shipped_line (i : Fin 7) (r : Fin 39) (D : Fin (i.val + 2) → Fq) (C : Fin 39 → Fin (i.val + 2) → Fq)
    (h : (∃ j, D = Pi.single j 1) ∨ (4 ≤ r.val ∧ r.val < 35 ∧ D 0 ≠ 0)) (a : Fin (i.val + 2)) (y : Fin (i.val + 2) → Fq) :
    ∃ Q : Fq[X], 1 ≤ Q.natDegree ∧ Q.natDegree ≤ 17 ^ (39 - r.val) ∧
      ∀ z, roundsE 17 (cauchyMds Fq (i.val + 2)) kinds C (r :: (List.finRange 39).drop (r + 1)) (y + z • D) a = Q.eval z := by
  have key : leadRounds 17 (cauchyMds Fq (i.val + 2)) ((r :: (List.finRange 39).drop (r + 1)).map kinds) D a ≠ 0 →
      ∃ Q : Fq[X], 1 ≤ Q.natDegree ∧ Q.natDegree ≤ 17 ^ (39 - r.val) ∧
        ∀ z, roundsE 17 (cauchyMds Fq (i.val + 2)) kinds C (r :: (List.finRange 39).drop (r + 1)) (y + z • D) a = Q.eval z := by
    intro hl
    obtain ⟨Q, h1, h2⟩ := roundsE_line (cauchyMds Fq (i.val + 2)) kinds C (by norm_num : 2 ≤ 17) _ hl y
    rw [kinds_length] at h1
    exact ⟨Q, by rw [h1]; exact Nat.one_le_pow _ _ (by norm_num), h1.le, h2⟩
  by_cases hmid : 4 ≤ r.val ∧ r.val < 35
  · by_cases h0 : D 0 = 0
    · -- the first round is linear on the line
      rcases h with ⟨j, rfl⟩ | ⟨-, -, h⟩
      swap
      · exact absurd h0 h
      have hcol : (cauchyMds Fq (i.val + 2)).mulVec (Pi.single j 1) = fun a => cauchyMds Fq (i.val + 2) a j := by
        funext a
        simp
      have hl : leadRounds 17 (cauchyMds Fq (i.val + 2)) (((List.finRange 39).drop (r + 1)).map kinds) (fun a => cauchyMds Fq (i.val + 2) a j) a ≠ 0 := by
        rw [kinds_next r hmid]
        rcases Nat.lt_or_ge r.val 34 with h34 | h34
        · rw [show 34 - r.val = (33 - r.val) + 1 by omega]
          exact shipped_tail i _ _ (shipped_entry i 0 j) a
        · rw [show 34 - r.val = 0 by omega, ← leadRound_single (e := 17) (cauchyMds Fq (i.val + 2)) j (by norm_num), leadRounds_five]
          exact shipped_full_lead i (n := 5) (by norm_num) (by norm_num) a j
      obtain ⟨Q, h1, h2⟩ := roundsE_line (cauchyMds Fq (i.val + 2)) kinds C (by norm_num : 2 ≤ 17) _ hl
        (roundE 17 (cauchyMds Fq (i.val + 2)) false (C r) y)
      refine ⟨Q, by rw [h1]; exact Nat.one_le_pow _ _ (by norm_num), ?_, fun z => ?_⟩
      · rw [h1]
        apply Nat.pow_le_pow_right (by norm_num)
        have := kinds_length r
        rw [List.length_cons] at this
        omega
      · rw [← h2 z, ← hcol, ← roundE_line _ _ _ _ h0 z]
        have hk : kinds r = false := by
          rw [decide_eq_false_iff_not]
          omega
        rw [roundsE_cons, hk]
    · apply key
      rw [kinds_middle r hmid]
      exact shipped_tail i _ _ h0 a
  · rcases h with ⟨j, rfl⟩ | ⟨h1, h2, -⟩
    swap
    · exact absurd ⟨h1, h2⟩ hmid
    apply key
    rcases Nat.lt_or_ge r.val 4 with h4 | h4
    · rw [kinds_front r h4, leadRounds, List.foldl_append]
      exact shipped_tail i 30 _ (shipped_full_lead i (n := 4 - r.val) (by omega) (by omega) 0 j) a
    · rw [kinds_back r (by omega)]
      have := r.isLt
      exact shipped_full_lead i (by omega) (by omega) a j

/-- One changed row: no state stays the same, and few digests do. -/
theorem shipped_change (i : Fin 7) (r : Fin 39) (C' : Fin 39 → Fin (i.val + 2) → Fq) (h : ∀ s, s ≠ r → C' s = shippedArc i s) {D : Fin (i.val + 2) → Fq} {δ : Fq}
    (hδ : δ ≠ 0) (hD : C' r = shippedArc i r + δ • D) (hl : (∃ j, D = Pi.single j 1) ∨ (4 ≤ r.val ∧ r.val < 35 ∧ D 0 ≠ 0)) :
    (∀ x, permE 17 (cauchyMds Fq (i.val + 2)) 4 31 C' x ≠ perm377 i x) ∧
      Nat.card {x // permE 17 (cauchyMds Fq (i.val + 2)) 4 31 C' x 1 = perm377 i x 1} * q ≤ 17 ^ (39 - r.val) * q ^ (i.val + 2) := by
  have hM := (shippedAll i).1.mInverse
  rw [shipped_mds_cauchy] at hM
  have : Fact q.Prime := ⟨q_prime⟩
  have : CharP Fq q := charP_of_card_eq_prime card_Fq
  have hne : C' r ≠ shippedArc i r := by
    rw [hD]
    intro hh
    rw [add_eq_left, smul_eq_zero] at hh
    rcases hh with hh | hh
    · exact hδ hh
    · subst hh
      rcases hl with ⟨j, hj⟩ | ⟨-, -, hj⟩
      · exact one_ne_zero (α := Fq) (by simpa using (congrFun hj j).symm)
      · exact hj rfl
  refine ⟨fun x => roundsE_ne hM pow17_bijective kinds r h hne x, ?_⟩
  refine card_same_word card_Fq hM pow17_bijective kinds r h hδ hD 1 (17 ^ (39 - r.val)) ?_ fun y => shipped_line i r D (shippedArc i) hl 1 y
  exact (Nat.pow_le_pow_right (by norm_num) (Nat.sub_le _ _)).trans_lt (by decide +kernel : 17 ^ 39 < q)

/-- The optimized hash does not read the table of the unoptimized one. -/
theorem permute_arc (P : Params F (k + 1) k nmds nhat rows (k + 1) nround npart) (A : Mat F rows (k + 1) nround) (s : Vector F (k + 1)) :
    permute { P with arc := A } s = permute P s := rfl

/-- The optimized hash, when some table of round constants belongs to its own. -/
theorem optimized_permE (P : Params F (k + 1) k nmds nhat rows (k + 1) nround npart) (hk : 1 ≤ k) (hm : nmds = (k + 1) * (k + 1))
    (ha : nround = rows * (k + 1)) {rf rp e : Nat} (h1 : P.rounds.rF / 2 = rf) (h2 : P.rounds.rP = rp) (hr : rf + rp + rf ≤ rows)
    (he : P.alpha = .exponent e) (A : Matrix (Fin rows) (Fin (k + 1)) F) (hc : Consistent { P with arc := Mat.ofM ha A } hm ha)
    (s : Vector F (k + 1)) (x : Fin (k + 1) → F) :
    Instance.nTo1FixedHash ⟨P, s⟩ (Vector.ofFn x) =
      .ok (permE e (P.mds.toM hm) rf rp (fun r => A ⟨r.val, lt_of_lt_of_le r.isLt hr⟩) x 1,
        ⟨P, Vector.ofFn (permE e (P.mds.toM hm) rf rp (fun r => A ⟨r.val, lt_of_lt_of_le r.isLt hr⟩) x)⟩) := by
  subst h1 h2
  have hu := unoptimizedPermute_eq { P with arc := Mat.ofM ha A } (Nat.succ_pos k) hm ha hr x
  rw [← permute_agree _ hm ha hc, permute_arc, Mat.toM_ofM] at hu
  dsimp only at hu
  rw [he, textbook_exponent] at hu
  have h1 : (1 : Nat) < k + 1 := by omega
  have h1' : (⟨1, h1⟩ : Fin (k + 1)) = 1 := by
    ext
    rw [Fin.val_one']
    exact (Nat.mod_eq_of_lt h1).symm
  rw [Instance.nTo1FixedHash, setState_eq]
  dsimp only [bind, Except.bind]
  rw [hu]
  dsimp only [reported]
  rw [aget_ofFn _ h1, h1']
  rfl

theorem shipped_unopt (i : Fin 7) (A : Matrix (Fin 39) (Fin (i.val + 2)) Fq) (s : Vector Fq (i.val + 2)) (x : Fin (i.val + 2) → Fq) :
    Instance.unoptimizedNTo1FixedHash ⟨{ shippedParams i with arc := Mat.ofM rfl A }, s⟩ (Vector.ofFn x) =
      .ok (permE 17 (cauchyMds Fq (i.val + 2)) 4 31 A x 1,
        ⟨{ shippedParams i with arc := Mat.ofM rfl A }, Vector.ofFn (permE 17 (cauchyMds Fq (i.val + 2)) 4 31 A x)⟩) := by
  have h := unoptimized_permE { shippedParams i with arc := Mat.ofM rfl A } (Nat.le_add_left 1 i.val) rfl rfl (rf := 4) (rp := 31)
    (by show (shippedParams i).rounds.rF / 2 = 4; rw [shipped_rounds]; rfl) (by show (shippedParams i).rounds.rP = 31; rw [shipped_rounds]) (le_refl 39)
    (shipped_alpha i) s x
  dsimp only at h
  rw [Mat.toM_ofM, shipped_mds_cauchy] at h
  exact h

theorem shipped_opt (i : Fin 7) (A O : Matrix (Fin 39) (Fin (i.val + 2)) Fq)
    (hc : Consistent { shippedParams i with arc := Mat.ofM rfl A, optimizedArc := Mat.ofM rfl O } rfl rfl) (s : Vector Fq (i.val + 2)) (x : Fin (i.val + 2) → Fq) :
    Instance.nTo1FixedHash ⟨{ shippedParams i with optimizedArc := Mat.ofM rfl O }, s⟩ (Vector.ofFn x) =
      .ok (permE 17 (cauchyMds Fq (i.val + 2)) 4 31 A x 1,
        ⟨{ shippedParams i with optimizedArc := Mat.ofM rfl O }, Vector.ofFn (permE 17 (cauchyMds Fq (i.val + 2)) 4 31 A x)⟩) := by
  have h := optimized_permE { shippedParams i with optimizedArc := Mat.ofM rfl O } (Nat.le_add_left 1 i.val) rfl rfl (rf := 4) (rp := 31)
    (by show (shippedParams i).rounds.rF / 2 = 4; rw [shipped_rounds]; rfl) (by show (shippedParams i).rounds.rP = 31; rw [shipped_rounds]) (le_refl 39)
    (shipped_alpha i) A hc s x
  dsimp only at h
  rw [shipped_mds_cauchy] at h
  exact h

/-- One entry of a table replaced, as a matrix. -/
theorem set_row {t : Nat} (A : Matrix (Fin rows) (Fin t) F) (r : Fin rows) (j : Fin t) (v : F) :
    (Matrix.of fun a b => if a = r ∧ b = j then v else A a b) r = A r + (v - A r j) • (Pi.single j 1 : Fin t → F) := by
  funext b
  rw [Matrix.of_apply, Pi.add_apply, Pi.smul_apply, smul_eq_mul]
  by_cases h : b = j
  · subst h
    rw [if_pos ⟨rfl, rfl⟩, Pi.single_eq_same, mul_one, add_sub_cancel]
  · rw [if_neg (fun hh => h hh.2), Pi.single_eq_of_ne h, mul_zero, add_zero]

theorem set_other {t : Nat} (A : Matrix (Fin rows) (Fin t) F) {r r' : Fin rows} (h : r' ≠ r) (j : Fin t) (v : F) :
    (Matrix.of fun a b => if a = r ∧ b = j then v else A a b) r' = A r' := by
  funext b
  rw [Matrix.of_apply, if_neg (fun hh => h hh.1)]

/-- From the permutation to the hash. -/
theorem hash_change (i : Fin 7) {h h' : Vector Fq (i.val + 2) → (Fin (i.val + 2) → Fq) → R (Fq × Vector Fq (i.val + 2))} {f g : (Fin (i.val + 2) → Fq) → Fin (i.val + 2) → Fq}
    {B : Nat} (hf : ∀ s x, h s x = .ok (f x 1, Vector.ofFn (f x))) (hg : ∀ s x, h' s x = .ok (g x 1, Vector.ofFn (g x)))
    (H : (∀ x, g x ≠ f x) ∧ Nat.card {x // g x 1 = f x 1} * q ≤ B * q ^ (i.val + 2)) :
    (∀ s s' x, ∃ d S d' S', h s x = .ok (d, S) ∧ h' s' x = .ok (d', S') ∧ S ≠ S') ∧
      ∀ s s', Nat.card {x // ∃ d S S', h s x = .ok (d, S) ∧ h' s' x = .ok (d, S')} * q ≤ B * q ^ (i.val + 2) := by
  refine ⟨fun s s' x => ⟨_, _, _, _, hf s x, hg s' x, fun hh => H.1 x (ofFn_inj hh).symm⟩, fun s s' => ?_⟩
  refine le_trans (le_of_eq ?_) H.2
  congr 1
  apply Nat.card_congr
  apply Equiv.subtypeEquivRight
  intro x
  rw [hf, hg]
  constructor
  · rintro ⟨d, S, S', h1, h2⟩
    exact (congrArg Prod.fst (Except.ok.inj h2)).trans (congrArg Prod.fst (Except.ok.inj h1)).symm
  · intro h1
    rw [h1]
    exact ⟨_, _, _, rfl, rfl⟩

/-- The digest and the state a hash leaves. -/
def outcome {t tm1 nmds nhat arcR arcC nround npart : Nat} (o : R (F × Instance F t tm1 nmds nhat arcR arcC nround npart)) : R (F × Vector F t) :=
  o.map fun o => (o.1, o.2.outputWords)

theorem outcome_shipped (i : Fin 7) (s : Vector Fq (i.val + 2)) (x : Fin (i.val + 2) → Fq) :
    outcome (Instance.nTo1FixedHash ⟨shippedParams i, s⟩ (Vector.ofFn x)) = .ok (perm377 i x 1, Vector.ofFn (perm377 i x)) := by
  rw [nTo1_perm377]
  rfl

/-- **C120, a round constant.** Replace one round constant of a shipped table by another one. For every input, the unoptimized hash then leaves another state than the
shipped hash; and at most one input in `q / 17^(39 - r)` has the same digest. -/
theorem C120_constant (i : Fin 7) (r : Fin 39) (j : Fin (i.val + 2)) (v : Fq) (hv : (shippedParams i).arc.get r j ≠ .ok v) :
    ∃ A, (shippedParams i).arc.set r j v = .ok A ∧
      (∀ s s' x, ∃ d S d' S', outcome (Instance.nTo1FixedHash ⟨shippedParams i, s⟩ (Vector.ofFn x)) = .ok (d, S) ∧
        outcome (Instance.unoptimizedNTo1FixedHash ⟨{ shippedParams i with arc := A }, s'⟩ (Vector.ofFn x)) = .ok (d', S') ∧ S ≠ S') ∧
      ∀ s s', Nat.card {x // ∃ d S S', outcome (Instance.nTo1FixedHash ⟨shippedParams i, s⟩ (Vector.ofFn x)) = .ok (d, S) ∧
        outcome (Instance.unoptimizedNTo1FixedHash ⟨{ shippedParams i with arc := A }, s'⟩ (Vector.ofFn x)) = .ok (d, S')} * q ≤
          17 ^ (39 - r.val) * q ^ (i.val + 2) := by
  refine ⟨_, Mat.set_eq rfl _ r.isLt j.isLt v, ?_⟩
  rw [Mat.get_eq rfl _ r.isLt j.isLt] at hv
  have hδ : v - (shippedParams i).arc.toM rfl r j ≠ 0 := sub_ne_zero.2 fun hh => hv (congrArg Except.ok hh.symm)
  exact hash_change i (h := fun s x => outcome (Instance.nTo1FixedHash ⟨shippedParams i, s⟩ (Vector.ofFn x)))
    (h' := fun s x => outcome (Instance.unoptimizedNTo1FixedHash ⟨{ shippedParams i with arc := Mat.ofM rfl _ }, s⟩ (Vector.ofFn x)))
    (outcome_shipped i) (fun s x => by rw [shipped_unopt]; rfl)
    (shipped_change i r _ (fun r' hr' => set_other _ hr' j v) hδ (set_row _ r j v) (Or.inl ⟨j, rfl⟩))

/-- The optimized table with one entry replaced belongs to a table of round constants with one row replaced. -/
theorem shipped_optimized (i : Fin 7) (r : Fin 39) (j : Fin (i.val + 2)) :
    ∃ D : Fin (i.val + 2) → Fq, ((r.val ≤ 4 ∨ 35 ≤ r.val ∨ j = 0) → (∃ j, D = Pi.single j 1) ∨ (4 ≤ r.val ∧ r.val < 35 ∧ D 0 ≠ 0)) ∧
      ∀ v, ∃ A : Matrix (Fin 39) (Fin (i.val + 2)) Fq,
      Consistent { shippedParams i with arc := Mat.ofM rfl A, optimizedArc := Mat.ofM rfl (Matrix.of fun a b => if a = r ∧ b = j then v else (shippedParams i).optimizedArc.toM rfl a b) } rfl rfl ∧
      (∀ r', r' ≠ r → A r' = shippedArc i r') ∧
      ((r.val ≤ 4 ∨ 35 ≤ r.val ∨ j = 0) → A r = shippedArc i r + (v - (shippedParams i).optimizedArc.toM rfl r j) • D) ∧
      ((4 < r.val ∧ r.val < 35 ∧ j ≠ 0) → A r = shippedArc i r) := by
  have e1 : (shippedParams i).rounds.rF / 2 = 4 := by rw [shipped_rounds]; rfl
  have e2 : (shippedParams i).rounds.rP = 31 := by rw [shipped_rounds]
  have key : ∀ D : Fin (i.val + 2) → Fq, (fun a => if a = r then shippedArc i r + D else shippedArc i a : Fin 39 → Fin (i.val + 2) → Fq) r = shippedArc i r + D :=
    fun D => if_pos rfl
  have key' : ∀ (D : Fin (i.val + 2) → Fq) r', r' ≠ r → (fun a => if a = r then shippedArc i r + D else shippedArc i a : Fin 39 → Fin (i.val + 2) → Fq) r' = shippedArc i r' :=
    fun D r' h => if_neg h
  by_cases hr : r.val ≤ 4 ∨ 35 ≤ r.val
  · refine ⟨Pi.single j 1, fun _ => Or.inl ⟨j, rfl⟩, fun v => ⟨fun a => if a = r then shippedArc i r + (v - (shippedParams i).optimizedArc.toM rfl r j) • (Pi.single j 1) else shippedArc i a,
      ?_, key' _, fun _ => key _, fun h => by omega⟩⟩
    refine (shipped_consistent i).shift r _ _ (key' _) (fun r' h => set_other _ h j v) (Or.inl ⟨?_, _, key _, set_row _ r j v⟩)
    rw [e1, e2]
    exact hr
  · push Not at hr
    by_cases hj : j = 0
    · subst hj
      refine ⟨fun a => cauchyMds Fq (i.val + 2) a 0, fun _ => Or.inr ⟨by omega, hr.2, shipped_entry i 0 0⟩, fun v =>
        ⟨fun a => if a = r then shippedArc i r + (v - (shippedParams i).optimizedArc.toM rfl r 0) • (fun a => cauchyMds Fq (i.val + 2) a 0) else shippedArc i a,
        ?_, key' _, fun _ => key _, fun h => absurd rfl h.2.2⟩⟩
      refine (shipped_consistent i).shift r _ _ (key' _) (fun r' h => set_other _ h 0 v) (Or.inr ⟨?_, ?_, v - (shippedParams i).optimizedArc.toM rfl r 0, ?_, ?_⟩)
      · rw [e1]; exact hr.1
      · rw [e1, e2]; exact hr.2
      · rw [shipped_mds_cauchy]
        exact key _
      · rw [set_row, Pi.add_apply, Pi.smul_apply, Pi.single_eq_same, smul_eq_mul, mul_one]
    · refine ⟨0, fun h => by omega, fun v => ⟨shippedArc i, ?_, fun _ _ => rfl, fun h => by omega, fun _ => rfl⟩⟩
      refine (shipped_consistent i).shift r _ _ (fun _ _ => rfl) (fun r' h => set_other _ h j v) (Or.inr ⟨?_, ?_, 0, ?_, ?_⟩)
      · rw [e1]; exact hr.1
      · rw [e1, e2]; exact hr.2
      · rw [zero_smul, add_zero]
        rfl
      · rw [set_row, Pi.add_apply, Pi.smul_apply, Pi.single_eq_of_ne (Ne.symm hj), smul_zero]

/-- **C120, a constant of the optimized table.** The same for the table the optimized hash reads, and the optimized hash: in rows up to 4 and from 35 on
every entry counts, in the rows between the first word. -/
theorem C120_optimized (i : Fin 7) (r : Fin 39) (j : Fin (i.val + 2)) (hu : r.val ≤ 4 ∨ 35 ≤ r.val ∨ j = 0) (v : Fq) (hv : (shippedParams i).optimizedArc.get r j ≠ .ok v) :
    ∃ O, (shippedParams i).optimizedArc.set r j v = .ok O ∧
      (∀ s s' x, ∃ d S d' S', outcome (Instance.nTo1FixedHash ⟨shippedParams i, s⟩ (Vector.ofFn x)) = .ok (d, S) ∧
        outcome (Instance.nTo1FixedHash ⟨{ shippedParams i with optimizedArc := O }, s'⟩ (Vector.ofFn x)) = .ok (d', S') ∧ S ≠ S') ∧
      ∀ s s', Nat.card {x // ∃ d S S', outcome (Instance.nTo1FixedHash ⟨shippedParams i, s⟩ (Vector.ofFn x)) = .ok (d, S) ∧
        outcome (Instance.nTo1FixedHash ⟨{ shippedParams i with optimizedArc := O }, s'⟩ (Vector.ofFn x)) = .ok (d, S')} * q ≤
          17 ^ (39 - r.val) * q ^ (i.val + 2) := by
  refine ⟨_, Mat.set_eq rfl _ r.isLt j.isLt v, ?_⟩
  rw [Mat.get_eq rfl _ r.isLt j.isLt] at hv
  have hδ : v - (shippedParams i).optimizedArc.toM rfl r j ≠ 0 := sub_ne_zero.2 fun hh => hv (congrArg Except.ok hh.symm)
  obtain ⟨D, h3, H⟩ := shipped_optimized i r j
  obtain ⟨A, hc, h1, h2, -⟩ := H v
  replace h2 := h2 hu
  replace h3 := h3 hu
  exact hash_change i (h := fun s x => outcome (Instance.nTo1FixedHash ⟨shippedParams i, s⟩ (Vector.ofFn x)))
    (h' := fun s x => outcome (Instance.nTo1FixedHash ⟨{ shippedParams i with optimizedArc := Mat.ofM rfl _ }, s⟩ (Vector.ofFn x)))
    (outcome_shipped i) (fun s x => by rw [shipped_opt i A _ hc]; rfl) (shipped_change i r A h1 hδ h2 h3)

/-- **C120, the other entries.** The other entries of the optimized table change nothing. -/
theorem C120_unread (i : Fin 7) (r : Fin 39) (j : Fin (i.val + 2)) (hu : 4 < r.val ∧ r.val < 35 ∧ j ≠ 0) (v : Fq) :
    ∃ O, (shippedParams i).optimizedArc.set r j v = .ok O ∧ ∀ s s' x,
      outcome (Instance.nTo1FixedHash ⟨{ shippedParams i with optimizedArc := O }, s⟩ (Vector.ofFn x)) = outcome (Instance.nTo1FixedHash ⟨shippedParams i, s'⟩ (Vector.ofFn x)) := by
  refine ⟨_, Mat.set_eq rfl _ r.isLt j.isLt v, fun s s' x => ?_⟩
  obtain ⟨_, _, H⟩ := shipped_optimized i r j
  obtain ⟨A, hc, h1, -, h2⟩ := H v
  have hA : A = shippedArc i := by
    funext r'
    by_cases h : r' = r
    · rw [h, h2 hu]
    · exact h1 r' h
  subst hA
  rw [outcome_shipped]
  have := congrArg outcome (shipped_opt i _ _ hc s x)
  exact this

/-- One input, all values of the entry. -/
theorem shipped_values (i : Fin 7) (r : Fin 39) {D : Fin (i.val + 2) → Fq} (hl : (∃ j, D = Pi.single j 1) ∨ (4 ≤ r.val ∧ r.val < 35 ∧ D 0 ≠ 0)) (c : Fq)
    (C' : Fq → Fin 39 → Fin (i.val + 2) → Fq) (h : ∀ v s, s ≠ r → C' v s = shippedArc i s) (hD : ∀ v, C' v r = shippedArc i r + (v - c) • D) (x : Fin (i.val + 2) → Fq) :
    Nat.card {v // permE 17 (cauchyMds Fq (i.val + 2)) 4 31 (C' v) x 1 = perm377 i x 1} ≤ 17 ^ (39 - r.val) := by
  obtain ⟨Q, h1, h2, h3⟩ := shipped_line i r D (shippedArc i) hl 1 (roundsE 17 (cauchyMds Fq (i.val + 2)) kinds (shippedArc i) ((List.finRange 39).take r) x)
  have h4 : ∀ v, permE 17 (cauchyMds Fq (i.val + 2)) 4 31 (C' v) x 1 = Q.eval (v - c) := by
    intro v
    rw [← h3]
    have := congrFun (roundsE_shift (e := 17) (cauchyMds Fq (i.val + 2)) kinds r (h v) x) 1
    rw [hD, add_sub_cancel_left] at this
    exact this
  have h5 := card_eval_eq (g := Q) (f := Polynomial.C (perm377 i x 1)) (by rw [natDegree_C]; omega)
  refine le_trans (le_of_eq ?_) (h5.trans h2)
  apply Nat.card_congr
  refine (Equiv.subRight c).subtypeEquiv fun v => ?_
  rw [h4, eval_C]
  rfl

/-- **C120, one test vector.** For every input, at most `17 ^ (39 - r)` of the `q` values an entry can have give the digest of the shipped hash: a single
test vector finds nearly every wrong constant. -/
theorem C120_values (i : Fin 7) (r : Fin 39) (j : Fin (i.val + 2)) (s s' : Vector Fq (i.val + 2)) (x : Fin (i.val + 2) → Fq) :
    Nat.card {v // ∃ A d S S', (shippedParams i).arc.set r j v = .ok A ∧
      outcome (Instance.nTo1FixedHash ⟨shippedParams i, s⟩ (Vector.ofFn x)) = .ok (d, S) ∧
      outcome (Instance.unoptimizedNTo1FixedHash ⟨{ shippedParams i with arc := A }, s'⟩ (Vector.ofFn x)) = .ok (d, S')} ≤ 17 ^ (39 - r.val) := by
  refine le_trans ?_ (shipped_values i r (Or.inl ⟨j, rfl⟩) ((shippedParams i).arc.toM rfl r j)
    (fun v => Matrix.of fun a b => if a = r ∧ b = j then v else (shippedParams i).arc.toM rfl a b) (fun v r' hr' => set_other _ hr' j v) (fun v => set_row _ r j v) x)
  refine Nat.card_le_card_of_injective (fun v => ⟨v.1, ?_⟩) fun v w h => Subtype.ext (congrArg (fun z => z.1) h)
  obtain ⟨A, d, S, S', h1, h2, h3⟩ := v.2
  rw [Mat.set_eq rfl _ r.isLt j.isLt] at h1
  obtain rfl := Except.ok.inj h1
  rw [outcome_shipped] at h2
  have h4 := (congrArg outcome (shipped_unopt i (Matrix.of fun a b => if a = r ∧ b = j then v.1 else (shippedParams i).arc.toM rfl a b) s' x)).symm.trans h3
  exact (congrArg Prod.fst (Except.ok.inj h4)).trans (congrArg Prod.fst (Except.ok.inj h2)).symm

/-- The same for the entries of the optimized table that are read. -/
theorem C120_optimized_values (i : Fin 7) (r : Fin 39) (j : Fin (i.val + 2)) (hu : r.val ≤ 4 ∨ 35 ≤ r.val ∨ j = 0) (s s' : Vector Fq (i.val + 2)) (x : Fin (i.val + 2) → Fq) :
    Nat.card {v // ∃ O d S S', (shippedParams i).optimizedArc.set r j v = .ok O ∧
      outcome (Instance.nTo1FixedHash ⟨shippedParams i, s⟩ (Vector.ofFn x)) = .ok (d, S) ∧
      outcome (Instance.nTo1FixedHash ⟨{ shippedParams i with optimizedArc := O }, s'⟩ (Vector.ofFn x)) = .ok (d, S')} ≤ 17 ^ (39 - r.val) := by
  obtain ⟨D, hl, H⟩ := shipped_optimized i r j
  choose A hc h1 h2 _ using H
  refine le_trans ?_ (shipped_values i r (hl hu) _ A h1 (fun v => h2 v hu) x)
  refine Nat.card_le_card_of_injective (fun v => ⟨v.1, ?_⟩) fun v w h => Subtype.ext (congrArg (fun z => z.1) h)
  obtain ⟨O, d, S, S', h3, h4, h5⟩ := v.2
  rw [Mat.set_eq rfl _ r.isLt j.isLt] at h3
  obtain rfl := Except.ok.inj h3
  rw [outcome_shipped] at h4
  have h6 := (congrArg outcome (shipped_opt i (A v.1) _ (hc v.1) s' x)).symm.trans h5
  exact (congrArg Prod.fst (Except.ok.inj h6)).trans (congrArg Prod.fst (Except.ok.inj h4)).symm

/-- **C120, circuits.** Replace one round constant in the parameters of a circuit. For all inputs, but for the same small share of them, no assignment that satisfies the constraints gives the
output the value of the native digest, in whatever constraint system the gadget was called. -/
theorem C120_circuit (i : Fin 7) (r : Fin 39) (j : Fin (i.val + 2)) (v : Fq) (hv : (shippedParams i).arc.get r j ≠ .ok v) :
    ∃ A, (shippedParams i).arc.set r j v = .ok A ∧ ∀ s,
      Nat.card {x : Fin (i.val + 2) → Fq // ∃ (inputs : Vector (R1cs.FpVar Fq) (i.val + 2)) (cs cs' : R1cs.CS Fq) (out : R1cs.FpVar Fq) (σ : R1cs.Variable → Fq),
        R1cs.nTo1FixedHash { shippedParams i with arc := A } inputs cs = .ok (out, cs') ∧ R1cs.Satisfies σ cs' ∧ inputs.map (R1cs.FpVar.eval σ) = Vector.ofFn x ∧
        ∃ I, Instance.nTo1FixedHash ⟨shippedParams i, s⟩ (Vector.ofFn x) = .ok (out.eval σ, I)} * q ≤ 17 ^ (39 - r.val) * q ^ (i.val + 2) := by
  obtain ⟨A, h1, -, h2⟩ := C120_constant i r j v hv
  refine ⟨A, h1, fun s => le_trans (Nat.mul_le_mul_right _ ?_) (h2 s (Vector.replicate _ 0))⟩
  refine Nat.card_le_card_of_injective (fun x => ⟨x.1, ?_⟩) fun x y h => Subtype.ext (congrArg (fun z => z.1) h)
  obtain ⟨inputs, cs, cs', out, σ, h3, h4, h5, I, h6⟩ := x.2
  obtain ⟨I', h7⟩ := C09_soundness { shippedParams i with arc := A } (shipped_alpha i) (by norm_num) (by omega) rfl inputs cs cs' out h3 σ h4
  rw [h5] at h7
  exact ⟨out.eval σ, I.outputWords, I'.outputWords, by rw [h6]; rfl, (congrArg outcome h7).trans rfl⟩

/-- Not vacuous: every entry of both tables can be replaced, so all the cases of C120 occur; and the bound on the digests is far below 1. -/
example (i : Fin 7) (r : Fin 39) (j : Fin (i.val + 2)) :
    (∃ v, (shippedParams i).arc.get r j ≠ .ok v) ∧ (∃ v, (shippedParams i).optimizedArc.get r j ≠ .ok v) ∧ 17 ^ 39 * 2 ^ 92 < q := by
  refine ⟨⟨(shippedParams i).arc.toM rfl r j + 1, ?_⟩, ⟨(shippedParams i).optimizedArc.toM rfl r j + 1, ?_⟩, by decide +kernel⟩ <;>
    rw [Mat.get_eq rfl _ r.isLt j.isLt] <;> intro h
  · exact one_ne_zero (α := Fq) (add_eq_left.1 (Except.ok.inj h).symm)
  · exact one_ne_zero (α := Fq) (add_eq_left.1 (Except.ok.inj h).symm)

/-- Not vacuous: the hypotheses of `C120_state` hold for the shipped parameters, with any two tables that differ in one row. -/
example (i : Fin 7) (A A' : Matrix (Fin 39) (Fin (i.val + 2)) Fq) (r : Fin 39) (h : ∀ r', r' ≠ r → A' r' = A r') (hne : A' r ≠ A r) (s : Vector Fq (i.val + 2))
    (x : Fin (i.val + 2) → Fq) :
    ∃ d I d' I', Instance.unoptimizedNTo1FixedHash ⟨{ shippedParams i with arc := Mat.ofM rfl A }, s⟩ (Vector.ofFn x) = .ok (d, I) ∧
      Instance.unoptimizedNTo1FixedHash ⟨{ shippedParams i with arc := Mat.ofM rfl A' }, s⟩ (Vector.ofFn x) = .ok (d', I') ∧ I.outputWords ≠ I'.outputWords := by
  have e1 : (shippedParams i).rounds.rF / 2 + (shippedParams i).rounds.rP + (shippedParams i).rounds.rF / 2 = 39 := by rw [shipped_rounds]; rfl
  have hM := (shippedAll i).1.mInverse
  exact C120_state (shippedParams i) (Nat.le_add_left 1 i.val) rfl rfl (shipped_alpha i) pow17_bijective.1
    (fun h0 => by
      have := congrArg Matrix.det hM
      rw [Matrix.det_mul, h0, zero_mul, Matrix.det_one] at this
      exact zero_ne_one this) e1.le A A' r (by rw [e1]; exact r.isLt) h hne s s x

end Poseidon
