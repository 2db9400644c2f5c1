import Verif.Proofs.InverseDiff
import Verif.Props.InverseCount
import Verif.Proofs.SmallMds

/-!
# Property C119: random round constants with the inverse S-box

C114 counts tables of round constants for the S-box `x ^ α`; here is the same for parameters that `v1::generate` returns with the inverse S-box,
where a hash can also panic (C118).
-/

set_option linter.unusedSectionVars false

namespace Poseidon

open scoped Matrix

variable {F : Type} [Field F] [DecidableEq F] {k rows nmds nhat nround npart : Nat} {L : Libm} {debug : Bool} {nlimbs p security : Nat} {allow : Bool}
  {P : Params F (k + 1) k nmds nhat rows (k + 1) nround npart}

/-- The unoptimized hash in terms of the textbook permutation. -/
theorem unoptimized_value (P : Params F (k + 1) k nmds nhat rows (k + 1) nround npart) (hk : 1 ≤ k) (hm : nmds = (k + 1) * (k + 1))
    (ha : nround = rows * (k + 1)) (hrows : P.rounds.rF / 2 + P.rounds.rP + P.rounds.rF / 2 ≤ rows) {a : Alpha} (hi : P.alpha = a)
    (s : Vector F (k + 1)) (x : Fin (k + 1) → F) :
    (textbook a (P.mds.toM hm) (P.rounds.rF / 2) P.rounds.rP (fun r => P.arc.toM ha ⟨r.val, lt_of_lt_of_le r.isLt hrows⟩) x = none →
      Instance.unoptimizedNTo1FixedHash ⟨P, s⟩ (Vector.ofFn x) = .error .divZero) ∧
    ∀ y, textbook a (P.mds.toM hm) (P.rounds.rF / 2) P.rounds.rP (fun r => P.arc.toM ha ⟨r.val, lt_of_lt_of_le r.isLt hrows⟩) x = some y →
      Instance.unoptimizedNTo1FixedHash ⟨P, s⟩ (Vector.ofFn x) = .ok (y 1, ⟨P, Vector.ofFn y⟩) := by
  subst hi
  have hu := unoptimizedPermute_eq P (Nat.succ_pos k) hm ha hrows x
  refine ⟨fun ht => (unoptimized_textbook P hk hm ha hrows s x).2.2 ht, fun y ht => ?_⟩
  have h1 : (1 : Nat) < k + 1 := by omega
  have h1' : (⟨1, h1⟩ : Fin (k + 1)) = 1 := by
    ext
    rw [Fin.val_one']
    exact (Nat.mod_eq_of_lt h1).symm
  rw [Instance.unoptimizedNTo1FixedHash, setState_eq]
  dsimp only [bind, Except.bind]
  rw [hu, ht]
  dsimp only [reported]
  rw [aget_ofFn _ h1, h1']
  rfl

/-- What the hash returns with other constants, for generated parameters with the inverse S-box. -/
theorem inverse_with [CharP F p] (g : GeneratedBy L debug nlimbs p security allow P) (hi : P.alpha = .inverse) (debug' : Bool)
    (A : Matrix (Fin rows) (Fin (k + 1)) F) (x : Fin (k + 1) → F) :
    (CleanT .inverse (P.mds.toM g.nmds_eq) (fullRound P) A x rows →
      hashWith debug' P g.nround_eq A (Vector.ofFn x) = .ok (runT .inverse (P.mds.toM g.nmds_eq) (fullRound P) A x rows 1) ∧
      wordsWith debug' P g.nround_eq A (Vector.ofFn x) = .ok (Vector.ofFn (runT .inverse (P.mds.toM g.nmds_eq) (fullRound P) A x rows))) ∧
    (¬ CleanT .inverse (P.mds.toM g.nmds_eq) (fullRound P) A x rows →
      hashWith debug' P g.nround_eq A (Vector.ofFn x) = .error .divZero ∧ wordsWith debug' P g.nround_eq A (Vector.ofFn x) = .error .divZero) := by
  have r := v1Generate_result g.accurate g.log2_two debug g.limbs g.bits g.nmds_eq g.nhat_eq g.nround_eq g.run
  obtain ⟨hrows, -⟩ := generated_rows g
  have hk : 1 ≤ k := by have := r.width; omega
  obtain ⟨oarc, h1, h2⟩ := hashWith_unoptimized g debug' A
  have h3 := unoptimized_value { P with arc := Mat.ofM g.nround_eq A, optimizedArc := oarc } hk g.nmds_eq g.nround_eq hrows.ge hi
    (Vector.replicate (k + 1) 0) x
  dsimp only at h3
  rw [Mat.toM_ofM, ← prefix_all] at h3
  have h4 := prefix_runT (a := .inverse) (M := P.mds.toM g.nmds_eq) (C := A) hrows.ge x _ le_rfl
  have hs : ∀ Q : Nat → Prop, Q rows → Q (P.rounds.rF / 2 + P.rounds.rP + P.rounds.rF / 2) := fun Q h => hrows ▸ h
  rw [hashWith, wordsWith, h1]
  dsimp only [bind, Except.bind]
  rw [Instance.new, h2]
  constructor
  · intro hc
    have hc' := hs (CleanT .inverse (P.mds.toM g.nmds_eq) (fullRound P) A x) hc
    have h5 := h3.2 _ (h4.1 hc')
    rw [h5]
    have hz : runT .inverse (P.mds.toM g.nmds_eq) (fun m => decide (m < P.rounds.rF / 2 ∨ P.rounds.rF / 2 + P.rounds.rP ≤ m)) A x
        (P.rounds.rF / 2 + P.rounds.rP + P.rounds.rF / 2) = runT .inverse (P.mds.toM g.nmds_eq) (fullRound P) A x rows :=
      congrArg (runT .inverse (P.mds.toM g.nmds_eq) (fullRound P) A x) hrows.symm
    rw [hz]
    exact ⟨rfl, rfl⟩
  · intro hc
    have hc' := hs (fun m => ¬ CleanT .inverse (P.mds.toM g.nmds_eq) (fullRound P) A x m) hc
    have h5 := h3.1 (h4.2 hc')
    rw [h5]
    exact ⟨rfl, rfl⟩

theorem generated_inverse_layers [Fintype F] (hpp : p.Prime) (hF : Fintype.card F = p) (g : GeneratedBy L debug nlimbs p security allow P) :
    43 < p ∧ GoodLayers (p - 2) 4 (P.mds.toM g.nmds_eq) := by
  have : Fact p.Prime := ⟨hpp⟩
  have : CharP F p := charP_of_card_eq_prime hF
  have r := v1Generate_result g.accurate g.log2_two debug g.limbs g.bits g.nmds_eq g.nhat_eq g.nround_eq g.run
  have hp := numBits_ge r.bits
  have hlt : 43 < 2 ^ 127 := by norm_num
  refine ⟨by omega, ?_⟩
  have e : p - 2 = Fintype.card F - 2 := by rw [hF]
  rw [e]
  refine inverse_layers (by omega) ?_
  rw [r.mds]
  exact cauchy_isMDS_generated (p := p) r.bits r.width.2

theorem inverse_hash_run [Fintype F] (hpp : p.Prime) (hF : Fintype.card F = p) (g : GeneratedBy L debug nlimbs p security allow P)
    (hi : P.alpha = .inverse) (debug' : Bool) (A : Matrix (Fin rows) (Fin (k + 1)) F) (x : Fin (k + 1) → F) :
    (∀ d, hashWith debug' P g.nround_eq A (Vector.ofFn x) = .ok d → runE (p - 2) (P.mds.toM g.nmds_eq) (fullRound P) A x rows 1 = d) ∧
    ∀ w, wordsWith debug' P g.nround_eq A (Vector.ofFn x) = .ok w → Vector.ofFn (runE (p - 2) (P.mds.toM g.nmds_eq) (fullRound P) A x rows) = w := by
  have : Fact p.Prime := ⟨hpp⟩
  have : CharP F p := charP_of_card_eq_prime hF
  have hp := (generated_inverse_layers hpp hF g).1
  have he := runT_runE (by omega : 3 ≤ Fintype.card F) (P.mds.toM g.nmds_eq) (fullRound P) A x rows
  rw [hF] at he
  rw [← he]
  have h := inverse_with g hi debug' A x
  by_cases hc : CleanT .inverse (P.mds.toM g.nmds_eq) (fullRound P) A x rows
  · rw [(h.1 hc).1, (h.1 hc).2]
    exact ⟨fun d hd => by cases hd; rfl, fun w hw => by cases hw; rfl⟩
  · rw [(h.2 hc).1, (h.2 hc).2]
    exact ⟨nofun, nofun⟩

theorem countTables_mono [Fintype F] {rows t : Nat} {Q Q' : Matrix (Fin rows) (Fin t) F → Prop} (h : ∀ A, Q A → Q' A) : countTables Q ≤ countTables Q' := by
  classical
  unfold countTables
  rw [Nat.card_eq_fintype_card, Nat.card_eq_fintype_card]
  exact Fintype.card_subtype_mono _ _ h

/-- A state of the textbook permutation, as a run. -/
theorem prefix_inverse_run [Fintype F] (hF : Fintype.card F = p) (hp : 43 < p) {M : Matrix (Fin (k + 1)) (Fin (k + 1)) F} {rf rp : Nat} {A : Fin rows → Fin (k + 1) → F}
    (hr : rf + rp + rf ≤ rows) (x s : Fin (k + 1) → F) (m : Nat) (hm : m ≤ rf + rp + rf)
    (h : textbookPrefix .inverse M rf rp (fun r => A ⟨r.val, lt_of_lt_of_le r.isLt hr⟩) m x = some s) :
    s = runE (p - 2) M (fun m => decide (m < rf ∨ rf + rp ≤ m)) A x m := by
  have h1 := prefix_runT (a := .inverse) (M := M) (C := A) hr x m hm
  have he := runT_runE (by omega : 3 ≤ Fintype.card F) M (fun m => decide (m < rf ∨ rf + rp ≤ m)) A x m
  rw [hF] at he
  by_cases hc : CleanT .inverse M (fun m => decide (m < rf ∨ rf + rp ≤ m)) A x m
  · have h2 := (h1.1 hc).symm.trans h
    rw [← he]
    exact (Option.some.inj h2).symm
  · exact absurd ((h1.2 hc).symm.trans h) nofun

/-! ## C119 -/

/-- **C118, no other outcome.** A hash that does not return panics with a division by zero, whatever the matrix and the table; -/
theorem C118_outcome {tm1 : Nat} (P : Params F (k + 1) tm1 nmds nhat rows (k + 1) nround npart) (hk : 1 ≤ k)
    (hm : nmds = (k + 1) * (k + 1)) (ha : nround = rows * (k + 1)) (hrows : P.rounds.rF / 2 + P.rounds.rP + P.rounds.rF / 2 ≤ rows)
    (s : Vector F (k + 1)) (x : Fin (k + 1) → F) :
    (∃ r, Instance.unoptimizedNTo1FixedHash ⟨P, s⟩ (Vector.ofFn x) = .ok r) ∨
      Instance.unoptimizedNTo1FixedHash ⟨P, s⟩ (Vector.ofFn x) = .error .divZero := by
  have h := unoptimized_textbook P hk hm ha hrows s x
  rw [h.1, h.2]
  exact (em _).symm

/-- and so does the optimized hash with generated parameters and another table. -/
theorem C118_outcome_generated [CharP F p] (g : GeneratedBy L debug nlimbs p security allow P) (hi : P.alpha = .inverse) (debug' : Bool)
    (A : Matrix (Fin rows) (Fin (k + 1)) F) (x : Fin (k + 1) → F) :
    (∃ d, hashWith debug' P g.nround_eq A (Vector.ofFn x) = .ok d) ∨ hashWith debug' P g.nround_eq A (Vector.ofFn x) = .error .divZero := by
  have h := inverse_with g hi debug' A x
  by_cases hc : CleanT .inverse (P.mds.toM g.nmds_eq) (fullRound P) A x rows
  · exact Or.inl ⟨_, (h.1 hc).1⟩
  · exact Or.inr (h.2 hc).1

/-- **C119.** For generated parameters with the inverse S-box, and two different inputs, the digests are both returned and have a given difference for at
most `4 / p` of the tables of round constants, -/
theorem C119_difference [Fintype F] (hpp : p.Prime) (hF : Fintype.card F = p) (g : GeneratedBy L debug nlimbs p security allow P)
    (hi : P.alpha = .inverse) (debug' : Bool) (x y : Fin (k + 1) → F) (hxy : x ≠ y) (d : F) :
    countTables (fun A => ∃ a b, hashWith debug' P g.nround_eq A (Vector.ofFn x) = .ok a ∧
      hashWith debug' P g.nround_eq A (Vector.ofFn y) = .ok b ∧ a - b = d) * p ≤ 4 * p ^ (rows * (k + 1)) := by
  obtain ⟨-, G⟩ := generated_inverse_layers hpp hF g
  obtain ⟨hrows, hrf⟩ := haveI : Fact p.Prime := ⟨hpp⟩; haveI : CharP F p := charP_of_card_eq_prime hF; generated_rows g
  have hlast : fullRound P (rows - 1) = true := by simp only [fullRound, decide_eq_true_eq]; omega
  have h : countTables (fun A => runE (p - 2) (P.mds.toM g.nmds_eq) (fullRound P) A x rows 1 -
      runE (p - 2) (P.mds.toM g.nmds_eq) (fullRound P) A y rows 1 = d) ≤ _ :=
    countTables_le fun S hS => G.all_two_words (by omega) hlast hxy 1 d S hS
  refine (Nat.mul_le_mul_right p ((countTables_mono ?_).trans h)).trans (le_of_eq ?_)
  · rintro A ⟨a, b, ha, hb, hd⟩
    rw [(inverse_hash_run hpp hF g hi debug' A x).1 a ha, (inverse_hash_run hpp hF g hi debug' A y).1 b hb, hd]
  rw [hF]
  obtain ⟨m, rfl⟩ : ∃ m, rows = m + 1 := ⟨rows - 1, by omega⟩
  rw [Nat.add_sub_cancel, Nat.add_sub_cancel]
  ring

/-- so that of `n` different inputs some two collide for at most `2 n (n - 1) / p` of them, -/
theorem C119_collision [Fintype F] (hpp : p.Prime) (hF : Fintype.card F = p) (g : GeneratedBy L debug nlimbs p security allow P)
    (hi : P.alpha = .inverse) (debug' : Bool) {n : Nat} (X : Fin n → Fin (k + 1) → F) (hX : Function.Injective X) :
    countTables (fun A => ∃ i j, i ≠ j ∧ ∃ d, hashWith debug' P g.nround_eq A (Vector.ofFn (X i)) = .ok d ∧
      hashWith debug' P g.nround_eq A (Vector.ofFn (X j)) = .ok d) * (2 * p) ≤ n * (n - 1) * 4 * p ^ (rows * (k + 1)) := by
  classical
  set Q : Fin n × Fin n → Matrix (Fin rows) (Fin (k + 1)) F → Prop := fun ij A => ∃ a b,
    hashWith debug' P g.nround_eq A (Vector.ofFn (X ij.1)) = .ok a ∧
    hashWith debug' P g.nround_eq A (Vector.ofFn (X ij.2)) = .ok b ∧ a - b = 0 with hQ
  set pairs : Finset (Fin n × Fin n) := Finset.univ.filter fun ij => ij.1 < ij.2 with hpairs
  have h1 : countTables (fun A => ∃ i j, i ≠ j ∧ ∃ d, hashWith debug' P g.nround_eq A (Vector.ofFn (X i)) = .ok d ∧
      hashWith debug' P g.nround_eq A (Vector.ofFn (X j)) = .ok d) ≤ ∑ ij ∈ pairs, countTables (Q ij) := by
    refine countTables_le fun S hS => ?_
    have : S ⊆ pairs.biUnion fun ij => Finset.univ.filter fun A : Fin rows → Fin (k + 1) → F => Q ij A := by
      intro A hA
      obtain ⟨i, j, hij, d, hi, hj⟩ := hS A hA
      rw [Finset.mem_biUnion]
      rcases lt_or_gt_of_ne hij with hlt | hlt
      · exact ⟨(i, j), Finset.mem_filter.2 ⟨Finset.mem_univ _, hlt⟩, Finset.mem_filter.2 ⟨Finset.mem_univ _, d, d, hi, hj, sub_self d⟩⟩
      · exact ⟨(j, i), Finset.mem_filter.2 ⟨Finset.mem_univ _, hlt⟩, Finset.mem_filter.2 ⟨Finset.mem_univ _, d, d, hj, hi, sub_self d⟩⟩
    refine (Finset.card_le_card this).trans (Finset.card_biUnion_le.trans (Finset.sum_le_sum fun ij _ => le_of_eq ?_))
    rw [countTables, Nat.card_eq_fintype_card, Fintype.card_subtype]
    rfl
  have h2 : ∀ ij ∈ pairs, countTables (Q ij) * p ≤ 4 * p ^ (rows * (k + 1)) := by
    intro ij hij
    have hlt := (Finset.mem_filter.1 hij).2
    exact C119_difference hpp hF g hi debug' (X ij.1) (X ij.2) (fun h => absurd (hX h) hlt.ne) 0
  have h3 : pairs.card * 2 ≤ n * (n - 1) := by
    have hinj : pairs.card = (pairs.image Prod.swap).card := (Finset.card_image_of_injective _ Prod.swap_injective).symm
    have hdis : Disjoint pairs (pairs.image Prod.swap) := by
      rw [Finset.disjoint_left]
      intro ij h1 h2
      obtain ⟨ji, h3, rfl⟩ := Finset.mem_image.1 h2
      have a := (Finset.mem_filter.1 h1).2
      have b := (Finset.mem_filter.1 h3).2
      exact absurd a (not_lt.2 b.le)
    have hsub : pairs ∪ pairs.image Prod.swap ⊆ (Finset.univ : Finset (Fin n)).offDiag := by
      intro ij h
      rw [Finset.mem_offDiag]
      rcases Finset.mem_union.1 h with h | h
      · exact ⟨Finset.mem_univ _, Finset.mem_univ _, (Finset.mem_filter.1 h).2.ne⟩
      · obtain ⟨ji, h3, rfl⟩ := Finset.mem_image.1 h
        exact ⟨Finset.mem_univ _, Finset.mem_univ _, (Finset.mem_filter.1 h3).2.ne'⟩
    have h4 := Finset.card_le_card hsub
    rw [Finset.card_union_of_disjoint hdis, ← hinj, Finset.offDiag_card, Finset.card_univ, Fintype.card_fin] at h4
    rw [Nat.mul_sub, mul_one]
    omega
  calc _ ≤ (∑ ij ∈ pairs, countTables (Q ij)) * (2 * p) := Nat.mul_le_mul_right _ h1
    _ = 2 * ∑ ij ∈ pairs, countTables (Q ij) * p := by rw [← Finset.sum_mul]; ring
    _ ≤ 2 * ∑ _ij ∈ pairs, 4 * p ^ (rows * (k + 1)) := Nat.mul_le_mul_left _ (Finset.sum_le_sum h2)
    _ = pairs.card * 2 * (4 * p ^ (rows * (k + 1))) := by rw [Finset.sum_const, smul_eq_mul]; ring
    _ ≤ n * (n - 1) * (4 * p ^ (rows * (k + 1))) := Nat.mul_le_mul_right _ h3
    _ = _ := by ring

/-- the states they leave have a given difference for at most `(4 / p) ^ t` of them, -/
theorem C119_state_difference [Fintype F] (hpp : p.Prime) (hF : Fintype.card F = p)
    (g : GeneratedBy L debug nlimbs p security allow P) (hi : P.alpha = .inverse) (debug' : Bool)
    (x y : Fin (k + 1) → F) (hxy : x ≠ y) (D : Fin (k + 1) → F) :
    countTables (fun A => ∃ a b : Fin (k + 1) → F, wordsWith debug' P g.nround_eq A (Vector.ofFn x) = .ok (Vector.ofFn a) ∧
      wordsWith debug' P g.nround_eq A (Vector.ofFn y) = .ok (Vector.ofFn b) ∧ a - b = D) * p ^ (k + 1) ≤
      4 ^ (k + 1) * p ^ (rows * (k + 1)) := by
  obtain ⟨-, G⟩ := generated_inverse_layers hpp hF g
  obtain ⟨hrows, hrf⟩ := haveI : Fact p.Prime := ⟨hpp⟩; haveI : CharP F p := charP_of_card_eq_prime hF; generated_rows g
  have hlast : fullRound P (rows - 1) = true := by simp only [fullRound, decide_eq_true_eq]; omega
  have hlast2 : fullRound P (rows - 2) = true := by simp only [fullRound, decide_eq_true_eq]; omega
  have hinj : ∀ s s' : Fin (k + 1) → F, Vector.ofFn s = Vector.ofFn s' → s = s' := by
    intro s s' h
    funext i
    have := congrArg (fun v : Vector F (k + 1) => v[i]) h
    simpa using this
  have h : countTables (fun A => runE (p - 2) (P.mds.toM g.nmds_eq) (fullRound P) A x rows -
      runE (p - 2) (P.mds.toM g.nmds_eq) (fullRound P) A y rows = D) ≤ _ :=
    countTables_le fun S hS => G.all_two_states (by omega) hlast hlast2 hxy D S hS
  refine (Nat.mul_le_mul_right (p ^ (k + 1)) ((countTables_mono ?_).trans h)).trans (le_of_eq ?_)
  · rintro A ⟨a, b, ha, hb, hd⟩
    rw [hinj _ _ ((inverse_hash_run hpp hF g hi debug' A x).2 _ ha), hinj _ _ ((inverse_hash_run hpp hF g hi debug' A y).2 _ hb), hd]
  rw [hF]
  obtain ⟨m, rfl⟩ : ∃ m, rows = m + 2 := ⟨rows - 2, by omega⟩
  rw [Nat.add_sub_cancel]
  ring

/-- and they follow a given trail of differences through all the rounds for at most `(4 / p) ^ N` of them, `N` being the number of S-boxes C68 finds
active. -/
theorem C119_trail [Fintype F] (hpp : p.Prime) (hF : Fintype.card F = p)
    (g : GeneratedBy L debug nlimbs p security allow P) (hi : P.alpha = .inverse)
    (hr : P.rounds.rF / 2 + P.rounds.rP + P.rounds.rF / 2 ≤ rows)
    (x y : Fin (k + 1) → F) (hxy : x ≠ y) (Δ : Nat → Fin (k + 1) → F) :
    countTables (FollowsTrail P.alpha (P.mds.toM g.nmds_eq) (P.rounds.rF / 2) P.rounds.rP hr x y Δ) *
        p ^ (P.rounds.rF / 2 * (k + 2) + P.rounds.rP / (k + 1)) ≤
      4 ^ (P.rounds.rF / 2 * (k + 2) + P.rounds.rP / (k + 1)) * p ^ (rows * (k + 1)) := by
  have : Fact p.Prime := ⟨hpp⟩
  have : CharP F p := charP_of_card_eq_prime hF
  have r := v1Generate_result g.accurate g.log2_two debug g.limbs g.bits g.nmds_eq g.nhat_eq g.nround_eq g.run
  obtain ⟨hp, G⟩ := generated_inverse_layers hpp hF g
  obtain ⟨hrows, hrf⟩ := generated_rows g
  set M := P.mds.toM g.nmds_eq with hM
  set rf := P.rounds.rF / 2 with hrfdef
  set rp := P.rounds.rP with hrpdef
  set N := rf * (k + 2) + rp / (k + 1) with hN
  -- the states of a table that follows the trail
  have hrun : ∀ A, FollowsTrail P.alpha M rf rp hr x y Δ A → ∀ m ≤ rows,
      runE (p - 2) M (fullRound P) A x m - runE (p - 2) M (fullRound P) A y m = Δ m := by
    intro A hA m hm
    obtain ⟨s, s', h1, h2, h4⟩ := hA m (by omega)
    rw [hi] at h1 h2
    rw [← h4, prefix_inverse_run hF hp hr x s m (by omega) h1, prefix_inverse_run hF hp hr y s' m (by omega) h2]
    rfl
  have hbound : ∀ S : Finset (Fin rows → Fin (k + 1) → F), (∀ A ∈ S, FollowsTrail P.alpha M rf rp hr x y Δ A) →
      S.card * p ^ N ≤ 4 ^ N * p ^ (rows * (k + 1)) := by
    intro S hS
    rcases S.eq_empty_or_nonempty with rfl | ⟨A, hA⟩
    · simp
    have hc := G.trail (full := fullRound P) x y Δ S fun A hA => hrun A (hS A hA)
    rw [hF] at hc
    set a : Fin rows → Nat := fun m => (seen (fullRound P m) (Δ m) 0).card with ha
    have hle : ∀ m, a m ≤ k + 1 := fun m => (Finset.card_le_univ _).trans (by simp)
    -- the number of active S-boxes
    have hact : N ≤ ∑ m, a m := by
      set C : Fin (rf + rp + rf) → Fin (k + 1) → F := fun r => A ⟨r.val, lt_of_lt_of_le r.isLt hr⟩ with hC
      have hinj : Alpha.Injective F .inverse := fun a b _ _ hab => inv_injective hab
      have hx : ∀ m ≤ rf + rp + rf, textbookPrefix .inverse M rf rp C m x = some (runE (p - 2) M (fun m => decide (m < rf ∨ rf + rp ≤ m)) A x m) := by
        intro m hm
        obtain ⟨s, s', h1, -, -⟩ := hS A hA m hm
        rw [hi] at h1
        exact h1.trans (congrArg some (prefix_inverse_run hF hp hr x s m hm h1))
      have hy : ∀ m ≤ rf + rp + rf, textbookPrefix .inverse M rf rp C m y = some (runE (p - 2) M (fun m => decide (m < rf ∨ rf + rp ≤ m)) A y m) := by
        intro m hm
        obtain ⟨s, s', -, h2, -⟩ := hS A hA m hm
        rw [hi] at h2
        exact h2.trans (congrArg some (prefix_inverse_run hF hp hr y s' m hm h2))
      have hw := r.width
      have hb := active_bound (Nat.succ_pos k) hinj G.mds
        (by rw [hM, r.mds]; exact cauchy_noInactiveTrail (p := p) r.bits hw.1 hw.2)
        ((prefix_all _).symm.trans (hx _ le_rfl)) ((prefix_all _).symm.trans (hy _ le_rfl)) hxy
      rw [active_sum hx hy] at hb
      have hsum : ∑ r ∈ Finset.range (rf + rp + rf), roundActive rf rp
          (runE (p - 2) M (fun m => decide (m < rf ∨ rf + rp ≤ m)) A x) (runE (p - 2) M (fun m => decide (m < rf ∨ rf + rp ≤ m)) A y) r = ∑ m, a m := by
        rw [← hrows, Finset.sum_range]
        refine Finset.sum_congr rfl fun m _ => ?_
        rw [ha, roundActive]
        congr 1
        ext i
        have := hrun A (hS A hA) m m.isLt.le
        simp only [seen, Finset.mem_filter, Finset.mem_univ, true_and, Pi.zero_apply, ← this, Pi.sub_apply, ne_eq, sub_eq_zero]
        rfl
      rw [hsum] at hb
      refine le_trans (le_of_eq ?_) hb
      rw [hN]
      have : 2 * (rf / 2) = rf := by rcases r.full with h | h <;> omega
      rw [this]
    obtain ⟨Z, hZ⟩ := Nat.exists_eq_add_of_le hact
    have hprod : (∏ m : Fin rows, (4 ^ a m * p ^ (k + 1 - a m))) * p ^ (∑ m, a m) = 4 ^ (∑ m, a m) * p ^ (rows * (k + 1)) := by
      rw [Finset.prod_mul_distrib, Finset.prod_pow_eq_pow_sum, Finset.prod_pow_eq_pow_sum, mul_assoc, ← pow_add, ← Finset.sum_add_distrib]
      congr 2
      rw [Finset.sum_congr rfl fun m _ => Nat.sub_add_cancel (hle m), Finset.sum_const, Finset.card_univ, Fintype.card_fin, smul_eq_mul]
    have h5 : S.card * p ^ (∑ m, a m) ≤ 4 ^ (∑ m, a m) * p ^ (rows * (k + 1)) :=
      (Nat.mul_le_mul_right _ hc).trans hprod.le
    rw [hZ, pow_add p N Z, pow_add 4 N Z] at h5
    have h6 : 4 ^ Z ≤ p ^ Z := Nat.pow_le_pow_left (by omega) Z
    have h7 : S.card * p ^ N * p ^ Z ≤ 4 ^ N * p ^ (rows * (k + 1)) * p ^ Z := by
      calc S.card * p ^ N * p ^ Z = S.card * (p ^ N * p ^ Z) := by ring
        _ ≤ 4 ^ N * 4 ^ Z * p ^ (rows * (k + 1)) := h5
        _ = 4 ^ N * p ^ (rows * (k + 1)) * 4 ^ Z := by ring
        _ ≤ _ := Nat.mul_le_mul_left _ h6
    exact Nat.le_of_mul_le_mul_right h7 (Nat.pow_pos (by omega))
  classical
  rw [countTables, Nat.card_eq_fintype_card, Fintype.card_subtype]
  exact hbound (Finset.univ.filter fun A => FollowsTrail P.alpha M rf rp hr x y Δ A) fun A hA => (Finset.mem_filter.1 hA).2

/-- What comes out, in terms of what enters the S-boxes of the last round. -/
theorem inverse_last {m : Nat} [CharP F p] {P : Params F (k + 1) k nmds nhat (m + 1) (k + 1) nround npart} (g : GeneratedBy L debug nlimbs p security allow P)
    (hi : P.alpha = .inverse) (debug' : Bool) (x : Fin (k + 1) → F) (A : Matrix (Fin (m + 1)) (Fin (k + 1)) F) :
    (∀ d, hashWith debug' P g.nround_eq A (Vector.ofFn x) = .ok d ↔ CleanT .inverse (P.mds.toM g.nmds_eq) (fullRound P) A x (m + 1) ∧
      (P.mds.toM g.nmds_eq).mulVec (fun i => (runT .inverse (P.mds.toM g.nmds_eq) (fullRound P) A x m i + A (Fin.last m) i)⁻¹) 1 = d) ∧
    ∀ w, wordsWith debug' P g.nround_eq A (Vector.ofFn x) = .ok w ↔ CleanT .inverse (P.mds.toM g.nmds_eq) (fullRound P) A x (m + 1) ∧
      Vector.ofFn ((P.mds.toM g.nmds_eq).mulVec fun i => (runT .inverse (P.mds.toM g.nmds_eq) (fullRound P) A x m i + A (Fin.last m) i)⁻¹) = w := by
  obtain ⟨hrows, hrf⟩ := generated_rows g
  have hlast : fullRound P m = true := by simp only [fullRound, decide_eq_true_eq]; omega
  rw [← runT_last (P.mds.toM g.nmds_eq) (fullRound P) A x hlast]
  have h := inverse_with g hi debug' A x
  by_cases hc : CleanT .inverse (P.mds.toM g.nmds_eq) (fullRound P) A x (m + 1)
  · rw [(h.1 hc).1, (h.1 hc).2]
    simp only [Except.ok.injEq, hc, true_and, implies_true, and_self]
  · rw [(h.2 hc).1, (h.2 hc).2]
    simp only [reduceCtorEq, hc, false_and, implies_true, and_self]

/-- **C119, one input.** A state is left by a hash only if it is the matrix times a vector of words that are not zero; of these, each is left for the same
number of tables, -/
theorem C119_state [Fintype F] (hpp : p.Prime) (hF : Fintype.card F = p) (g : GeneratedBy L debug nlimbs p security allow P)
    (hi : P.alpha = .inverse) (debug' : Bool) (x : Fin (k + 1) → F) :
    (∀ A w, wordsWith debug' P g.nround_eq A (Vector.ofFn x) = .ok w →
      ∃ y : Fin (k + 1) → F, (∀ i, y i ≠ 0) ∧ w = Vector.ofFn ((P.mds.toM g.nmds_eq).mulVec y)) ∧
    ∀ y : Fin (k + 1) → F, (∀ i, y i ≠ 0) →
      countTables (fun A => wordsWith debug' P g.nround_eq A (Vector.ofFn x) = .ok (Vector.ofFn ((P.mds.toM g.nmds_eq).mulVec y))) * (p - 1) ^ (k + 1) =
        countTables (fun A => ∃ w, wordsWith debug' P g.nround_eq A (Vector.ofFn x) = .ok w) := by
  have : Fact p.Prime := ⟨hpp⟩
  have : CharP F p := charP_of_card_eq_prime hF
  obtain ⟨-, G⟩ := generated_inverse_layers hpp hF g
  obtain ⟨hrows, hrf⟩ := generated_rows g
  obtain ⟨m, rfl⟩ : ∃ m, rows = m + 1 := ⟨rows - 1, by omega⟩
  have hlast : fullRound P m = true := by simp only [fullRound, decide_eq_true_eq]; omega
  have hv : ∀ A, _ := fun A => (inverse_last g hi debug' x A).2
  refine ⟨fun A w hw => ?_, fun y hy => ?_⟩
  · obtain ⟨hc, rfl⟩ := (hv A w).1 hw
    exact ⟨_, fun i => inv_ne_zero (hc (Fin.last m) (Nat.lt_succ_self m) i (Or.inl hlast)), rfl⟩
  obtain ⟨B, hB⟩ := card_last_row (n := m) (P.mds.toM g.nmds_eq) (fullRound P) x hlast
  have hinj : ∀ s s' : Fin (k + 1) → F, Vector.ofFn s = Vector.ofFn s' → s = s' := by
    intro s s' h
    funext i
    have := congrArg (fun v : Vector F (k + 1) => v[i]) h
    simpa using this
  have hdet : IsUnit (P.mds.toM g.nmds_eq) := by
    rw [Matrix.isUnit_iff_isUnit_det, isUnit_iff_ne_zero]
    have := G.mds _ id id Function.injective_id Function.injective_id
    rwa [Matrix.submatrix_id_id] at this
  have e1 : countTables (fun A => wordsWith debug' P g.nround_eq A (Vector.ofFn x) = .ok (Vector.ofFn ((P.mds.toM g.nmds_eq).mulVec y))) = B * 1 := by
    rw [countTables_congr fun A => (hv A _).trans (and_congr_right' (b := _) (c := (fun u : Fin (k + 1) → F => u = fun i => (y i)⁻¹)
      (fun i => runT .inverse (P.mds.toM g.nmds_eq) (fullRound P) A x m i + A (Fin.last m) i)) ?_)]
    · refine (hB fun u => u = fun i => (y i)⁻¹).trans (congrArg (B * ·) ?_)
      rw [Nat.card_eq_one_iff_unique]
      exact ⟨⟨fun a b => Subtype.ext (a.2.2.trans b.2.2.symm)⟩, ⟨⟨fun i => (y i)⁻¹, fun i => inv_ne_zero (hy i), rfl⟩⟩⟩
    · constructor
      · intro h
        have h1 := Matrix.mulVec_injective_of_isUnit hdet (hinj _ _ h)
        funext i
        rw [← congrFun h1 i, inv_inv]
      · intro h
        have h1 : ∀ i, (runT .inverse (P.mds.toM g.nmds_eq) (fullRound P) A x m i + A (Fin.last m) i)⁻¹ = y i := fun i => by
          rw [congrFun h i, inv_inv]
        rw [funext h1]
  have e2 : countTables (fun A => ∃ w, wordsWith debug' P g.nround_eq A (Vector.ofFn x) = .ok w) = B * (p - 1) ^ (k + 1) := by
    rw [countTables_congr fun A => show _ ↔ CleanT .inverse (P.mds.toM g.nmds_eq) (fullRound P) A x (m + 1) ∧ (fun _ : Fin (k + 1) → F => True)
      (fun i => runT .inverse (P.mds.toM g.nmds_eq) (fullRound P) A x m i + A (Fin.last m) i) from
      ⟨fun ⟨w, hw⟩ => ⟨((hv A w).1 hw).1, trivial⟩, fun h => ⟨_, (hv A _).2 ⟨h.1, rfl⟩⟩⟩]
    refine (hB fun _ => True).trans (congrArg (B * ·) ?_)
    simp only [and_true]
    rw [nonzero_card, hF]
  rw [e1, e2, mul_one]

/-- and the digest is nearly uniform among those that are returned: it is zero for a little more or less of the tables than it is any other word. -/
theorem C119_digest [Fintype F] (hpp : p.Prime) (hF : Fintype.card F = p) (g : GeneratedBy L debug nlimbs p security allow P)
    (hi : P.alpha = .inverse) (debug' : Bool) (x : Fin (k + 1) → F) (d : F) :
    (countTables (fun A => hashWith debug' P g.nround_eq A (Vector.ofFn x) = .ok d) : ℤ) * p * (p - 1) ^ (k + 1) =
      ((p - 1) ^ (k + 1) + (if d = 0 then (p : ℤ) - 1 else -1) * (-1) ^ (k + 1)) *
        countTables (fun A => ∃ d, hashWith debug' P g.nround_eq A (Vector.ofFn x) = .ok d) := by
  have : Fact p.Prime := ⟨hpp⟩
  have : CharP F p := charP_of_card_eq_prime hF
  obtain ⟨hp, G⟩ := generated_inverse_layers hpp hF g
  obtain ⟨hrows, hrf⟩ := generated_rows g
  obtain ⟨m, rfl⟩ : ∃ m, rows = m + 1 := ⟨rows - 1, by omega⟩
  have hlast : fullRound P m = true := by simp only [fullRound, decide_eq_true_eq]; omega
  have hv : ∀ A, _ := fun A => (inverse_last g hi debug' x A).1
  obtain ⟨B, hB⟩ := card_last_row (n := m) (P.mds.toM g.nmds_eq) (fullRound P) x hlast
  have e1 : (countTables (fun A => hashWith debug' P g.nround_eq A (Vector.ofFn x) = .ok d) : ℤ) = B * waysT (P.mds.toM g.nmds_eq 1) d := by
    rw [countTables_congr fun A => hv A d]
    have h := hB fun u => (P.mds.toM g.nmds_eq).mulVec (fun i => (u i)⁻¹) 1 = d
    rw [countTables, ← waysT_card, ← Nat.cast_mul]
    exact congrArg Nat.cast h
  have e2 : (countTables (fun A => ∃ d, hashWith debug' P g.nround_eq A (Vector.ofFn x) = .ok d) : ℤ) = B * ((p : ℤ) - 1) ^ (k + 1) := by
    rw [countTables_congr fun A => show _ ↔ CleanT .inverse (P.mds.toM g.nmds_eq) (fullRound P) A x (m + 1) ∧ (fun _ : Fin (k + 1) → F => True)
      (fun i => runT .inverse (P.mds.toM g.nmds_eq) (fullRound P) A x m i + A (Fin.last m) i) from
      ⟨fun ⟨w, hw⟩ => ⟨((hv A w).1 hw).1, trivial⟩, fun h => ⟨_, (hv A _).2 ⟨h.1, rfl⟩⟩⟩]
    have h := hB fun _ => True
    simp only [and_true] at h
    rw [nonzero_card, hF] at h
    simp only [and_true]
    rw [countTables]
    refine (congrArg Nat.cast h).trans ?_
    rw [Nat.cast_mul, Nat.cast_pow, Nat.cast_sub (by omega), Nat.cast_one]
  have h := waysT_eq (P.mds.toM g.nmds_eq 1) (fun i => G.mds.entry 1 i) d
  rw [hF] at h
  rw [e1, e2, ← h]
  ring

/-! ### A case that meets the hypotheses -/

/-- Parameters that the generator returns with the inverse S-box, two inputs that differ in a word, and a digest. -/
example : haveI := Fact.mk inverseModulus_prime
    ∃ rows npart, ∃ P : Params (ZMod inverseModulus) 3 2 9 4 rows 3 (rows * 3) npart, P.alpha = .inverse ∧
      countTables (fun A => ∃ a b, hashWith true P rfl A (Vector.ofFn ![0, 0, 0]) = .ok a ∧
        hashWith true P rfl A (Vector.ofFn ![0, 0, 1]) = .ok b ∧ a - b = 5) * inverseModulus ≤ 4 * inverseModulus ^ (rows * 3) ∧
      (countTables (fun A => hashWith true P rfl A (Vector.ofFn ![0, 0, 0]) = .ok 1) : ℤ) * inverseModulus * (inverseModulus - 1) ^ 3 =
        ((inverseModulus - 1) ^ 3 + 1) * countTables (fun A => ∃ d, hashWith true P rfl A (Vector.ofFn ![0, 0, 0]) = .ok d) := by
  have := Fact.mk inverseModulus_prime
  have hi : alphaGenerate inverseModulus true = .ok .inverse := by decide +kernel
  have hl2 : roundedLibm.log2 2 = 1 := by
    show rne (Real.logb 2 2) = 1
    rw [Real.logb_self_eq_one (by norm_num)]
    simpa using rne_natCast (n := 1) (by norm_num)
  obtain ⟨rP, rF, h6, -, h8⟩ := C49_full_rounds roundedLibm roundedLibm_accurate hl2 ⟨true, 128, 2 + 1, inverseModulus⟩
    (log2Big roundedLibm inverseModulus) .inverse (by norm_num) (by norm_num) (by norm_num) (by intro e h; cases h)
  obtain ⟨P, hP, hα, -⟩ := v1Generate_ok (F := ZMod inverseModulus) (nmds := 9) (nhat := 4) true (nlimbs := 2) (by norm_num)
    (p := inverseModulus) (by decide +kernel) rfl rfl hi h6 h8 (by norm_num) (by norm_num) (by decide +kernel)
  have g : GeneratedBy roundedLibm true 2 inverseModulus 128 true P := ⟨roundedLibm_accurate, hl2, by norm_num, by decide +kernel, rfl, rfl, rfl, hP⟩
  refine ⟨_, _, P, hα, C119_difference inverseModulus_prime (ZMod.card _) g hα true ![0, 0, 0] ![0, 0, 1] (fun h => zero_ne_one (congrFun h 2)) 5, ?_⟩
  have h := C119_digest inverseModulus_prime (ZMod.card _) g hα true ![0, 0, 0] 1
  rw [if_neg one_ne_zero] at h
  refine h.trans ?_
  congr 2

end Poseidon
