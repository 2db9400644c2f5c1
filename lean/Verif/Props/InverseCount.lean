import Verif.Spec.InverseCount
import Verif.Proofs.InverseCount
import Verif.Props.RandomConstants

/-!
# Property C118: how often a hash with the inverse S-box panics

The inverse S-box divides by the word (poseidon-permutation/src/permutation.rs:219-241), and a division by zero panics.  Counted here are the
tables of round constants, for a given input, and the inputs, for given parameters, with which that happens.
-/

set_option linter.unusedSectionVars false

namespace Poseidon

open scoped Matrix

variable {F : Type} [Field F] [DecidableEq F] {k tm1 rows nmds nhat nround npart : Nat}

theorem unoptimized_textbook (P : Params F (k + 1) tm1 nmds nhat rows (k + 1) nround npart) (hk : 1 ≤ k) (hm : nmds = (k + 1) * (k + 1))
    (ha : nround = rows * (k + 1)) (hrows : P.rounds.rF / 2 + P.rounds.rP + P.rounds.rF / 2 ≤ rows) (s : Vector F (k + 1)) (x : Fin (k + 1) → F) :
    ((∃ r, Instance.unoptimizedNTo1FixedHash ⟨P, s⟩ (Vector.ofFn x) = .ok r) ↔ textbook P.alpha (P.mds.toM hm) (P.rounds.rF / 2) P.rounds.rP
      (fun r => P.arc.toM ha ⟨r.val, lt_of_lt_of_le r.isLt hrows⟩) x ≠ none) ∧
    (Instance.unoptimizedNTo1FixedHash ⟨P, s⟩ (Vector.ofFn x) = .error .divZero ↔ textbook P.alpha (P.mds.toM hm) (P.rounds.rF / 2) P.rounds.rP
      (fun r => P.arc.toM ha ⟨r.val, lt_of_lt_of_le r.isLt hrows⟩) x = none) := by
  have hu := unoptimizedPermute_eq P (Nat.succ_pos k) hm ha hrows x
  cases ht : textbook P.alpha (P.mds.toM hm) (P.rounds.rF / 2) P.rounds.rP (fun r => P.arc.toM ha ⟨r.val, lt_of_lt_of_le r.isLt hrows⟩) x with
  | none =>
    have h : Instance.unoptimizedNTo1FixedHash ⟨P, s⟩ (Vector.ofFn x) = .error .divZero := by
      rw [Instance.unoptimizedNTo1FixedHash, setState_eq]
      dsimp only [bind, Except.bind]
      rw [hu, ht]
      rfl
    rw [h]
    exact ⟨⟨fun ⟨_, h⟩ => (nomatch h), fun h => absurd rfl h⟩, fun _ => rfl, fun _ => rfl⟩
  | some y =>
    have h : Instance.unoptimizedNTo1FixedHash ⟨P, s⟩ (Vector.ofFn x) = .ok (y ⟨1, by omega⟩, ⟨P, Vector.ofFn y⟩) := by
      rw [Instance.unoptimizedNTo1FixedHash, setState_eq]
      dsimp only [bind, Except.bind]
      rw [hu, ht]
      dsimp only [reported]
      rw [aget_ofFn _ (show 1 < k + 1 by omega)]
      rfl
    rw [h]
    exact ⟨⟨fun _ => nofun, fun _ => ⟨_, rfl⟩⟩, nofun, nofun⟩

/-- For generated parameters the hash with other constants is the unoptimized hash with these constants. -/
theorem hashWith_unoptimized {L : Libm} {debug : Bool} {nlimbs p security : Nat} {allow : Bool}
    {P : Params F (k + 1) k nmds nhat rows (k + 1) nround npart} [CharP F p] (g : GeneratedBy L debug nlimbs p security allow P)
    (debug' : Bool) (A : Matrix (Fin rows) (Fin (k + 1)) F) :
    ∃ oarc, P.withConstants debug' g.nround_eq A = .ok { P with arc := Mat.ofM g.nround_eq A, optimizedArc := oarc } ∧ ∀ (s : Vector F (k + 1)) (x : Vector F (k + 1)),
      Instance.nTo1FixedHash ⟨{ P with arc := Mat.ofM g.nround_eq A, optimizedArc := oarc }, s⟩ x =
      Instance.unoptimizedNTo1FixedHash ⟨{ P with arc := Mat.ofM g.nround_eq A, optimizedArc := oarc }, s⟩ x := by
  have r := v1Generate_result g.accurate g.log2_two debug g.limbs g.bits g.nmds_eq g.nhat_eq g.nround_eq g.run
  obtain ⟨hrows, hrf⟩ := generated_rows g
  have hw := r.width
  have heven : P.rounds.rF % 2 = 0 := by rcases r.full with h | h <;> omega
  obtain ⟨⟨o, ho⟩, oarc, hoarc⟩ := C36_cauchy debug' (p := p) r.bits hw.1 hw.2 g.nhat_eq g.nmds_eq g.nround_eq P.mds
    (by intro i j; rw [r.mds, cauchyMds, Matrix.of_apply, one_div]) P.rounds r.part r.rows_eq.ge (Mat.ofM g.nround_eq A)
  have hdet : (P.mds.toM g.nmds_eq).det ≠ 0 := by
    rw [r.mds]
    have := numBits_ge r.bits
    have h2 : 24 ≤ 2 ^ 127 := by norm_num
    exact cauchy_det (p := p) (by omega)
  have dA := genParams_derivedArc debug' g.nmds_eq g.nround_eq P.security P.alpha P.rounds P.mds (Mat.ofM g.nround_eq A) oarc o
    hw.2 hdet heven r.part r.rows_eq.ge hoarc
  refine ⟨oarc, by rw [Params.withConstants, hoarc]; rfl, fun s x => ?_⟩
  set P' : Params F (k + 1) k nmds nhat rows (k + 1) nround npart :=
    { P with arc := Mat.ofM g.nround_eq A, optimizedArc := oarc } with hP'
  have d1 : DerivedMds P' g.nmds_eq g.nhat_eq := by
    have d := r.derivedMds
    exact ⟨d.mHat, d.v, d.w, d.m00, d.mPrime, d.mDoublePrime, d.factor, d.mInverse, d.mHatInverse, d.vCollection, d.wHatCollection, d.mI⟩
  have d2 : DerivedArc P' g.nmds_eq g.nround_eq := ⟨dA.full_pre, dA.full_post, dA.partial_zero, dA.moved⟩
  exact C01_derived P' g.nmds_eq g.nhat_eq g.nround_eq d1 d2 hrows.ge r.part r.npart_eq.ge s x

theorem countTables_congr {rows t : Nat} {Q Q' : Matrix (Fin rows) (Fin t) F → Prop} (h : ∀ A, Q A ↔ Q' A) : countTables Q = countTables Q' :=
  congrArg countTables (funext fun A => propext (h A))

/-- **C118, the tables.** Let parameters have the inverse S-box, and as many rows of round constants as there are rounds, or more.  For every
input and state, and a random table of round constants, the unoptimized hash returns with probability exactly `((p - 1) / p) ^ N`, `N` being
the number of S-boxes. -/
theorem C118_tables [Fintype F] (P : Params F (k + 1) tm1 nmds nhat rows (k + 1) nround npart) (hi : P.alpha = .inverse) (hk : 1 ≤ k)
    (hm : nmds = (k + 1) * (k + 1)) (ha : nround = rows * (k + 1)) (hrows : P.rounds.rF / 2 + P.rounds.rP + P.rounds.rF / 2 ≤ rows)
    (s : Vector F (k + 1)) (x : Fin (k + 1) → F) :
    countTables (fun A => ∃ r, Instance.unoptimizedNTo1FixedHash ⟨{ P with arc := Mat.ofM ha A }, s⟩ (Vector.ofFn x) = .ok r) *
        Fintype.card F ^ sboxesOf P.rounds (k + 1) =
      (Fintype.card F - 1) ^ sboxesOf P.rounds (k + 1) * Fintype.card F ^ (rows * (k + 1)) := by
  obtain ⟨extra, he⟩ := Nat.exists_eq_add_of_le hrows
  have h : ∀ A : Matrix (Fin rows) (Fin (k + 1)) F,
      (∃ r, Instance.unoptimizedNTo1FixedHash ⟨{ P with arc := Mat.ofM ha A }, s⟩ (Vector.ofFn x) = .ok r) ↔
        CleanT .inverse (P.mds.toM hm) (fun m => decide (m < P.rounds.rF / 2 ∨ P.rounds.rF / 2 + P.rounds.rP ≤ m)) A x
          (P.rounds.rF / 2 + P.rounds.rP + P.rounds.rF / 2) := by
    intro A
    rw [(unoptimized_textbook { P with arc := Mat.ofM ha A } hk hm ha hrows s x).1]
    dsimp only
    rw [hi, Mat.toM_ofM, ← prefix_all]
    have h := prefix_runT (a := .inverse) (M := P.mds.toM hm) (C := A) hrows x _ le_rfl
    by_cases hc : CleanT .inverse (P.mds.toM hm) (fun m => decide (m < P.rounds.rF / 2 ∨ P.rounds.rF / 2 + P.rounds.rP ≤ m)) A x
          (P.rounds.rF / 2 + P.rounds.rP + P.rounds.rF / 2)
    · rw [h.1 hc]
      exact ⟨fun _ => hc, fun _ => nofun⟩
    · rw [h.2 hc]
      exact ⟨fun h => absurd rfl h, fun h => absurd h hc⟩
  rw [countTables_congr h]
  have hc := card_clean (P.mds.toM hm) (P.rounds.rF / 2) P.rounds.rP extra he x
  have hN : sboxesOf P.rounds (k + 1) = 2 * (P.rounds.rF / 2) * (k + 1) + P.rounds.rP := by rw [sboxesOf]; ring
  have hx : rows * (k + 1) = (P.rounds.rP * k + extra * (k + 1)) + (2 * (P.rounds.rF / 2) * (k + 1) + P.rounds.rP) :=
    (congrArg (· * (k + 1)) he).trans (by ring)
  rw [hN, hx, pow_add (Fintype.card F) (P.rounds.rP * k + extra * (k + 1))]
  refine (congrArg (· * _) hc).trans ?_
  ring

/-- What does not return panics; a bound for the number of the tables. -/
theorem C118_tables_panic [Fintype F] (P : Params F (k + 1) tm1 nmds nhat rows (k + 1) nround npart) (hi : P.alpha = .inverse) (hk : 1 ≤ k)
    (hm : nmds = (k + 1) * (k + 1)) (ha : nround = rows * (k + 1)) (hrows : P.rounds.rF / 2 + P.rounds.rP + P.rounds.rF / 2 ≤ rows)
    (s : Vector F (k + 1)) (x : Fin (k + 1) → F) :
    countTables (fun A => Instance.unoptimizedNTo1FixedHash ⟨{ P with arc := Mat.ofM ha A }, s⟩ (Vector.ofFn x) = .error .divZero) *
        Fintype.card F ≤ sboxesOf P.rounds (k + 1) * Fintype.card F ^ (rows * (k + 1)) := by
  classical
  have h1 := C118_tables P hi hk hm ha hrows s x
  set Q : Matrix (Fin rows) (Fin (k + 1)) F → Prop := fun A =>
    ∃ r, Instance.unoptimizedNTo1FixedHash ⟨{ P with arc := Mat.ofM ha A }, s⟩ (Vector.ofFn x) = .ok r with hQ
  have h2 : countTables (fun A => Instance.unoptimizedNTo1FixedHash ⟨{ P with arc := Mat.ofM ha A }, s⟩ (Vector.ofFn x) = .error .divZero) =
      countTables (fun A => ¬ Q A) := by
    refine countTables_congr fun A => ?_
    have h := unoptimized_textbook { P with arc := Mat.ofM ha A } hk hm ha hrows s x
    rw [h.2]
    simp only [hQ]
    rw [h.1, not_not]
  have h3 : countTables Q + countTables (fun A => ¬ Q A) = Fintype.card F ^ (rows * (k + 1)) := by
    unfold countTables
    rw [Nat.card_eq_fintype_card, Nat.card_eq_fintype_card, Fintype.card_subtype_compl]
    have hle := Fintype.card_subtype_le Q
    have : Fintype.card (Matrix (Fin rows) (Fin (k + 1)) F) = Fintype.card F ^ (rows * (k + 1)) := by
      show Fintype.card (Fin rows → Fin (k + 1) → F) = _
      rw [Fintype.card_fun, Fintype.card_fun, Fintype.card_fin, Fintype.card_fin, ← pow_mul, mul_comm]
    omega
  rw [h2]
  generalize countTables Q = c at h1 h3
  generalize countTables (fun A => ¬ Q A) = d at h3
  rw [← h3] at h1 ⊢
  have hp : 0 < Fintype.card F := Fintype.card_pos
  obtain ⟨u, hu⟩ : ∃ u, Fintype.card F = u + 1 := ⟨Fintype.card F - 1, by omega⟩
  rw [hu, Nat.add_sub_cancel] at h1
  rw [hu]
  generalize sboxesOf P.rounds (k + 1) = N at h1 ⊢
  -- c * (u + 1) ^ N = u ^ N * (c + d), so d / (c + d) = 1 - (u / (u + 1)) ^ N ≤ N / (u + 1)
  have hb : ∀ N : Nat, (u + 1) * (u + 1) ^ N ≤ (u + 1) * u ^ N + N * (u + 1) ^ N := by
    intro N
    induction N with
    | zero => simp
    | succ N ih =>
      have h5 : u ^ N ≤ (u + 1) ^ N := Nat.pow_le_pow_left (Nat.le_succ u) N
      calc (u + 1) * (u + 1) ^ (N + 1) = (u + 1) * ((u + 1) * (u + 1) ^ N) := by ring
        _ ≤ (u + 1) * ((u + 1) * u ^ N + N * (u + 1) ^ N) := Nat.mul_le_mul_left _ ih
        _ = (u + 1) * u ^ (N + 1) + (u + 1) * u ^ N + N * (u + 1) ^ (N + 1) := by ring
        _ ≤ (u + 1) * u ^ (N + 1) + (u + 1) * (u + 1) ^ N + N * (u + 1) ^ (N + 1) := by gcongr
        _ = _ := by ring
  have h6 : d * (u + 1) * (u + 1) ^ N ≤ N * (c + d) * (u + 1) ^ N := by
    have h7 : (c + d) * ((u + 1) * (u + 1) ^ N) ≤ (c + d) * ((u + 1) * u ^ N + N * (u + 1) ^ N) := Nat.mul_le_mul_left _ (hb N)
    have h8 : (c + d) * ((u + 1) * u ^ N) = (u + 1) * (c * (u + 1) ^ N) := by rw [h1]; ring
    have h9 : (c + d) * ((u + 1) * (u + 1) ^ N) = (u + 1) * (c * (u + 1) ^ N) + d * (u + 1) * (u + 1) ^ N := by ring
    rw [h9, mul_add (c + d), h8] at h7
    have := Nat.le_of_add_le_add_left h7
    calc _ ≤ _ := this
      _ = _ := by ring
  exact Nat.le_of_mul_le_mul_right h6 (Nat.pow_pos (Nat.succ_pos u))

/-- **C118, the tables, generated parameters.** The same holds of the optimized hash, for parameters from `v1::generate`. -/
theorem C118_tables_generated [Fintype F] {L : Libm} {debug : Bool} {nlimbs p security : Nat} {allow : Bool} [CharP F p]
    {P : Params F (k + 1) k nmds nhat rows (k + 1) nround npart} (g : GeneratedBy L debug nlimbs p security allow P) (hi : P.alpha = .inverse)
    (debug' : Bool) (x : Fin (k + 1) → F) :
    countTables (fun A => ∃ d, hashWith debug' P g.nround_eq A (Vector.ofFn x) = .ok d) * Fintype.card F ^ sboxesOf P.rounds (k + 1) =
      (Fintype.card F - 1) ^ sboxesOf P.rounds (k + 1) * Fintype.card F ^ (rows * (k + 1)) := by
  have r := v1Generate_result g.accurate g.log2_two debug g.limbs g.bits g.nmds_eq g.nhat_eq g.nround_eq g.run
  obtain ⟨hrows, -⟩ := generated_rows g
  have hk : 1 ≤ k := by have := r.width; omega
  rw [← C118_tables P hi hk g.nmds_eq g.nround_eq hrows.ge (Vector.replicate (k + 1) 0) x]
  congr 1
  refine countTables_congr fun A => ?_
  obtain ⟨oarc, h1, h2⟩ := hashWith_unoptimized g debug' A
  rw [(unoptimized_textbook { P with arc := Mat.ofM g.nround_eq A } hk g.nmds_eq g.nround_eq hrows.ge (Vector.replicate (k + 1) 0) x).1]
  rw [hashWith, h1]
  dsimp only [bind, Except.bind]
  rw [Instance.new, h2]
  have h3 := (unoptimized_textbook { P with arc := Mat.ofM g.nround_eq A, optimizedArc := oarc } hk g.nmds_eq g.nround_eq hrows.ge
    (Vector.replicate (k + 1) 0) x).1
  refine Iff.trans ?_ h3
  constructor
  · rintro ⟨d, hd⟩
    cases hr : Instance.unoptimizedNTo1FixedHash ⟨{ P with arc := Mat.ofM g.nround_eq A, optimizedArc := oarc }, Vector.replicate (k + 1) 0⟩ (Vector.ofFn x) with
    | error e => rw [hr] at hd; cases hd
    | ok r => exact ⟨r, rfl⟩
  · rintro ⟨r, hr⟩
    exact ⟨r.1, by rw [hr]; rfl⟩

/-- **C118, the inputs.** Let parameters have the inverse S-box, an invertible matrix and enough rows.  Of all inputs at most `N / p` make the
unoptimized hash panic; if there is a full round, at least `1 - ((p - 1) / p) ^ t` do. -/
theorem C118_inputs [Fintype F] (P : Params F (k + 1) tm1 nmds nhat rows (k + 1) nround npart) (hi : P.alpha = .inverse) (hk : 1 ≤ k)
    (hm : nmds = (k + 1) * (k + 1)) (ha : nround = rows * (k + 1)) (hrows : P.rounds.rF / 2 + P.rounds.rP + P.rounds.rF / 2 ≤ rows)
    (hdet : (P.mds.toM hm).det ≠ 0) (s : Vector F (k + 1)) :
    Nat.card {x : Fin (k + 1) → F // Instance.unoptimizedNTo1FixedHash ⟨P, s⟩ (Vector.ofFn x) = .error .divZero} * Fintype.card F ≤
        sboxesOf P.rounds (k + 1) * Fintype.card F ^ (k + 1) ∧
    (2 ≤ P.rounds.rF → Fintype.card F ^ (k + 1) ≤
      Nat.card {x : Fin (k + 1) → F // Instance.unoptimizedNTo1FixedHash ⟨P, s⟩ (Vector.ofFn x) = .error .divZero} + (Fintype.card F - 1) ^ (k + 1)) := by
  classical
  set C : Fin (P.rounds.rF / 2 + P.rounds.rP + P.rounds.rF / 2) → Fin (k + 1) → F :=
    fun r => P.arc.toM ha ⟨r.val, lt_of_lt_of_le r.isLt hrows⟩ with hC
  set Q : (Fin (k + 1) → F) → Prop := fun x => CleanT .inverse (P.mds.toM hm)
    (fun m => decide (m < P.rounds.rF / 2 ∨ P.rounds.rF / 2 + P.rounds.rP ≤ m)) C x (P.rounds.rF / 2 + P.rounds.rP + P.rounds.rF / 2) with hQ
  have h : ∀ x, Instance.unoptimizedNTo1FixedHash ⟨P, s⟩ (Vector.ofFn x) = .error .divZero ↔ ¬ Q x := by
    intro x
    rw [(unoptimized_textbook P hk hm ha hrows s x).2, hi, ← prefix_all]
    have h := prefix_runT (a := .inverse) (M := P.mds.toM hm) (C := C) le_rfl x _ le_rfl
    by_cases hc : Q x
    · exact ⟨fun h' => absurd ((h.1 hc).symm.trans h') nofun, fun h' => absurd hc h'⟩
    · exact ⟨fun _ => hc, fun _ => h.2 hc⟩
  have hcard : Nat.card {x : Fin (k + 1) → F // Instance.unoptimizedNTo1FixedHash ⟨P, s⟩ (Vector.ofFn x) = .error .divZero} =
      Nat.card {x // ¬ Q x} := Nat.card_congr (Equiv.subtypeEquivRight h)
  have hN : sboxesOf P.rounds (k + 1) = 2 * (P.rounds.rF / 2) * (k + 1) + P.rounds.rP := by rw [sboxesOf]; ring
  rw [hcard]
  refine ⟨?_, fun hf => ?_⟩
  · rw [hN, pow_succ, ← mul_assoc]
    exact Nat.mul_le_mul_right _ (card_unclean hdet (P.rounds.rF / 2) P.rounds.rP C rfl)
  · have h1 := card_clean_inputs (M := P.mds.toM hm) (P.rounds.rF / 2) P.rounds.rP C (by omega) rfl
    have h3 : Nat.card {x // Q x} + Nat.card {x // ¬ Q x} = Fintype.card F ^ (k + 1) := by
      rw [Nat.card_eq_fintype_card, Nat.card_eq_fintype_card, Fintype.card_subtype_compl]
      have hle := Fintype.card_subtype_le Q
      have : Fintype.card (Fin (k + 1) → F) = Fintype.card F ^ (k + 1) := by rw [Fintype.card_fun, Fintype.card_fin]
      omega
    have h1 : Nat.card {x // Q x} ≤ (Fintype.card F - 1) ^ (k + 1) := h1
    omega

/-- **C118, the inputs, generated parameters.** The same holds of the optimized hash with parameters from `v1::generate`, as they are: some inputs
always panic, and not more than `N / p` of them. -/
theorem C118_inputs_generated [Fintype F] {L : Libm} {debug : Bool} {nlimbs p security : Nat} {allow : Bool} [CharP F p]
    {P : Params F (k + 1) k nmds nhat rows (k + 1) nround npart} (g : GeneratedBy L debug nlimbs p security allow P) (hi : P.alpha = .inverse)
    (s : Vector F (k + 1)) :
    Nat.card {x : Fin (k + 1) → F // Instance.nTo1FixedHash ⟨P, s⟩ (Vector.ofFn x) = .error .divZero} * Fintype.card F ≤
        sboxesOf P.rounds (k + 1) * Fintype.card F ^ (k + 1) ∧
    Fintype.card F ^ (k + 1) ≤
      Nat.card {x : Fin (k + 1) → F // Instance.nTo1FixedHash ⟨P, s⟩ (Vector.ofFn x) = .error .divZero} + (Fintype.card F - 1) ^ (k + 1) := by
  have r := v1Generate_result g.accurate g.log2_two debug g.limbs g.bits g.nmds_eq g.nhat_eq g.nround_eq g.run
  obtain ⟨hrows, hrf⟩ := generated_rows g
  have hk : 1 ≤ k := by have := r.width; omega
  have hdet : (P.mds.toM g.nmds_eq).det ≠ 0 := by
    rw [r.mds]
    have := numBits_ge r.bits
    have h2 : 24 ≤ 2 ^ 127 := by norm_num
    have := r.width
    exact cauchy_det (p := p) (by omega)
  have h := C118_inputs P hi hk g.nmds_eq g.nround_eq hrows.ge hdet s
  have e : ∀ x, Instance.nTo1FixedHash ⟨P, s⟩ x = Instance.unoptimizedNTo1FixedHash ⟨P, s⟩ x :=
    fun x => C01_derived P g.nmds_eq g.nhat_eq g.nround_eq r.derivedMds r.derivedArc hrows.ge r.part r.npart_eq.ge s x
  simp only [e]
  exact ⟨h.1, h.2 (by omega)⟩

/-! ### Cases that meet the hypotheses -/

/-- The shipped tables for three words with the inverse S-box: 63 S-boxes, so of `q ^ 4` inputs at most `63 q ^ 3` panic, and some do. -/
example (s : Vector Fq 4) :
    Nat.card {x : Fin 4 → Fq // Instance.unoptimizedNTo1FixedHash ⟨{ shippedParams 2 with alpha := .inverse }, s⟩ (Vector.ofFn x) = .error .divZero} * q ≤
      63 * q ^ 4 ∧
    q ^ 4 ≤ Nat.card {x : Fin 4 → Fq // Instance.unoptimizedNTo1FixedHash ⟨{ shippedParams 2 with alpha := .inverse }, s⟩ (Vector.ofFn x) =
      .error .divZero} + (q - 1) ^ 4 := by
  have hr : ({ shippedParams 2 with alpha := .inverse } : Params Fq _ _ _ _ _ _ _ _).rounds = ⟨31, 8⟩ := shipped_rounds 2
  have h := C118_inputs (k := 3) { shippedParams 2 with alpha := .inverse } rfl (by norm_num) rfl rfl
    (by rw [hr]; decide) (by
      show ((shippedParams 2).mds.toM rfl).det ≠ 0
      rw [shipped_mds_cauchy]
      have : CharP Fq q := charP_of_card_eq_prime (hp := ⟨q_prime⟩) card_Fq
      exact cauchy_det (k := 3) (p := q) (by decide +kernel)) s
  rw [card_Fq, hr] at h
  exact ⟨h.1, h.2 (by norm_num)⟩

/-- For a given input, the tables with which it does not panic. -/
example (s : Vector Fq 4) (x : Fin 4 → Fq) :
    countTables (fun A => ∃ r, Instance.unoptimizedNTo1FixedHash ⟨{ shippedParams 2 with alpha := .inverse, arc := Mat.ofM rfl A }, s⟩ (Vector.ofFn x) = .ok r) *
        q ^ 63 = (q - 1) ^ 63 * q ^ (39 * 4) := by
  have hr : ({ shippedParams 2 with alpha := .inverse } : Params Fq _ _ _ _ _ _ _ _).rounds = ⟨31, 8⟩ := shipped_rounds 2
  have h := C118_tables (k := 3) { shippedParams 2 with alpha := .inverse } rfl (by norm_num) rfl rfl (by rw [hr]; decide) s x
  rw [card_Fq, hr] at h
  exact h

/-- The generator does return the inverse S-box for some fields. -/
example : haveI := Fact.mk inverseModulus_prime
    ∃ rows npart, ∃ P : Params (ZMod inverseModulus) 3 2 9 4 rows 3 (rows * 3) npart,
      GeneratedBy roundedLibm true 2 inverseModulus 128 true P ∧ P.alpha = .inverse := by
  have := Fact.mk inverseModulus_prime
  have hi : alphaGenerate inverseModulus true = .ok .inverse := by decide +kernel
  have hl2 : roundedLibm.log2 2 = 1 := by
    show rne (Real.logb 2 2) = 1
    rw [Real.logb_self_eq_one (by norm_num)]
    simpa using rne_natCast (n := 1) (by norm_num)
  obtain ⟨rP, rF, h6, -, h8⟩ := C49_full_rounds roundedLibm roundedLibm_accurate hl2 ⟨true, 128, 2 + 1, inverseModulus⟩
    (log2Big roundedLibm inverseModulus) .inverse (by norm_num) (by norm_num) (by norm_num) (by intro e h; cases h)
  obtain ⟨P, hP, hα, -⟩ := v1Generate_ok (F := ZMod inverseModulus) (nmds := 9) (nhat := 4) true (nlimbs := 2) (by norm_num)
    (p := inverseModulus) (by decide +kernel) rfl rfl hi h6 h8 (by norm_num) (by norm_num) (by decide +kernel)
  exact ⟨_, _, P, ⟨roundedLibm_accurate, hl2, by norm_num, by decide +kernel, rfl, rfl, rfl, hP⟩, hα⟩

end Poseidon
