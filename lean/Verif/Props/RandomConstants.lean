import Verif.Spec.RandomConstants
import Verif.Proofs.RandomConstants
import Verif.Props.Trail

/-!
# C114: hashing with random round constants

Were the round constants of a generated parameter set replaced by a uniformly random table, the hash would be an almost universal
family of functions: the statements below count, without any assumption about the permutation, the tables for which a digest, a
difference of digests or a collision occurs.
-/

set_option linter.unusedSectionVars false

namespace Poseidon

open scoped Matrix

variable {F : Type} [Field F] [DecidableEq F] {k rows nmds nhat nround npart : Nat}

/-! ## The code is the textbook permutation with the constants given -/

section
variable {L : Libm} {debug : Bool} {nlimbs p security : Nat} {allow : Bool}
  {P : Params F (k + 1) k nmds nhat rows (k + 1) nround npart}

/-- Which rounds are full. -/
def fullRound (P : Params F (k + 1) k nmds nhat rows (k + 1) nround npart) (m : Nat) : Bool :=
  decide (m < P.rounds.rF / 2 ∨ P.rounds.rF / 2 + P.rounds.rP ≤ m)

theorem generated_rows [CharP F p] (g : GeneratedBy L debug nlimbs p security allow P) :
    rows = P.rounds.rF / 2 + P.rounds.rP + P.rounds.rF / 2 ∧ 4 ≤ P.rounds.rF / 2 := by
  have r := v1Generate_result g.accurate g.log2_two debug g.limbs g.bits g.nmds_eq g.nhat_eq g.nround_eq g.run
  have h : rows = P.rounds.rP + P.rounds.rF := r.rows_eq
  rcases r.full with h1 | h1 <;> constructor <;> omega

theorem withConstants_run [CharP F p] (g : GeneratedBy L debug nlimbs p security allow P) {e : Nat} (he : P.alpha = .exponent e)
    (debug' : Bool) (A : Matrix (Fin rows) (Fin (k + 1)) F) :
    ∃ P', P.withConstants debug' g.nround_eq A = .ok P' ∧ ∀ (s : Vector F (k + 1)) (x : Fin (k + 1) → F),
      Instance.nTo1FixedHash ⟨P', s⟩ (Vector.ofFn x) =
        .ok (runE e (P.mds.toM g.nmds_eq) (fullRound P) A x rows 1, ⟨P', Vector.ofFn (runE e (P.mds.toM g.nmds_eq) (fullRound P) A x rows)⟩) := by
  have r := v1Generate_result g.accurate g.log2_two debug g.limbs g.bits g.nmds_eq g.nhat_eq g.nround_eq g.run
  obtain ⟨hrows, hrf⟩ := generated_rows g
  have hw := r.width
  have heven : P.rounds.rF % 2 = 0 := by rcases r.full with h | h <;> omega
  obtain ⟨⟨o, ho⟩, oarc, hoarc⟩ := C36_cauchy debug' (p := p) r.bits hw.1 hw.2 g.nhat_eq g.nmds_eq g.nround_eq P.mds
    (by intro i j; rw [r.mds, cauchyMds, Matrix.of_apply, one_div]) P.rounds r.part r.rows_eq.ge (Mat.ofM g.nround_eq A)
  have hdet : (P.mds.toM g.nmds_eq).det ≠ 0 := by
    rw [r.mds]
    have := numBits_ge r.bits
    have h2 : 24 ≤ 2 ^ 127 := by norm_num
    exact cauchy_det (p := p) (by omega)
  have dA := genParams_derivedArc debug' g.nmds_eq g.nround_eq P.security P.alpha P.rounds P.mds (Mat.ofM g.nround_eq A) oarc o
    hw.2 hdet heven r.part r.rows_eq.ge hoarc
  set P' : Params F (k + 1) k nmds nhat rows (k + 1) nround npart :=
    { P with arc := Mat.ofM g.nround_eq A, optimizedArc := oarc } with hP'
  refine ⟨P', ?_, ?_⟩
  · rw [Params.withConstants, hoarc]
    rfl
  intro s x
  have d1 : DerivedMds P' g.nmds_eq g.nhat_eq := by
    have d := r.derivedMds
    exact ⟨d.mHat, d.v, d.w, d.m00, d.mPrime, d.mDoublePrime, d.factor, d.mInverse, d.mHatInverse, d.vCollection, d.wHatCollection, d.mI⟩
  have d2 : DerivedArc P' g.nmds_eq g.nround_eq := ⟨dA.full_pre, dA.full_post, dA.partial_zero, dA.moved⟩
  rw [C01_derived P' g.nmds_eq g.nhat_eq g.nround_eq d1 d2 hrows.ge r.part r.npart_eq.ge]
  have hu := unoptimizedPermute_eq P' (Nat.succ_pos k) g.nmds_eq g.nround_eq hrows.ge x
  have hA : P'.arc.toM g.nround_eq = A := Mat.toM_ofM _ _
  rw [hA] at hu
  have ht := textbook_runE (e := e) (M := P.mds.toM g.nmds_eq) (C := A) hrows x
  rw [← he] at ht
  have hu2 : unoptimizedPermute P' (Vector.ofFn x) =
      .ok (Vector.ofFn (runE e (P.mds.toM g.nmds_eq) (fullRound P) A x rows)) := by
    rw [hu]
    exact congrArg reported ht
  rw [Instance.unoptimizedNTo1FixedHash, setState_eq]
  dsimp only [bind, Except.bind]
  rw [hu2]
  dsimp only
  have h1 : (1 : Nat) < k + 1 := by omega
  have h1' : ((1 : Fin (k + 1)) : Nat) = 1 := by
    rw [Fin.val_one']
    exact Nat.mod_eq_of_lt h1
  have : (⟨1, h1⟩ : Fin (k + 1)) = 1 := Fin.ext h1'.symm
  rw [aget_ofFn _ h1, this]
  rfl

theorem hashWith_eq [CharP F p] (g : GeneratedBy L debug nlimbs p security allow P) {e : Nat} (he : P.alpha = .exponent e)
    (debug' : Bool) (A : Matrix (Fin rows) (Fin (k + 1)) F) (x : Fin (k + 1) → F) :
    hashWith debug' P g.nround_eq A (Vector.ofFn x) = .ok (runE e (P.mds.toM g.nmds_eq) (fullRound P) A x rows 1) := by
  obtain ⟨P', h1, h2⟩ := withConstants_run g he debug' A
  rw [hashWith, h1]
  dsimp only [bind, Except.bind]
  rw [Instance.new, h2]
  rfl

theorem wordsWith_eq [CharP F p] (g : GeneratedBy L debug nlimbs p security allow P) {e : Nat} (he : P.alpha = .exponent e)
    (debug' : Bool) (A : Matrix (Fin rows) (Fin (k + 1)) F) (x : Fin (k + 1) → F) :
    wordsWith debug' P g.nround_eq A (Vector.ofFn x) = .ok (Vector.ofFn (runE e (P.mds.toM g.nmds_eq) (fullRound P) A x rows)) := by
  obtain ⟨P', h1, h2⟩ := withConstants_run g he debug' A
  rw [wordsWith, h1]
  dsimp only [bind, Except.bind]
  rw [Instance.new, h2]
  rfl

theorem generated_layers [Fintype F] (hpp : p.Prime) (hF : Fintype.card F = p) (g : GeneratedBy L debug nlimbs p security allow P)
    {e : Nat} (he : P.alpha = .exponent e) : 3 ≤ e ∧ e ≤ 43 ∧ 43 < p ∧ GoodLayers e (e - 1) (P.mds.toM g.nmds_eq) := by
  have : Fact p.Prime := ⟨hpp⟩
  have : CharP F p := charP_of_card_eq_prime hF
  have r := v1Generate_result g.accurate g.log2_two debug g.limbs g.bits g.nmds_eq g.nhat_eq g.nround_eq g.run
  have hp := numBits_ge r.bits
  have hlt : 43 < 2 ^ 127 := by norm_num
  have h1 := C68_sbox_generated (F := F) g 1 0 one_ne_zero ∅ (by simp)
  rw [he] at h1
  obtain ⟨h3, h43, -⟩ := h1
  refine ⟨h3, h43, by omega, (C31_bijective hpp allow (he ▸ r.alpha) F hF).1, ?_, ?_⟩
  · intro a b ha
    refine C68_sbox (by omega) ?_ a b ha _ fun x hx => (Finset.mem_filter.1 hx).2
    intro h
    have := Nat.le_of_dvd (by omega) ((CharP.cast_eq_zero_iff F p e).1 h)
    omega
  · rw [r.mds]
    exact cauchy_isMDS_generated (p := p) r.bits r.width.2

/-! ## Counting -/

theorem countTables_le [Fintype F] {rows t : Nat} {Q : Matrix (Fin rows) (Fin t) F → Prop} {N : Nat}
    (h : ∀ S : Finset (Fin rows → Fin t → F), (∀ A ∈ S, Q A) → S.card ≤ N) : countTables Q ≤ N := by
  classical
  have h1 := h (Finset.univ.filter fun A : Fin rows → Fin t → F => Q A) (fun A hA => (Finset.mem_filter.1 hA).2)
  rw [countTables, Nat.card_eq_fintype_card, Fintype.card_subtype]
  exact h1

/-- Properties that every table has exactly one of: if each has at most `N` tables, and `N` times their number is the number of
tables, each has exactly `N`. -/
theorem countTables_eq [Fintype F] {rows t : Nat} {Y : Type} [Fintype Y] (f : Matrix (Fin rows) (Fin t) F → Y) {N : Nat}
    (hN : N * Fintype.card Y = Fintype.card F ^ (rows * t))
    (h : ∀ y, countTables (fun A => f A = y) ≤ N) (y : Y) : countTables (fun A => f A = y) = N := by
  classical
  have hc : ∀ y, countTables (fun A => f A = y) = (Finset.univ.filter fun A : Matrix (Fin rows) (Fin t) F => f A = y).card := by
    intro y
    rw [countTables, Nat.card_eq_fintype_card, Fintype.card_subtype]
  have hsum : ∑ y, countTables (fun A => f A = y) = Fintype.card F ^ (rows * t) := by
    simp only [hc]
    rw [← Finset.card_eq_sum_card_fiberwise (s := Finset.univ) (t := Finset.univ) (f := f) (fun _ _ => Finset.mem_coe.2 (Finset.mem_univ _)), Finset.card_univ]
    show Fintype.card (Fin rows → Fin t → F) = _
    rw [Fintype.card_fun, Fintype.card_fun, Fintype.card_fin, Fintype.card_fin, ← pow_mul, mul_comm]
  by_contra hne
  have hlt : countTables (fun A => f A = y) < N := lt_of_le_of_ne (h y) hne
  have : ∑ y, countTables (fun A => f A = y) < ∑ _y : Y, N :=
    Finset.sum_lt_sum (fun y _ => h y) ⟨y, Finset.mem_univ _, hlt⟩
  rw [hsum, Finset.sum_const, Finset.card_univ, smul_eq_mul, mul_comm (Fintype.card Y), hN] at this
  exact lt_irrefl _ this

end

/-! ## C114 -/

section
variable {L : Libm} {debug : Bool} {nlimbs p security : Nat} {allow : Bool}
  {P : Params F (k + 1) k nmds nhat rows (k + 1) nround npart}

/-- **C114.** Every table of round constants gives a hash that returns, -/
theorem C114_returns [CharP F p] (g : GeneratedBy L debug nlimbs p security allow P) {e : Nat} (he : P.alpha = .exponent e)
    (debug' : Bool) (A : Matrix (Fin rows) (Fin (k + 1)) F) (input : Vector F (k + 1)) :
    (∃ d, hashWith debug' P g.nround_eq A input = .ok d) ∧ ∃ w, wordsWith debug' P g.nround_eq A input = .ok w := by
  have hin : input = Vector.ofFn fun i : Fin (k + 1) => input[i] := by ext i hi; simp
  rw [hin]
  exact ⟨⟨_, hashWith_eq g he debug' A _⟩, ⟨_, wordsWith_eq g he debug' A _⟩⟩

/-- it is the digest and state of `unoptimized_n_to_1_fixed_hash` too, whatever optimized constants are next to the table, -/
theorem C114_unoptimized [CharP F p] (g : GeneratedBy L debug nlimbs p security allow P) {e : Nat} (he : P.alpha = .exponent e)
    (debug' : Bool) (A : Matrix (Fin rows) (Fin (k + 1)) F) (oarc : Mat F rows (k + 1) nround) (s input : Vector F (k + 1)) :
    ∃ d inst, Instance.unoptimizedNTo1FixedHash ⟨{ P with arc := Mat.ofM g.nround_eq A, optimizedArc := oarc }, s⟩ input = .ok (d, inst) ∧
      hashWith debug' P g.nround_eq A input = .ok d ∧ wordsWith debug' P g.nround_eq A input = .ok inst.outputWords := by
  have hin : input = Vector.ofFn fun i : Fin (k + 1) => input[i] := by ext i hi; simp
  generalize (fun i : Fin (k + 1) => input[i]) = x at hin
  subst hin
  obtain ⟨hrows, hrf⟩ := generated_rows g
  have r := v1Generate_result g.accurate g.log2_two debug g.limbs g.bits g.nmds_eq g.nhat_eq g.nround_eq g.run
  have hw := r.width
  set P' : Params F (k + 1) k nmds nhat rows (k + 1) nround npart :=
    { P with arc := Mat.ofM g.nround_eq A, optimizedArc := oarc } with hP'
  have hu := unoptimizedPermute_eq P' (Nat.succ_pos k) g.nmds_eq g.nround_eq hrows.ge x
  have hA : P'.arc.toM g.nround_eq = A := Mat.toM_ofM _ _
  rw [hA] at hu
  have ht := textbook_runE (e := e) (M := P.mds.toM g.nmds_eq) (C := A) hrows x
  rw [← he] at ht
  have hu2 : unoptimizedPermute P' (Vector.ofFn x) =
      .ok (Vector.ofFn (runE e (P.mds.toM g.nmds_eq) (fullRound P) A x rows)) := by
    rw [hu]
    exact congrArg reported ht
  refine ⟨_, ⟨P', Vector.ofFn (runE e (P.mds.toM g.nmds_eq) (fullRound P) A x rows)⟩, ?_, hashWith_eq g he debug' A x,
    wordsWith_eq g he debug' A x⟩
  rw [Instance.unoptimizedNTo1FixedHash, setState_eq]
  dsimp only [bind, Except.bind]
  rw [hu2]
  dsimp only
  have h1 : (1 : Nat) < k + 1 := by omega
  have h1' : (⟨1, h1⟩ : Fin (k + 1)) = 1 := by
    ext
    rw [Fin.val_one']
    exact (Nat.mod_eq_of_lt h1).symm
  rw [aget_ofFn _ h1, h1']
  rfl

/-- every digest of an input comes from the same number of tables, -/
theorem C114_uniform [Fintype F] (hpp : p.Prime) (hF : Fintype.card F = p) (g : GeneratedBy L debug nlimbs p security allow P)
    {e : Nat} (he : P.alpha = .exponent e) (debug' : Bool) (x : Fin (k + 1) → F) (d : F) :
    countTables (fun A => hashWith debug' P g.nround_eq A (Vector.ofFn x) = .ok d) * p = p ^ (rows * (k + 1)) := by
  have : Fact p.Prime := ⟨hpp⟩
  have : CharP F p := charP_of_card_eq_prime hF
  obtain ⟨-, -, -, G⟩ := generated_layers hpp hF g he
  obtain ⟨hrows, hrf⟩ := generated_rows g
  have hlast : fullRound P (rows - 1) = true := by simp only [fullRound, decide_eq_true_eq]; omega
  simp only [hashWith_eq g he, Except.ok.injEq]
  have hN : p ^ (rows * (k + 1) - 1) * Fintype.card F = Fintype.card F ^ (rows * (k + 1)) := by
    rw [hF, ← pow_succ]
    congr 1
    have : 0 < rows * (k + 1) := Nat.mul_pos (by omega) (by omega)
    omega
  rw [countTables_eq (fun A => runE e (P.mds.toM g.nmds_eq) (fullRound P) A x rows 1) hN ?_ d]
  · rw [← hF] at hN ⊢; exact hN
  intro y
  refine countTables_le fun S hS => ?_
  refine (G.all_word (by omega) hlast x 1 y S hS).trans (le_of_eq ?_)
  rw [hF, ← pow_mul, ← pow_add]
  congr 1
  obtain ⟨m, rfl⟩ : ∃ m, rows = m + 1 := ⟨rows - 1, by omega⟩
  have : 0 < (m + 1) * (k + 1) := Nat.mul_pos (by omega) (by omega)
  rw [Nat.add_sub_cancel, Nat.add_sub_cancel]
  have : (m + 1) * (k + 1) = (k + 1) * m + (k + 1) := by ring
  omega

/-- as does every state the permutation can be left in. -/
theorem C114_uniform_state [Fintype F] (hpp : p.Prime) (hF : Fintype.card F = p) (g : GeneratedBy L debug nlimbs p security allow P)
    {e : Nat} (he : P.alpha = .exponent e) (debug' : Bool) (x : Fin (k + 1) → F) (w : Vector F (k + 1)) :
    countTables (fun A => wordsWith debug' P g.nround_eq A (Vector.ofFn x) = .ok w) * p ^ (k + 1) = p ^ (rows * (k + 1)) := by
  have : Fact p.Prime := ⟨hpp⟩
  have : CharP F p := charP_of_card_eq_prime hF
  obtain ⟨-, -, -, G⟩ := generated_layers hpp hF g he
  obtain ⟨hrows, hrf⟩ := generated_rows g
  have hlast : fullRound P (rows - 1) = true := by simp only [fullRound, decide_eq_true_eq]; omega
  have hw : ∀ s : Fin (k + 1) → F, Vector.ofFn s = w ↔ s = fun i : Fin (k + 1) => w[i] := by
    intro s
    constructor
    · rintro rfl; funext i; simp
    · rintro rfl; ext i hi; simp
  simp only [wordsWith_eq g he, Except.ok.injEq, hw]
  have hexp : p ^ ((k + 1) * (rows - 1)) * p ^ (k + 1) = p ^ (rows * (k + 1)) := by
    rw [← pow_add]
    congr 1
    obtain ⟨m, rfl⟩ : ∃ m, rows = m + 1 := ⟨rows - 1, by omega⟩
    rw [Nat.add_sub_cancel]
    ring
  have hN : p ^ ((k + 1) * (rows - 1)) * Fintype.card (Fin (k + 1) → F) = Fintype.card F ^ (rows * (k + 1)) := by
    rw [Fintype.card_fun, Fintype.card_fin, hF, hexp]
  rw [countTables_eq (fun A => runE e (P.mds.toM g.nmds_eq) (fullRound P) A x rows) hN ?_ _]
  · exact hexp
  intro y
  refine countTables_le fun S hS => ?_
  refine (G.all_state (by omega) hlast x y S hS).trans (le_of_eq ?_)
  rw [hF, ← pow_mul]

/-- The digests of two different inputs have any given difference for at most `(α - 1) / p` of the tables, -/
theorem C114_difference [Fintype F] (hpp : p.Prime) (hF : Fintype.card F = p) (g : GeneratedBy L debug nlimbs p security allow P)
    {e : Nat} (he : P.alpha = .exponent e) (debug' : Bool) (x y : Fin (k + 1) → F) (hxy : x ≠ y) (d : F) :
    countTables (fun A => ∃ a b, hashWith debug' P g.nround_eq A (Vector.ofFn x) = .ok a ∧
      hashWith debug' P g.nround_eq A (Vector.ofFn y) = .ok b ∧ a - b = d) * p ≤ (e - 1) * p ^ (rows * (k + 1)) := by
  have : Fact p.Prime := ⟨hpp⟩
  have : CharP F p := charP_of_card_eq_prime hF
  obtain ⟨-, -, -, G⟩ := generated_layers hpp hF g he
  obtain ⟨hrows, hrf⟩ := generated_rows g
  have hlast : fullRound P (rows - 1) = true := by simp only [fullRound, decide_eq_true_eq]; omega
  simp only [hashWith_eq g he, Except.ok.injEq, exists_and_left, exists_eq_left']
  have h : countTables (fun A => runE e (P.mds.toM g.nmds_eq) (fullRound P) A x rows 1 -
      runE e (P.mds.toM g.nmds_eq) (fullRound P) A y rows 1 = d) ≤ _ :=
    countTables_le fun S hS => G.all_two_words (by omega) hlast hxy 1 d S hS
  refine (Nat.mul_le_mul_right p h).trans (le_of_eq ?_)
  rw [hF]
  obtain ⟨m, rfl⟩ : ∃ m, rows = m + 1 := ⟨rows - 1, by omega⟩
  rw [Nat.add_sub_cancel, Nat.add_sub_cancel]
  ring

/-- so that of `n` different inputs some two collide for at most `n (n - 1) / 2 · (α - 1) / p` of them, -/
theorem C114_collision [Fintype F] (hpp : p.Prime) (hF : Fintype.card F = p) (g : GeneratedBy L debug nlimbs p security allow P)
    {e : Nat} (he : P.alpha = .exponent e) (debug' : Bool) {n : Nat} (X : Fin n → Fin (k + 1) → F) (hX : Function.Injective X) :
    countTables (fun A => ∃ i j, i ≠ j ∧ ∃ d, hashWith debug' P g.nround_eq A (Vector.ofFn (X i)) = .ok d ∧
      hashWith debug' P g.nround_eq A (Vector.ofFn (X j)) = .ok d) * (2 * p) ≤ n * (n - 1) * (e - 1) * p ^ (rows * (k + 1)) := by
  classical
  set Q : Fin n × Fin n → Matrix (Fin rows) (Fin (k + 1)) F → Prop := fun ij A => ∃ a b,
    hashWith debug' P g.nround_eq A (Vector.ofFn (X ij.1)) = .ok a ∧
    hashWith debug' P g.nround_eq A (Vector.ofFn (X ij.2)) = .ok b ∧ a - b = 0 with hQ
  set pairs : Finset (Fin n × Fin n) := Finset.univ.filter fun ij => ij.1 < ij.2 with hpairs
  have h1 : countTables (fun A => ∃ i j, i ≠ j ∧ ∃ d, hashWith debug' P g.nround_eq A (Vector.ofFn (X i)) = .ok d ∧
      hashWith debug' P g.nround_eq A (Vector.ofFn (X j)) = .ok d) ≤ ∑ ij ∈ pairs, countTables (Q ij) := by
    refine countTables_le fun S hS => ?_
    have : S ⊆ pairs.biUnion fun ij => Finset.univ.filter fun A : Fin rows → Fin (k + 1) → F => Q ij A := by
      intro A hA
      obtain ⟨i, j, hij, d, hi, hj⟩ := hS A hA
      rw [Finset.mem_biUnion]
      rcases lt_or_gt_of_ne hij with hlt | hlt
      · exact ⟨(i, j), Finset.mem_filter.2 ⟨Finset.mem_univ _, hlt⟩, Finset.mem_filter.2 ⟨Finset.mem_univ _, d, d, hi, hj, sub_self d⟩⟩
      · exact ⟨(j, i), Finset.mem_filter.2 ⟨Finset.mem_univ _, hlt⟩, Finset.mem_filter.2 ⟨Finset.mem_univ _, d, d, hj, hi, sub_self d⟩⟩
    refine (Finset.card_le_card this).trans (Finset.card_biUnion_le.trans (Finset.sum_le_sum fun ij _ => le_of_eq ?_))
    rw [countTables, Nat.card_eq_fintype_card, Fintype.card_subtype]
    rfl
  have h2 : ∀ ij ∈ pairs, countTables (Q ij) * p ≤ (e - 1) * p ^ (rows * (k + 1)) := by
    intro ij hij
    have hlt := (Finset.mem_filter.1 hij).2
    exact C114_difference hpp hF g he debug' (X ij.1) (X ij.2) (fun h => absurd (hX h) hlt.ne) 0
  have h3 : pairs.card * 2 ≤ n * (n - 1) := by
    have hinj : pairs.card = (pairs.image Prod.swap).card := (Finset.card_image_of_injective _ Prod.swap_injective).symm
    have hdis : Disjoint pairs (pairs.image Prod.swap) := by
      rw [Finset.disjoint_left]
      intro ij h1 h2
      obtain ⟨ji, h3, rfl⟩ := Finset.mem_image.1 h2
      have a := (Finset.mem_filter.1 h1).2
      have b := (Finset.mem_filter.1 h3).2
      exact absurd a (not_lt.2 b.le)
    have hsub : pairs ∪ pairs.image Prod.swap ⊆ (Finset.univ : Finset (Fin n)).offDiag := by
      intro ij h
      rw [Finset.mem_offDiag]
      rcases Finset.mem_union.1 h with h | h
      · exact ⟨Finset.mem_univ _, Finset.mem_univ _, (Finset.mem_filter.1 h).2.ne⟩
      · obtain ⟨ji, h3, rfl⟩ := Finset.mem_image.1 h
        exact ⟨Finset.mem_univ _, Finset.mem_univ _, (Finset.mem_filter.1 h3).2.ne'⟩
    have h4 := Finset.card_le_card hsub
    rw [Finset.card_union_of_disjoint hdis, ← hinj, Finset.offDiag_card, Finset.card_univ, Fintype.card_fin] at h4
    rw [Nat.mul_sub, mul_one]
    omega
  calc _ ≤ (∑ ij ∈ pairs, countTables (Q ij)) * (2 * p) := Nat.mul_le_mul_right _ h1
    _ = 2 * ∑ ij ∈ pairs, countTables (Q ij) * p := by rw [← Finset.sum_mul]; ring
    _ ≤ 2 * ∑ _ij ∈ pairs, (e - 1) * p ^ (rows * (k + 1)) := Nat.mul_le_mul_left _ (Finset.sum_le_sum h2)
    _ = pairs.card * 2 * ((e - 1) * p ^ (rows * (k + 1))) := by rw [Finset.sum_const, smul_eq_mul]; ring
    _ ≤ n * (n - 1) * ((e - 1) * p ^ (rows * (k + 1))) := Nat.mul_le_mul_right _ h3
    _ = _ := by ring

/-- the states they leave have any given difference for at most `((α - 1) / p) ^ t` of them, -/
theorem C114_state_difference [Fintype F] (hpp : p.Prime) (hF : Fintype.card F = p)
    (g : GeneratedBy L debug nlimbs p security allow P) {e : Nat} (he : P.alpha = .exponent e) (debug' : Bool)
    (x y : Fin (k + 1) → F) (hxy : x ≠ y) (D : Fin (k + 1) → F) :
    countTables (fun A => ∃ a b : Fin (k + 1) → F, wordsWith debug' P g.nround_eq A (Vector.ofFn x) = .ok (Vector.ofFn a) ∧
      wordsWith debug' P g.nround_eq A (Vector.ofFn y) = .ok (Vector.ofFn b) ∧ a - b = D) * p ^ (k + 1) ≤
      (e - 1) ^ (k + 1) * p ^ (rows * (k + 1)) := by
  have : Fact p.Prime := ⟨hpp⟩
  have : CharP F p := charP_of_card_eq_prime hF
  obtain ⟨-, -, -, G⟩ := generated_layers hpp hF g he
  obtain ⟨hrows, hrf⟩ := generated_rows g
  have hlast : fullRound P (rows - 1) = true := by simp only [fullRound, decide_eq_true_eq]; omega
  have hlast2 : fullRound P (rows - 2) = true := by simp only [fullRound, decide_eq_true_eq]; omega
  have hinj : ∀ s s' : Fin (k + 1) → F, Vector.ofFn s = Vector.ofFn s' ↔ s = s' := by
    intro s s'
    constructor
    · intro h; funext i
      have := congrArg (fun v : Vector F (k + 1) => v[i]) h
      simpa using this
    · rintro rfl; rfl
  simp only [wordsWith_eq g he, Except.ok.injEq, hinj, exists_and_left, exists_eq_left']
  have h : countTables (fun A => runE e (P.mds.toM g.nmds_eq) (fullRound P) A x rows -
      runE e (P.mds.toM g.nmds_eq) (fullRound P) A y rows = D) ≤ _ :=
    countTables_le fun S hS => G.all_two_states (by omega) hlast hlast2 hxy D S hS
  refine (Nat.mul_le_mul_right (p ^ (k + 1)) h).trans (le_of_eq ?_)
  rw [hF]
  obtain ⟨m, rfl⟩ : ∃ m, rows = m + 2 := ⟨rows - 2, by omega⟩
  rw [Nat.add_sub_cancel]
  ring

/-- and they follow any given trail of differences through all the rounds for at most `((α - 1) / p) ^ N` of them, `N` being the
number of S-boxes C68 finds active. -/
theorem C114_trail [Fintype F] (hpp : p.Prime) (hF : Fintype.card F = p)
    (g : GeneratedBy L debug nlimbs p security allow P) {e : Nat} (he : P.alpha = .exponent e)
    (hr : P.rounds.rF / 2 + P.rounds.rP + P.rounds.rF / 2 ≤ rows)
    (x y : Fin (k + 1) → F) (hxy : x ≠ y) (Δ : Nat → Fin (k + 1) → F) :
    countTables (FollowsTrail P.alpha (P.mds.toM g.nmds_eq) (P.rounds.rF / 2) P.rounds.rP hr x y Δ) *
        p ^ (P.rounds.rF / 2 * (k + 2) + P.rounds.rP / (k + 1)) ≤
      (e - 1) ^ (P.rounds.rF / 2 * (k + 2) + P.rounds.rP / (k + 1)) * p ^ (rows * (k + 1)) := by
  have : Fact p.Prime := ⟨hpp⟩
  have : CharP F p := charP_of_card_eq_prime hF
  have r := v1Generate_result g.accurate g.log2_two debug g.limbs g.bits g.nmds_eq g.nhat_eq g.nround_eq g.run
  obtain ⟨h3, h43, hp, G⟩ := generated_layers hpp hF g he
  obtain ⟨hrows, hrf⟩ := generated_rows g
  set M := P.mds.toM g.nmds_eq with hM
  set rf := P.rounds.rF / 2 with hrfdef
  set rp := P.rounds.rP with hrpdef
  set N := rf * (k + 2) + rp / (k + 1) with hN
  -- the states of a table that follows the trail
  have hrun : ∀ A, FollowsTrail P.alpha M rf rp hr x y Δ A → ∀ m ≤ rows,
      runE e M (fullRound P) A x m - runE e M (fullRound P) A y m = Δ m := by
    intro A hA m hm
    obtain ⟨s, s', h1, h2, h4⟩ := hA m (by omega)
    rw [he] at h1 h2
    have h1 := (prefix_runE (e := e) (M := M) (C := A) hr x m (by omega)).symm.trans h1
    have h2 := (prefix_runE (e := e) (M := M) (C := A) hr y m (by omega)).symm.trans h2
    rw [← h4, ← Option.some.inj h1, ← Option.some.inj h2]
    rfl
  have hbound : ∀ S : Finset (Fin rows → Fin (k + 1) → F), (∀ A ∈ S, FollowsTrail P.alpha M rf rp hr x y Δ A) →
      S.card * p ^ N ≤ (e - 1) ^ N * p ^ (rows * (k + 1)) := by
    intro S hS
    rcases S.eq_empty_or_nonempty with rfl | ⟨A, hA⟩
    · simp
    have hc := G.trail (full := fullRound P) x y Δ S fun A hA => hrun A (hS A hA)
    rw [hF] at hc
    set a : Fin rows → Nat := fun m => (seen (fullRound P m) (Δ m) 0).card with ha
    have hle : ∀ m, a m ≤ k + 1 := fun m => (Finset.card_le_univ _).trans (by simp)
    -- the number of active S-boxes
    have hact : N ≤ ∑ m, a m := by
      set C : Fin (rf + rp + rf) → Fin (k + 1) → F := fun r => A ⟨r.val, lt_of_lt_of_le r.isLt hr⟩ with hC
      have hinj : Alpha.Injective F (.exponent e) := fun a b _ _ hab => G.inj hab
      have hw := r.width
      have hb := active_bound (Nat.succ_pos k) hinj G.mds
        (by rw [hM, r.mds]; exact cauchy_noInactiveTrail (p := p) r.bits hw.1 hw.2)
        (textbook_exponent e M rf rp C x) (textbook_exponent e M rf rp C y) hxy
      rw [active_sum (fun m hm => prefix_runE hr x m hm) (fun m hm => prefix_runE hr y m hm)] at hb
      have hsum : ∑ r ∈ Finset.range (rf + rp + rf), roundActive rf rp
          (runE e M (fun m => decide (m < rf ∨ rf + rp ≤ m)) A x) (runE e M (fun m => decide (m < rf ∨ rf + rp ≤ m)) A y) r = ∑ m, a m := by
        rw [← hrows, Finset.sum_range]
        refine Finset.sum_congr rfl fun m _ => ?_
        rw [ha, roundActive]
        congr 1
        ext i
        have := hrun A (hS A hA) m m.isLt.le
        simp only [seen, Finset.mem_filter, Finset.mem_univ, true_and, Pi.zero_apply, ← this, Pi.sub_apply, ne_eq, sub_eq_zero]
        rfl
      rw [hsum] at hb
      refine le_trans (le_of_eq ?_) hb
      rw [hN]
      have : 2 * (rf / 2) = rf := by rcases r.full with h | h <;> omega
      rw [this]
    obtain ⟨Z, hZ⟩ := Nat.exists_eq_add_of_le hact
    have hprod : (∏ m : Fin rows, ((e - 1) ^ a m * p ^ (k + 1 - a m))) * p ^ (∑ m, a m) = (e - 1) ^ (∑ m, a m) * p ^ (rows * (k + 1)) := by
      rw [Finset.prod_mul_distrib, Finset.prod_pow_eq_pow_sum, Finset.prod_pow_eq_pow_sum, mul_assoc, ← pow_add, ← Finset.sum_add_distrib]
      congr 2
      rw [Finset.sum_congr rfl fun m _ => Nat.sub_add_cancel (hle m), Finset.sum_const, Finset.card_univ, Fintype.card_fin, smul_eq_mul]
    have h5 : S.card * p ^ (∑ m, a m) ≤ (e - 1) ^ (∑ m, a m) * p ^ (rows * (k + 1)) :=
      (Nat.mul_le_mul_right _ hc).trans hprod.le
    rw [hZ, pow_add p N Z, pow_add (e - 1) N Z] at h5
    have h6 : (e - 1) ^ Z ≤ p ^ Z := Nat.pow_le_pow_left (by omega) Z
    have h7 : S.card * p ^ N * p ^ Z ≤ (e - 1) ^ N * p ^ (rows * (k + 1)) * p ^ Z := by
      calc S.card * p ^ N * p ^ Z = S.card * (p ^ N * p ^ Z) := by ring
        _ ≤ (e - 1) ^ N * (e - 1) ^ Z * p ^ (rows * (k + 1)) := h5
        _ = (e - 1) ^ N * p ^ (rows * (k + 1)) * (e - 1) ^ Z := by ring
        _ ≤ _ := Nat.mul_le_mul_left _ h6
    exact Nat.le_of_mul_le_mul_right h7 (Nat.pow_pos (by omega))
  classical
  rw [countTables, Nat.card_eq_fintype_card, Fintype.card_subtype]
  exact hbound (Finset.univ.filter fun A => FollowsTrail P.alpha M rf rp hr x y Δ A) fun A hA => (Finset.mem_filter.1 hA).2

end

/-! ## C114 for the shipped parameters -/

theorem shipped_generatedBy (i : Fin 7) : GeneratedBy roundedLibm true 4 q 128 true (shippedParams i) where
  accurate := roundedLibm_accurate
  log2_two := by
    show rne (Real.logb 2 2) = 1
    rw [Real.logb_self_eq_one (by norm_num)]
    simpa using rne_natCast (n := 1) (by norm_num)
  limbs := by norm_num
  bits := by decide +kernel
  nmds_eq := rfl
  nhat_eq := rfl
  nround_eq := rfl
  run := C20_shipped _ roundedLibm_accurate _ _ i

/-- **C114, shipped.** With a random table of constants in the place of the shipped one, a digest is uniformly distributed, -/
theorem C114_shipped_uniform (i : Fin 7) (debug : Bool) (x : Fin (i.val + 1 + 1) → Fq) (d : Fq) :
    countTables (fun A => hashWith debug (shippedParams i) rfl A (Vector.ofFn x) = .ok d) * q = q ^ (39 * (i.val + 2)) :=
  C114_uniform q_prime card_Fq (shipped_generatedBy i) (shipped_alpha i) debug x d

/-- the digests of two different inputs have a given difference with probability at most `16 / q`, -/
theorem C114_shipped_difference (i : Fin 7) (debug : Bool) (x y : Fin (i.val + 1 + 1) → Fq) (hxy : x ≠ y) (d : Fq) :
    countTables (fun A => ∃ a b, hashWith debug (shippedParams i) rfl A (Vector.ofFn x) = .ok a ∧
      hashWith debug (shippedParams i) rfl A (Vector.ofFn y) = .ok b ∧ a - b = d) * q ≤ 16 * q ^ (39 * (i.val + 2)) :=
  C114_difference q_prime card_Fq (shipped_generatedBy i) (shipped_alpha i) debug x y hxy d

/-- `n` different inputs have a collision with probability at most `8 n (n - 1) / q`, -/
theorem C114_shipped_collision (i : Fin 7) (debug : Bool) {n : Nat} (X : Fin n → Fin (i.val + 1 + 1) → Fq) (hX : Function.Injective X) :
    countTables (fun A => ∃ a b, a ≠ b ∧ ∃ d, hashWith debug (shippedParams i) rfl A (Vector.ofFn (X a)) = .ok d ∧
      hashWith debug (shippedParams i) rfl A (Vector.ofFn (X b)) = .ok d) * q ≤ 8 * (n * (n - 1)) * q ^ (39 * (i.val + 2)) := by
  have h := C114_collision q_prime card_Fq (shipped_generatedBy i) (shipped_alpha i) debug X hX
  generalize countTables _ = c at h ⊢
  have h1 : c * q * 2 ≤ 8 * (n * (n - 1)) * q ^ (39 * (i.val + 2)) * 2 := by
    calc c * q * 2 = c * (2 * q) := by ring
      _ ≤ n * (n - 1) * (17 - 1) * q ^ (39 * (i.val + 1 + 1)) := h
      _ = _ := by ring
  exact Nat.le_of_mul_le_mul_right h1 (by norm_num)

/-- the states they leave have a given difference with probability at most `(16 / q) ^ t`, -/
theorem C114_shipped_state_difference (i : Fin 7) (debug : Bool) (x y D : Fin (i.val + 1 + 1) → Fq) (hxy : x ≠ y) :
    countTables (fun A => ∃ a b : Fin (i.val + 1 + 1) → Fq, wordsWith debug (shippedParams i) rfl A (Vector.ofFn x) = .ok (Vector.ofFn a) ∧
      wordsWith debug (shippedParams i) rfl A (Vector.ofFn y) = .ok (Vector.ofFn b) ∧ a - b = D) * q ^ (i.val + 2) ≤
      16 ^ (i.val + 2) * q ^ (39 * (i.val + 2)) :=
  C114_state_difference q_prime card_Fq (shipped_generatedBy i) (shipped_alpha i) debug x y hxy D

theorem followsTrail_congr {a : Alpha} {M : Matrix (Fin (k + 1)) (Fin (k + 1)) F} {rf rf' rp rp' : Nat} (h : rf = rf') (h' : rp = rp')
    {hr : rf + rp + rf ≤ rows} (hr' : rf' + rp' + rf' ≤ rows) {x y : Fin (k + 1) → F} {Δ : Nat → Fin (k + 1) → F} :
    FollowsTrail a M rf rp hr x y Δ = FollowsTrail a M rf' rp' hr' x y Δ := by
  subst h h'
  rfl

/-- and follow a given trail with probability at most `(16 / q) ^ (4 (t + 1) + ⌊31 / t⌋)`. -/
theorem C114_shipped_trail (i : Fin 7) (x y : Fin (i.val + 1 + 1) → Fq) (hxy : x ≠ y) (Δ : Nat → Fin (i.val + 1 + 1) → Fq) :
    countTables (FollowsTrail (.exponent 17) (cauchyMds Fq (i.val + 2)) 4 31 (rows := 39) (by norm_num) x y Δ) *
        q ^ (4 * (i.val + 3) + 31 / (i.val + 2)) ≤ 16 ^ (4 * (i.val + 3) + 31 / (i.val + 2)) * q ^ (39 * (i.val + 2)) := by
  have h := C114_trail q_prime card_Fq (shipped_generatedBy i) (shipped_alpha i) (by rw [shipped_rounds]; norm_num) x y hxy Δ
  rw [followsTrail_congr (rf' := 4) (rp' := 31) (by rw [shipped_rounds]; rfl) (by rw [shipped_rounds]) (by norm_num)] at h
  simp only [shipped_alpha, shipped_mds_cauchy, shipped_rounds] at h
  exact h

/-- The shipped table is one of those counted: with it, `hashWith` is the shipped hash. -/
theorem C114_shipped_table (i : Fin 7) (debug : Bool) (input : Vector Fq (i.val + 1 + 1)) :
    ∃ d inst, (Instance.new (shippedParams i)).nTo1FixedHash input = .ok (d, inst) ∧
      hashWith debug (shippedParams i) rfl (shippedArc i) input = .ok d ∧
      wordsWith debug (shippedParams i) rfl (shippedArc i) input = .ok inst.outputWords := by
  have hin : input = Vector.ofFn fun j : Fin (i.val + 1 + 1) => input[j] := by ext j hj; simp
  generalize (fun j : Fin (i.val + 1 + 1) => input[j]) = x at hin
  subst hin
  have g := shipped_generatedBy i
  obtain ⟨hrows, -⟩ := generated_rows g
  have hu := unoptimizedPermute_eq (shippedParams i) (Nat.succ_pos (i.val + 1)) rfl rfl hrows.ge x
  have ht := textbook_runE (e := 17) (M := (shippedParams i).mds.toM rfl) (C := (shippedParams i).arc.toM rfl) hrows x
  rw [← shipped_alpha i] at ht
  have hp : permute (shippedParams i) (Vector.ofFn x) = .ok (Vector.ofFn (runE 17 ((shippedParams i).mds.toM rfl)
      (fullRound (k := i.val + 1) (shippedParams i)) (shippedArc i) x 39)) := by
    rw [permute_agree (shippedParams i) rfl rfl (shipped_consistent i), hu]
    exact congrArg reported ht
  refine ⟨_, ⟨shippedParams i, Vector.ofFn (runE 17 ((shippedParams i).mds.toM rfl)
    (fullRound (k := i.val + 1) (shippedParams i)) (shippedArc i) x 39)⟩, ?_, hashWith_eq g (shipped_alpha i) debug (shippedArc i) x,
    wordsWith_eq g (shipped_alpha i) debug (shippedArc i) x⟩
  rw [Instance.nTo1FixedHash, setState_eq]
  dsimp only [bind, Except.bind, Instance.new]
  rw [hp]
  dsimp only
  rw [aget_ofFn _ (show 1 < i.val + 1 + 1 by omega)]
  rfl

/-! ## The hypotheses are met -/

/-- Two inputs of the shipped rate-2 hash that differ in a bit. -/
example (debug : Bool) :
    countTables (fun A => ∃ a b, hashWith debug (shippedParams 1) rfl A (Vector.ofFn ![0, 0, 0]) = .ok a ∧
      hashWith debug (shippedParams 1) rfl A (Vector.ofFn ![0, 0, 1]) = .ok b ∧ a - b = 0) * q ≤ 16 * q ^ (39 * 3) :=
  C114_shipped_difference 1 debug ![0, 0, 0] ![0, 0, 1] (fun h => zero_ne_one (congrFun h 2)) 0

/-- Three inputs collide for few tables. -/
example (debug : Bool) :
    countTables (fun A => ∃ a b : Fin 3, a ≠ b ∧ ∃ d, hashWith debug (shippedParams 0) rfl A (Vector.ofFn ![(a.val : Fq), 0]) = .ok d ∧
      hashWith debug (shippedParams 0) rfl A (Vector.ofFn ![(b.val : Fq), 0]) = .ok d) * q ≤ 48 * q ^ (39 * 2) := by
  refine C114_shipped_collision 0 debug (fun a : Fin 3 => ![(a.val : Fq), 0]) ?_
  intro a b h
  have h0 : (a.val : Fq) = (b.val : Fq) := congrFun h 0
  have h1 := (CharP.natCast_eq_natCast Fq q).1 h0
  have hq : 3 < q := by decide +kernel
  rw [Nat.ModEq, Nat.mod_eq_of_lt (by omega), Nat.mod_eq_of_lt (by omega)] at h1
  exact Fin.ext h1

end Poseidon
