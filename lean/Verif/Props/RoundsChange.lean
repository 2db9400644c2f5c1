import Verif.Props.ConstantChange
import Verif.Props.CircuitFields
import Verif.Props.Separation

/-!
# Property C121: a wrong number of rounds, or a smaller exponent

What a hash with the round numbers of another parameter set has in common with a shipped one.
-/

set_option linter.unusedSectionVars false

namespace Poseidon

open Polynomial

theorem fullFlags_eq (rf rp : Nat) : fullFlags rf rp = List.replicate rf true ++ (List.replicate rp false ++ List.replicate rf true) := by
  apply List.ext_getElem
  · simp [fullFlags]
    omega
  · intro n h1 h2
    simp only [fullFlags, List.getElem_map, List.getElem_finRange, List.getElem_append, List.length_replicate, List.getElem_replicate]
    split_ifs with h3 h4
    · simp [h3]
    · simp
      omega
    · simp
      omega

/-- The leading coefficients with other round numbers. -/
theorem rounds_lead (i : Fin 7) {rf rp : Nat} (h1 : 1 ≤ rf) (h2 : rf + rp + rf ≤ 61) (a j : Fin (i.val + 2)) :
    leadRounds 17 (cauchyMds Fq (i.val + 2)) (fullFlags rf rp) (Pi.single j 1) a ≠ 0 := by
  rw [fullFlags_eq]
  rcases rp with - | m
  · rw [List.replicate_zero, List.nil_append, List.replicate_append_replicate]
    exact shipped_full_lead i (by omega) (by omega) a j
  · rw [leadRounds, List.foldl_append]
    obtain ⟨μ, h3, h4⟩ := leadRounds_partial (e := 17) (cauchyMds Fq (i.val + 2)) (shipped_entry i 0 0) (by norm_num) m (List.replicate rf true) _
      (shipped_full_lead i h1 (by omega) 0 j)
    rw [leadRounds, leadRounds] at h4
    rw [h4, Pi.smul_apply, smul_eq_mul]
    exact mul_ne_zero h3 (shipped_full_lead i (n := rf + 1) (by omega) (by omega) a 0)

section
variable {F : Type} [Field F] [DecidableEq F]

/-- What partial rounds do to the leading coefficient of word 0. -/
def partialLead (e : Nat) (c : F) : Nat → F → F
  | 0, l => l ^ e
  | m + 1, l => partialLead e c m (c * l ^ e)

theorem leadRounds_partialLead {k e : Nat} (M : Matrix (Fin (k + 1)) (Fin (k + 1)) F) (he : e ≠ 0) (m : Nat) (l : List Bool) (L : Fin (k + 1) → F) :
    leadRounds e M (List.replicate (m + 1) false ++ l) L = (partialLead e (M 0 0) m (L 0)) ^ e ^ l.length • leadRounds e M (true :: l) (Pi.single 0 1) := by
  induction m generalizing L with
  | zero =>
    rw [show leadRounds e M (List.replicate (0 + 1) false ++ l) L = leadRounds e M l (leadRound e M false L) from rfl,
      show leadRounds e M (true :: l) (Pi.single 0 1) = leadRounds e M l (leadRound e M true (Pi.single 0 1)) from rfl,
      leadRound_partial, leadRounds_smul, leadRound_single M 0 he, partialLead]
  | succ m ih =>
    rw [show leadRounds e M (List.replicate (m + 1 + 1) false ++ l) L = leadRounds e M (List.replicate (m + 1) false ++ l) (leadRound e M false L) from rfl,
      ih, leadRound_partial, partialLead, Pi.smul_apply, smul_eq_mul, mul_comm]

end

/-- `partialLead` on naturals -/
def partialLeadN (c n l : Nat) : Nat :=
  Nat.rec (motive := fun _ => Nat → Nat) (fun l => pow17N l) (fun _ ih l => force (c * pow17N l % q) ih) n l

theorem partialLeadN_cast (c n l : Nat) : ((partialLeadN c n l : Nat) : Fq) = partialLead 17 (c : Fq) n (l : Fq) := by
  induction n generalizing l with
  | zero => exact pow17N_cast l
  | succ n ih =>
    rw [show partialLeadN c (n + 1) l = force (c * pow17N l % q) (partialLeadN c n) from rfl, force_eq, ih, partialLead, cast_mod, Nat.cast_mul, pow17N_cast]

/-- `a ^ 17 ^ n` modulo `q` -/
def pow17sN (n a : Nat) : Nat :=
  Nat.rec (motive := fun _ => Nat → Nat) (fun a => a) (fun _ ih a => force (pow17N a) ih) n a

theorem pow17sN_cast (n a : Nat) : ((pow17sN n a : Nat) : Fq) = (a : Fq) ^ 17 ^ n := by
  induction n generalizing a with
  | zero => rw [pow_zero, pow_one]; rfl
  | succ n ih =>
    rw [show pow17sN (n + 1) a = force (pow17N a) (pow17sN n) from rfl, force_eq, ih, pow17N_cast, ← pow_mul, pow_succ']

/-- The vector of word `j` on naturals -/
def wordUnitN (t j : Nat) : List Nat := tabN t fun i => bif Nat.beq i j then 1 else 0

theorem wordUnitN_cast {t : Nat} (j : Fin t) : natV t (wordUnitN t j) = Pi.single j 1 := by
  funext a
  rw [natV, wordUnitN, nth_tabN _ a.isLt, Pi.single_apply]
  by_cases ha : a = j
  · rw [if_pos ha, ha, show Nat.beq j.val j.val = true from Nat.beq_refl _, cond_true, Nat.cast_one]
  · rw [if_neg ha, show Nat.beq a.val j.val = false from Bool.eq_false_iff.2 fun hh => ha (Fin.ext (Nat.eq_of_beq_eq_true hh)),
      cond_false, Nat.cast_zero]

/-- The leading coefficient of word 1, with `rf` full rounds on each side and `m + 1` partial rounds between them. -/
def leadSplitN (t : Nat) (mat : List Nat) (rf m j : Nat) : Nat :=
  force (pow17sN rf (partialLeadN (ent t mat 0 0) m (nth ((List.replicate rf true).foldl (fun L full => leadN t mat full L) (wordUnitN t j)) 0))) fun a =>
    force (nth ((List.replicate (rf + 1) true).foldl (fun L full => leadN t mat full L) (wordUnitN t 0)) 1) fun b => a * b % q

theorem leadSplitN_cast {k : Nat} (mat : List Nat) (rf m : Nat) (j : Fin (k + 2)) :
    ((leadSplitN (k + 2) mat rf m j : Nat) : Fq) = leadRounds 17 (natM (k + 2) (k + 2) mat) (fullFlags rf (m + 1)) (Pi.single j 1) 1 := by
  rw [fullFlags_eq, show ∀ l l' : List Bool, leadRounds 17 (natM (k + 2) (k + 2) mat) (l ++ l') (Pi.single j 1) =
    leadRounds 17 (natM (k + 2) (k + 2) mat) l' (leadRounds 17 (natM (k + 2) (k + 2) mat) l (Pi.single j 1)) from fun _ _ => List.foldl_append,
    leadRounds_partialLead _ (by norm_num), List.length_replicate, ← List.replicate_succ, Pi.smul_apply, smul_eq_mul, leadSplitN, force_eq, force_eq, cast_mod,
    Nat.cast_mul, pow17sN_cast, partialLeadN_cast, ← wordUnitN_cast j, ← wordUnitN_cast (0 : Fin (k + 2)), leadRounds_cast, leadRounds_cast]
  rfl

/-- For all `rf ≠ 4` and any word as variable these differ from those of the shipped rounds. -/
def checkSplit (t : Nat) (m : List Nat) : Bool :=
  allN t fun j => force (leadSplitN t m 4 30 j) fun a => allN 20 fun rf => bif Nat.beq rf 4 then true else !Nat.beq a (leadSplitN t m rf (38 - 2 * rf) j)

theorem leadSplitN_lt (t : Nat) (mat : List Nat) (rf m j : Nat) : leadSplitN t mat rf m j < q := by
  rw [leadSplitN, force_eq, force_eq]
  exact Nat.mod_lt _ q_prime.pos

theorem checkSplit_spec {k : Nat} {m : List Nat} (h : checkSplit (k + 2) m = true) (j : Fin (k + 2)) {rf rp : Nat} (hr : rf + rp + rf = 39) (h4 : rf ≠ 4) :
    leadRounds 17 (natM (k + 2) (k + 2) m) (fullFlags 4 31) (Pi.single j 1) 1 ≠ leadRounds 17 (natM (k + 2) (k + 2) m) (fullFlags rf rp) (Pi.single j 1) 1 := by
  have h1 := allN_iff.1 h j j.isLt
  rw [force_eq] at h1
  have h1 := allN_iff.1 h1 rf (by omega)
  rw [show Nat.beq rf 4 = false from Bool.eq_false_iff.2 fun hh => h4 (Nat.eq_of_beq_eq_true hh), cond_false] at h1
  have h2 := leadSplitN_cast m 4 30 j
  have h3 := leadSplitN_cast m rf (38 - 2 * rf) j
  rw [show 38 - 2 * rf + 1 = rp by omega] at h3
  rw [← h2, ← h3]
  intro h5
  have h6 := (ZMod.natCast_eq_natCast_iff' _ _ q).1 h5
  rw [Nat.mod_eq_of_lt (leadSplitN_lt _ _ _ _ _), Nat.mod_eq_of_lt (leadSplitN_lt _ _ _ _ _)] at h6
  rw [h6, show ∀ n, Nat.beq n n = true from Nat.beq_refl] at h1
  exact absurd h1 (by decide)

theorem split1 : checkSplit 2 (canons rate1_mds) = true := by decide +kernel
theorem split2 : checkSplit 3 (canons rate2_mds) = true := by decide +kernel
theorem split3 : checkSplit 4 (canons rate3_mds) = true := by decide +kernel
theorem split4 : checkSplit 5 (canons rate4_mds) = true := by decide +kernel
theorem split5 : checkSplit 6 (canons rate5_mds) = true := by decide +kernel
theorem split6 : checkSplit 7 (canons rate6_mds) = true := by decide +kernel
theorem split7 : checkSplit 8 (canons rate7_mds) = true := by decide +kernel

/-- Another distribution of 39 rounds. -/
theorem shipped_split (i : Fin 7) {rf rp : Nat} (h : rf + rp + rf = 39) (h4 : rf ≠ 4) (j : Fin (i.val + 2)) :
    leadRounds 17 (cauchyMds Fq (i.val + 2)) (fullFlags 4 31) (Pi.single j 1) 1 ≠ leadRounds 17 (cauchyMds Fq (i.val + 2)) (fullFlags rf rp) (Pi.single j 1) 1 := by
  obtain ⟨m, h1, h2⟩ : ∃ m, (shippedParams i).mds.toM rfl = natM (i.val + 2) (i.val + 2) m ∧ checkSplit (i.val + 2) m = true := by
    clear j
    fin_cases i
    · exact ⟨canons rate1_mds, vecM _ _ rfl, split1⟩
    · exact ⟨canons rate2_mds, vecM _ _ rfl, split2⟩
    · exact ⟨canons rate3_mds, vecM _ _ rfl, split3⟩
    · exact ⟨canons rate4_mds, vecM _ _ rfl, split4⟩
    · exact ⟨canons rate5_mds, vecM _ _ rfl, split5⟩
    · exact ⟨canons rate6_mds, vecM _ _ rfl, split6⟩
    · exact ⟨canons rate7_mds, vecM _ _ rfl, split7⟩
  rw [← shipped_mds_cauchy, h1]
  exact checkSplit_spec h2 j h h4

/-- Another permutation of lower degree, whatever its matrix and constants. -/
theorem perm377_weaker (i : Fin 7) {e rf rp : Nat} (he : 2 ≤ e) (M : Matrix (Fin (i.val + 2)) (Fin (i.val + 2)) Fq) (C : Fin (rf + rp + rf) → Fin (i.val + 2) → Fq)
    (hd : e ^ (rf + rp + rf) < 17 ^ 39) (x : Fin (i.val + 2) → Fq) (j : Fin (i.val + 2)) :
    Nat.card {z : Fq // perm377 i (Function.update x j z) 1 = permE e M rf rp C (Function.update x j z) 1} ≤ 17 ^ 39 := by
  obtain ⟨Q, h1, h2⟩ := permE_poly (e := e) M (rf := rf) (rp := rp) C he x j
  obtain ⟨g, h3, h4⟩ := perm377_degree i x j 1
  have h5 := card_eval_eq (g := g) (f := Q 1) (lt_of_le_of_lt (h1 1).1 (h3 ▸ hd))
  rw [h3] at h5
  refine le_trans (le_of_eq ?_) h5
  apply Nat.card_congr
  apply Equiv.subtypeEquivRight
  intro z
  rw [h4 z, congrFun (h2 z) 1]

/-- Other round numbers, whatever the constants. -/
theorem perm377_rounds (i : Fin 7) {rf rp : Nat} (C : Fin (rf + rp + rf) → Fin (i.val + 2) → Fq) (hf : 1 ≤ rf ∨ rf + rp + rf ≤ 39) (hn : rf + rp + rf ≤ 61)
    (hne : (rf, rp) ≠ (4, 31)) (x : Fin (i.val + 2) → Fq) (j : Fin (i.val + 2)) :
    Nat.card {z : Fq // perm377 i (Function.update x j z) 1 = permE 17 (cauchyMds Fq (i.val + 2)) rf rp C (Function.update x j z) 1} ≤ 17 ^ max 39 (rf + rp + rf) := by
  rcases lt_trichotomy (rf + rp + rf) 39 with h | h | h
  · rw [max_eq_left h.le]
    exact perm377_weaker i (by norm_num) _ C (Nat.pow_lt_pow_right (by norm_num) h) x j
  · obtain ⟨Q, h1, h2⟩ := permE_poly (e := 17) (cauchyMds Fq (i.val + 2)) C (by norm_num) x j
    obtain ⟨Q', h1', h2'⟩ := permE_poly (e := 17) (cauchyMds Fq (i.val + 2)) (rf := 4) (rp := 31) (shippedArc i) (by norm_num) x j
    have h3 := card_roots_le (f := Q' 1) (g := Q 1) (d := 17 ^ max 39 (rf + rp + rf))
      ((natDegree_sub_le _ _).trans (max_le ((h1' 1).1.trans (Nat.pow_le_pow_right (by norm_num) (le_max_left _ _)))
        ((h1 1).1.trans (Nat.pow_le_pow_right (by norm_num) (le_max_right _ _))))) (by
      have e1 := (h1 1).2
      have e2 := (h1' 1).2
      rw [coeff_sub, sub_ne_zero, h, max_self]
      rw [h] at e1
      rw [e1, e2]
      exact shipped_split i h (fun h4 => hne (by subst h4; congr 1; omega)) j)
    refine le_trans (le_of_eq ?_) h3
    apply Nat.card_congr
    apply Equiv.subtypeEquivRight
    intro z
    rw [← congrFun (h2 z) 1, ← congrFun (h2' z) 1]
    rfl
  · obtain ⟨Q, h1, h2⟩ := permE_poly (e := 17) (cauchyMds Fq (i.val + 2)) C (by norm_num) x j
    obtain ⟨g, h3, h4⟩ := perm377_degree i x j 1
    rw [max_eq_right h.le]
    have hdeg : (Q 1).natDegree = 17 ^ (rf + rp + rf) := le_antisymm (h1 1).1 (le_natDegree_of_ne_zero (by
      rw [(h1 1).2]
      exact rounds_lead i (by omega) hn 1 j))
    have h5 := card_eval_eq (g := Q 1) (f := g) (by rw [h3, hdeg]; exact Nat.pow_lt_pow_right (by norm_num) h)
    rw [hdeg] at h5
    refine le_trans (le_of_eq ?_) h5
    apply Nat.card_congr
    apply Equiv.subtypeEquivRight
    intro z
    rw [h4 z, congrFun (h2 z) 1]
    exact eq_comm

variable {tm1 nmds nhat rows nround npart : Nat}

/-- From the permutations to the hashes. -/
theorem same_digest (i : Fin 7) {h : (Fin (i.val + 2) → Fq) → R (Fq × Vector Fq (i.val + 2))} {g : (Fin (i.val + 2) → Fq) → Fin (i.val + 2) → Fq}
    (hg : ∀ x, h x = .ok (g x 1, Vector.ofFn (g x))) (x : Fin (i.val + 2) → Fq) (j : Fin (i.val + 2)) (s : Vector Fq (i.val + 2)) {B : Nat}
    (H : Nat.card {z : Fq // perm377 i (Function.update x j z) 1 = g (Function.update x j z) 1} ≤ B) :
    Nat.card {z : Fq // ∃ d S S', outcome (Instance.nTo1FixedHash ⟨shippedParams i, s⟩ (Vector.ofFn (Function.update x j z))) = .ok (d, S) ∧
      h (Function.update x j z) = .ok (d, S')} ≤ B := by
  refine le_trans (le_of_eq ?_) H
  apply Nat.card_congr
  apply Equiv.subtypeEquivRight
  intro z
  rw [outcome_shipped, hg]
  constructor
  · rintro ⟨d, S, S', h1, h2⟩
    exact (congrArg Prod.fst (Except.ok.inj h1)).trans (congrArg Prod.fst (Except.ok.inj h2)).symm
  · intro h1
    rw [h1]
    exact ⟨_, _, _, rfl, rfl⟩

/-- **C121, weaker parameters.** Let parameters of the width of a shipped set have fewer rounds or a smaller exponent, so that `e ^ rounds < 17 ^ 39`; their matrix and their
constants can be anything.  With all input words but one fixed, the unoptimized hash with them has the digest of the shipped hash for at most `17 ^ 39` values of the last. -/
theorem C121_weaker (i : Fin 7) (P : Params Fq (i.val + 2) tm1 nmds nhat rows (i.val + 2) nround npart) (hm : nmds = (i.val + 2) * (i.val + 2))
    (ha : nround = rows * (i.val + 2)) {e : Nat} (he : P.alpha = .exponent e) (h2 : 2 ≤ e) (hrows : P.rounds.rF / 2 + P.rounds.rP + P.rounds.rF / 2 ≤ rows)
    (hd : e ^ (P.rounds.rF / 2 + P.rounds.rP + P.rounds.rF / 2) < 17 ^ 39) (s s' : Vector Fq (i.val + 2)) (x : Fin (i.val + 2) → Fq) (j : Fin (i.val + 2)) :
    Nat.card {z : Fq // ∃ d S S', outcome (Instance.nTo1FixedHash ⟨shippedParams i, s⟩ (Vector.ofFn (Function.update x j z))) = .ok (d, S) ∧
      outcome (Instance.unoptimizedNTo1FixedHash ⟨P, s'⟩ (Vector.ofFn (Function.update x j z))) = .ok (d, S')} ≤ 17 ^ 39 :=
  same_digest i (h := fun x => outcome (Instance.unoptimizedNTo1FixedHash ⟨P, s'⟩ (Vector.ofFn x)))
    (fun x => congrArg outcome (unoptimized_permE P (Nat.le_add_left 1 i.val) hm ha rfl rfl hrows he s' x)) x j s (perm377_weaker i h2 _ _ hd x j)

/-- **C121, generated parameters.** The same for the optimized hash with parameters from `v1::generate`, of any security level. -/
theorem C121_generated (i : Fin 7) {L : Libm} {debug : Bool} {nlimbs security : Nat} {allow : Bool}
    {P : Params Fq (i.val + 2) (i.val + 1) nmds nhat rows (i.val + 2) nround npart} (g : GeneratedBy L debug nlimbs q security allow P)
    {e : Nat} (he : P.alpha = .exponent e) (hd : e ^ (P.rounds.rP + P.rounds.rF) < 17 ^ 39) (s : Vector Fq (i.val + 2)) (x : Fin (i.val + 2) → Fq) (j : Fin (i.val + 2)) :
    Nat.card {z : Fq // ∃ d S S', outcome (Instance.nTo1FixedHash ⟨shippedParams i, s⟩ (Vector.ofFn (Function.update x j z))) = .ok (d, S) ∧
      outcome ((Instance.new P).nTo1FixedHash (Vector.ofFn (Function.update x j z))) = .ok (d, S')} ≤ 17 ^ 39 := by
  have : Fact q.Prime := ⟨q_prime⟩
  have : CharP Fq q := charP_of_card_eq_prime card_Fq
  have r := v1Generate_result g.accurate g.log2_two debug g.limbs g.bits g.nmds_eq g.nhat_eq g.nround_eq g.run
  have hr := alphaGenerate_range (he ▸ r.alpha)
  obtain ⟨hrows, -⟩ := generated_rows g
  have hsum : P.rounds.rF / 2 + P.rounds.rP + P.rounds.rF / 2 = P.rounds.rP + P.rounds.rF := by
    rcases r.full with h | h <;> omega
  have h := C121_weaker i P g.nmds_eq g.nround_eq he (by omega) hrows.ge (by rw [hsum]; exact hd) s (Vector.replicate _ 0) x j
  have hop := (C115_parameters g he).1.2
  simp only [hop]
  exact h

/-- **C121, other round numbers.** Let parameters have the matrix and the exponent of a shipped set but other round numbers: at most 61 rounds in all, and at least one full round on
each side, or at most 39 rounds.  The constants can be anything.  With all input words but one fixed, the unoptimized hash with them has the digest of the shipped hash for at
most `17 ^ n` values of the last, `n` being the greater number of rounds. -/
theorem C121_rounds (i : Fin 7) (P : Params Fq (i.val + 2) tm1 ((i.val + 2) * (i.val + 2)) nhat rows (i.val + 2) nround npart)
    (ha : nround = rows * (i.val + 2)) (he : P.alpha = .exponent 17) (hM : P.mds = (shippedParams i).mds)
    (hrows : P.rounds.rF / 2 + P.rounds.rP + P.rounds.rF / 2 ≤ rows) (hne : (P.rounds.rF / 2, P.rounds.rP) ≠ (4, 31))
    (hf : 2 ≤ P.rounds.rF ∨ P.rounds.rF / 2 + P.rounds.rP + P.rounds.rF / 2 ≤ 39) (hn : P.rounds.rF / 2 + P.rounds.rP + P.rounds.rF / 2 ≤ 61)
    (s s' : Vector Fq (i.val + 2)) (x : Fin (i.val + 2) → Fq) (j : Fin (i.val + 2)) :
    Nat.card {z : Fq // ∃ d S S', outcome (Instance.nTo1FixedHash ⟨shippedParams i, s⟩ (Vector.ofFn (Function.update x j z))) = .ok (d, S) ∧
      outcome (Instance.unoptimizedNTo1FixedHash ⟨P, s'⟩ (Vector.ofFn (Function.update x j z))) = .ok (d, S')} ≤
        17 ^ max 39 (P.rounds.rF / 2 + P.rounds.rP + P.rounds.rF / 2) := by
  refine same_digest i (h := fun x => outcome (Instance.unoptimizedNTo1FixedHash ⟨P, s'⟩ (Vector.ofFn x)))
    (fun x => ?_) x j s (perm377_rounds i (fun r => P.arc.toM ha ⟨r.val, lt_of_lt_of_le r.isLt hrows⟩) (by omega) hn hne x j)
  have h := congrArg outcome (unoptimized_permE P (Nat.le_add_left 1 i.val) rfl ha rfl rfl hrows he s' x)
  rw [hM, shipped_mds_cauchy] at h
  exact h

/-- For 80 bits of security `v1::generate` takes 26 rounds. -/
theorem rounds_80 (L : Libm) (hL : L.Accurate) (allow : Bool) (t : Nat) (ht : 2 ≤ t) (ht8 : t ≤ 8) :
    roundsV1Generate L ⟨allow, 80, t, q⟩ (log2Big L q) (.exponent 17) = .ok ⟨18, 8⟩ := by
  obtain ⟨hlp1, hlp2⟩ := lp_q hL
  generalize log2Big L q = lp at hlp1 hlp2
  set input : GenInput := ⟨allow, 80, t, q⟩
  have hlt : 101 * input.t + 429 < usizeMax := by unfold usizeMax; simp only [input]; omega
  have htR : (2 : ℝ) ≤ t := by exact_mod_cast ht
  have ht8R : (t : ℝ) ≤ 8 := by exact_mod_cast ht8
  have r17 : rne ((17 : ℕ) : ℝ) = 17 := by rw [rne_natCast (by norm_num)]; norm_num
  have r80 : rne ((80 : ℕ) : ℝ) = 80 := by rw [rne_natCast (by norm_num)]; norm_num
  have rt : rne (t : ℝ) = t := rne_natCast (by omega)
  have rt1 : rne ((t : ℝ) + 1) = t + 1 := by
    have := rne_natCast (n := t + 1) (by omega)
    push_cast at this; exact this
  have c1 : L.log 2 17 ≤ 0.2455 := hL.log_le (by norm_num) (by norm_num) Real.log_two_lt_d9.le log_17_gt.le
    (by norm_num) (by norm_num)
  have c2 : 0.2440 ≤ L.log 2 17 := hL.le_log (by norm_num) (by norm_num) Real.log_two_gt_d9.le log_17_lt.le
    (by norm_num) (by norm_num)
  have d1 : L.log t 17 ≤ 0.8 := hL.log_le (by linarith) (by norm_num)
    ((Real.log_le_log (by linarith) ht8R).trans log_8_lt.le) log_17_gt.le (by norm_num) (by norm_num)
  have d2 : 0.2 ≤ L.log t 17 := hL.le_log (by linarith) (by norm_num)
    (Real.log_two_gt_d9.le.trans (Real.log_le_log (by norm_num) htR)) log_17_lt.le (by norm_num) (by norm_num)
  -- statistical attacks
  have hS : statisticalAttackFullRounds L input lp (.exponent 17) = 6 := by
    unfold statisticalAttackFullRounds
    dsimp only
    rw [if_pos]
    simp only [input]
    rw [r17, r80, rt, rt1]
    have r16 : rne ((17 : ℝ) - 1) = 16 := by
      have := rne_natCast (n := 16) (by norm_num)
      norm_num at this ⊢; exact this
    rw [r16]
    have h16 : L.log2 16 ≤ 5 :=
      (hL.log2_le (by norm_num) (logb2_le (n := 4) (by norm_num) (by norm_num))).trans (by norm_num)
    have hfl : (251 : ℝ) ≤ ((⌊lp⌋ : ℤ) : ℝ) := by exact_mod_cast Int.le_floor.2 (by exact_mod_cast hlp1)
    have h1 : 245 ≤ rne (((⌊lp⌋ : ℤ) : ℝ) - L.log2 16) :=
      le_rne_of (a := 246) (by linarith) (by norm_num) (by norm_num)
    refine le_rne_of (a := 245 * 1) ?_ (by norm_num) (by norm_num)
    exact mul_le_mul h1 (by linarith) (by norm_num) (by linarith)
  -- interpolation attack
  have hI : algebraicAttackInterpolation L input lp (.exponent 17) = 21 := by
    unfold algebraicAttackInterpolation
    dsimp only
    simp only [input]
    rw [r17, r80, rt, min_eq_left (by linarith)]
    have e1 : ⌈rne (L.log 2 17 * 80)⌉ = 20 := by
      rw [Int.ceil_eq_iff]
      constructor
      · exact lt_of_lt_of_le (by norm_num : ((20 : ℤ) : ℝ) - 1 < 19.4)
          (le_rne_of (a := 19.5) (by linarith) (by norm_num) (by norm_num))
      · exact rne_le_of (b := 19.7) (by linarith) (by norm_num) (by norm_num)
    rw [e1]
    have e2 : ⌈rne (((20 : ℤ) : ℝ) + L.log t 17)⌉ = 21 := by
      rw [Int.ceil_eq_iff]
      constructor
      · exact lt_of_lt_of_le (by norm_num : ((21 : ℤ) : ℝ) - 1 < 20.1)
          (le_rne_of (a := 20.2) (by push_cast; linarith) (by norm_num) (by norm_num))
      · exact rne_le_of (b := 20.8) (by push_cast; linarith) (by norm_num) (by norm_num)
    rw [e2, asUsize]
    norm_num
  -- Groebner basis attacks
  obtain ⟨g, hg⟩ := grobnerV1_ok L lp (.exponent 17) (show 1 ≤ input.t by simp only [input]; omega)
  have hG : g ≤ 21 := by
    have hg' := hg
    rw [algebraicAttackGrobnerBasisV1, usub, if_pos (show 1 ≤ input.t by simp only [input]; omega)] at hg'
    obtain rfl := Except.ok.inj hg'
    apply asUsize_floor_le
    simp only [input]
    rw [r17, r80, rt, rt1]
    have hp : rne (L.log 2 17 * 80) ≤ 19.8 := rne_le_of (b := 19.7) (by linarith) (by norm_num) (by norm_num)
    apply max_le
    · have h1 : rne ((80 : ℝ) / 3) ≤ 43 := rne_le_of (b := 42.7) (by norm_num) (by norm_num) (by norm_num)
      have h2 := min_le_left (rne ((80 : ℝ) / 3)) (rne (lp / 2))
      have h3 : L.log 2 17 * min (rne ((80 : ℝ) / 3)) (rne (lp / 2)) ≤ L.log 2 17 * 43 :=
        mul_le_mul_of_nonneg_left (h2.trans h1) (by linarith)
      exact rne_le_of (b := 11) (by linarith) (by norm_num) (by norm_num)
    · have h1 : rne ((t - 1 : ℕ) : ℝ) ≤ 7 := by
        rw [rne_natCast (by omega)]; exact_mod_cast (by omega : t - 1 ≤ 7)
      have h2 : rne (rne (L.log 2 17 * 80) / ((t : ℝ) + 1)) ≤ 11 := by
        refine rne_le_of (b := 10.5) ?_ (by norm_num) (by norm_num)
        rw [div_le_iff₀ (by linarith)]
        linarith
      have h3 := min_le_left (rne (rne (L.log 2 17 * 80) / ((t : ℝ) + 1))) (rne (rne (L.log 2 17 * lp) / 2))
      exact rne_le_of (b := 18) (by linarith) (by norm_num) (by norm_num)
  rw [roundsV1_exponent (show input.security ≤ 256 by simp [input]) ht hlt hg (by omega), hS, hI]
  rw [max_eq_left hG]
  rfl

/-- Not vacuous: `v1::generate` for 80 bits of security returns parameters with 26 rounds. -/
example (i : Fin 7) : ∃ P : Params Fq (i.val + 2) (i.val + 1) ((i.val + 2) * (i.val + 2)) ((i.val + 1) * (i.val + 1)) 26 (i.val + 2) (26 * (i.val + 2)) 18,
    GeneratedBy roundedLibm true 4 q 80 true P ∧ P.alpha = .exponent 17 ∧ 17 ^ (P.rounds.rP + P.rounds.rF) < 17 ^ 39 := by
  obtain ⟨P, hP, hα, hr⟩ := v1Generate_ok (F := Fq) (L := roundedLibm) (k := i.val + 1) (nmds := (i.val + 2) * (i.val + 2))
    (nhat := (i.val + 1) * (i.val + 1)) true (nlimbs := 4) (by norm_num) (p := q) (by decide +kernel)
    (security := 80) (allow := true) rfl rfl (C31_shipped true)
    (rounds_80 roundedLibm roundedLibm_accurate true (i.val + 2) (by omega) (by omega)) (by norm_num) (by omega) (by omega) (by decide +kernel)
  refine ⟨P, ⟨roundedLibm_accurate, (shipped_generatedBy i).log2_two, by norm_num, by decide +kernel, rfl, rfl, rfl, hP⟩, hα, ?_⟩
  rw [hr]
  exact Nat.pow_lt_pow_right (by norm_num) (by norm_num)

/-- Not vacuous: a shipped set with any other round numbers that fit its table; and even 61 rounds are far from all field elements. -/
example (i : Fin 7) (rF rP : Nat) (h : rF / 2 + rP + rF / 2 ≤ 39) (hne : (rF / 2, rP) ≠ (4, 31)) (s s' : Vector Fq (i.val + 2)) (x : Fin (i.val + 2) → Fq)
    (j : Fin (i.val + 2)) :
    Nat.card {z : Fq // ∃ d S S', outcome (Instance.nTo1FixedHash ⟨shippedParams i, s⟩ (Vector.ofFn (Function.update x j z))) = .ok (d, S) ∧
      outcome (Instance.unoptimizedNTo1FixedHash ⟨{ shippedParams i with rounds := { rP := rP, rF := rF } }, s'⟩ (Vector.ofFn (Function.update x j z))) = .ok (d, S')} ≤
        17 ^ max 39 (rF / 2 + rP + rF / 2) :=
  C121_rounds i { shippedParams i with rounds := { rP := rP, rF := rF } } rfl (shipped_alpha i) rfl h hne (Or.inr h) (h.trans (by norm_num)) s s' x j

example : 17 ^ 39 * 2 ^ 92 < q ∧ 17 ^ 61 < q := by decide +kernel

end Poseidon
