import Verif.Proofs.Trail
import Verif.Proofs.KrylovCauchy
import Verif.Props.CircuitGenerated
import Verif.Props.Tables
import Mathlib.Algebra.Polynomial.Roots

/-!
# Resistance to differential trails (C68), and C16 for generated parameters

The two facts the round numbers are justified with: every pair of different inputs activates many S-boxes, and one S-box maps few
inputs of a given difference to a given output difference.
-/

set_option linter.unusedSectionVars false

namespace Poseidon

open scoped Matrix
open Polynomial

variable {F : Type} [Field F] [DecidableEq F] {k rows nmds nhat nround npart : Nat}

/-! ## The generated matrix -/

theorem prime_of_generated {p : Nat} [CharP F p] (hb : 128 ≤ numBits p) : p.Prime := by
  have h := numBits_ge hb
  rcases CharP.char_is_prime_or_zero F p with h1 | h1
  · exact h1
  · subst h1; norm_num at h

theorem factorial_ne_zero {p : Nat} [CharP F p] (hb : 128 ≤ numBits p) : ((Nat.factorial 19 : Nat) : F) ≠ 0 := by
  intro h
  have h1 := (CharP.cast_eq_zero_iff F p _).1 h
  have h2 := Nat.le_of_dvd (Nat.factorial_pos 19) h1
  have h3 := numBits_ge hb
  have h4 : Nat.factorial 19 < 2 ^ 127 := by decide +kernel
  omega

theorem cauchy_noInactiveTrail {p t : Nat} [CharP F p] (hb : 128 ≤ numBits p) (h2 : 2 ≤ t) (h8 : t ≤ 8) :
    NoInactiveTrail (cauchyMds F t) := by
  intro x hx
  obtain ⟨n, hn, h⟩ := cauchy_krylov (factorial_ne_zero (p := p) hb) h2 h8 ⟨0, by omega⟩ rfl x hx
  exact ⟨n, hn, ⟨0, by omega⟩, rfl, h⟩

theorem cauchy_isMDS_generated {p t : Nat} [CharP F p] (hb : 128 ≤ numBits p) (h8 : t ≤ 8) : IsMDS (cauchyMds F t) := by
  apply cauchyMds_isMDS _ p
  have := numBits_ge hb
  have : 24 ≤ 2 ^ 127 := by norm_num
  omega

/-- C16, for the generator as a whole: whatever parameters `v1::generate` returns, two different states are told apart by word 0 after
fewer than `t` mix layers with the generated matrix. -/
theorem C16_generated {L : Libm} {debug : Bool} {nlimbs p security : Nat} [CharP F p] {allow : Bool}
    {P : Params F (k + 1) k nmds nhat rows (k + 1) nround npart} (g : GeneratedBy L debug nlimbs p security allow P)
    (x y : Fin (k + 1) → F) (h : x ≠ y) :
    ∃ n x' y', n < k + 1 ∧
      loopN (fun _ => mixLayer P.mds) n 0 (Vector.ofFn x) = .ok (Vector.ofFn x') ∧
      loopN (fun _ => mixLayer P.mds) n 0 (Vector.ofFn y) = .ok (Vector.ofFn y') ∧
      x' 0 ≠ y' 0 := by
  have r := v1Generate_result g.accurate g.log2_two debug g.limbs g.bits g.nmds_eq g.nhat_eq g.nround_eq g.run
  have hw := r.width
  obtain ⟨n, hn, h1⟩ := cauchy_krylov (factorial_ne_zero (F := F) (p := p) r.bits) hw.1 hw.2 0 rfl (x - y) (sub_ne_zero.2 h)
  have iter : ∀ (n j : Nat) (z : Fin (k + 1) → F),
      loopN (fun _ => mixLayer P.mds) n j (Vector.ofFn z) =
        .ok (Vector.ofFn ((P.mds.toM g.nmds_eq ^ n).mulVec z)) := by
    intro n
    induction n with
    | zero => intro j z; rw [loopN, pow_zero, Matrix.one_mulVec]
    | succ n ih =>
      intro j z
      rw [loopN, mixLayer_eq (by omega) g.nmds_eq, ok_bind, ih, pow_succ, Matrix.mulVec_mulVec]
  refine ⟨n, _, _, hn, iter n 0 x, iter n 0 y, ?_⟩
  rw [r.mds]
  rw [Matrix.mulVec_sub] at h1
  exact fun e => h1 (sub_eq_zero.2 e)

/-! ## C68: active S-boxes -/

/-- The round constants of `P` as the rounds of the permutation use them. -/
def Params.roundConstants (P : Params F (k + 1) k nmds nhat rows (k + 1) nround npart) (ha : nround = rows * (k + 1))
    (hr : P.rounds.rF / 2 + P.rounds.rP + P.rounds.rF / 2 ≤ rows) :
    Fin (P.rounds.rF / 2 + P.rounds.rP + P.rounds.rF / 2) → Fin (k + 1) → F :=
  fun r j => P.arc.toM ha ⟨r.val, lt_of_lt_of_le r.isLt hr⟩ j

/-- **C68**: with generated parameters, any two different inputs that hash without a panic give different inputs to at least
`R_F/2 · (t + 1) + ⌊R_P/t⌋` S-boxes (`R_F/2` is even: 4 or 6).  The permutation is the one the code computes, with the matrix, S-box,
round numbers and round constants in `P` (C51). -/
theorem C68_generated {L : Libm} {debug : Bool} {nlimbs p security : Nat} (hpp : p.Prime) [Fintype F] (hF : Fintype.card F = p)
    {allow : Bool}
    {P : Params F (k + 1) k nmds nhat rows (k + 1) nround npart} (g : GeneratedBy L debug nlimbs p security allow P)
    (hr : P.rounds.rF / 2 + P.rounds.rP + P.rounds.rF / 2 ≤ rows)
    (s : Vector F (k + 1)) (x y : Fin (k + 1) → F) (hne : x ≠ y)
    (hx : ∃ r, Instance.nTo1FixedHash ⟨P, s⟩ (Vector.ofFn x) = .ok r) (hy : ∃ r, Instance.nTo1FixedHash ⟨P, s⟩ (Vector.ofFn y) = .ok r) :
    P.rounds.rF / 2 * (k + 2) + P.rounds.rP / (k + 1) ≤
      activeSboxes P.alpha (P.mds.toM g.nmds_eq) (P.rounds.rF / 2) P.rounds.rP (P.roundConstants g.nround_eq hr) x y := by
  have : Fact p.Prime := ⟨hpp⟩
  have : CharP F p := charP_of_card_eq_prime hF
  have r := v1Generate_result g.accurate g.log2_two debug g.limbs g.bits g.nmds_eq g.nhat_eq g.nround_eq g.run
  obtain ⟨C, hC, hT⟩ := C51_textbook L g.accurate g.log2_two debug nlimbs g.limbs p g.bits security allow g.nmds_eq g.nhat_eq
    g.nround_eq P g.run
  have hCe : P.roundConstants g.nround_eq hr = C := by
    funext r' j
    exact (hC r'.val (lt_of_lt_of_le r'.isLt hr) r'.isLt j).symm
  have hinj : P.alpha.Injective F := by
    intro a b _ _ hab
    cases hα : P.alpha with
    | exponent e =>
      rw [hα] at hab
      exact (C31_bijective hpp allow (hα ▸ r.alpha) F hF).1 hab
    | inverse =>
      rw [hα] at hab
      exact inv_injective hab
  have hdef : ∀ z : Fin (k + 1) → F, (∃ r, Instance.nTo1FixedHash ⟨P, s⟩ (Vector.ofFn z) = .ok r) →
      ∃ z', textbook P.alpha (cauchyMds F (k + 1)) (P.rounds.rF / 2) P.rounds.rP C z = some z' := by
    rintro z ⟨o, ho⟩
    have h1 := hT s z
    cases h2 : textbook P.alpha (cauchyMds F (k + 1)) (P.rounds.rF / 2) P.rounds.rP C z with
    | none => rw [h2] at h1; rw [ho] at h1; cases h1
    | some z' => exact ⟨z', rfl⟩
  obtain ⟨x', hx'⟩ := hdef x hx
  obtain ⟨y', hy'⟩ := hdef y hy
  have hw := r.width
  have hb := active_bound (Nat.succ_pos k) hinj (cauchy_isMDS_generated (p := p) r.bits hw.2)
    (cauchy_noInactiveTrail (p := p) r.bits hw.1 hw.2) hx' hy' hne
  rw [hCe, r.mds]
  refine le_trans (le_of_eq ?_) hb
  rcases r.full with h | h <;> rw [h]

/-- **C68** for the shipped parameters: any two different inputs activate at least `4 (t + 1) + ⌊31/t⌋` S-boxes. -/
theorem C68_shipped (i : Fin 7) (x y : Fin (i.val + 2) → Fq) (hne : x ≠ y) :
    4 * (i.val + 3) + 31 / (i.val + 2) ≤
      activeSboxes (shippedParams i).alpha ((shippedParams i).mds.toM rfl) 4 31 (shippedArc i) x y := by
  have hinj : Alpha.Injective Fq (.exponent 17) := fun a b _ _ hab => pow17_bijective.1 hab
  rw [shipped_alpha, shipped_mds_cauchy]
  have hb : 128 ≤ numBits q := by decide +kernel
  have hi := i.isLt
  exact active_bound (by omega) hinj (cauchy_isMDS_generated (p := q) hb (by omega))
    (cauchy_noInactiveTrail (p := q) hb (by omega) (by omega)) (spec377_eq i x) (spec377_eq i y) hne

/-! ## C68: one S-box -/

/-- **C68**, the power S-box: among the inputs with difference `a ≠ 0`, at most `e - 1` give any one output difference `b`, in every
field in which `e` is not zero. -/
theorem C68_sbox {e : Nat} (h2 : 2 ≤ e) (he : (e : F) ≠ 0) (a b : F) (ha : a ≠ 0) (s : Finset F)
    (hs : ∀ x ∈ s, (x + a) ^ e - x ^ e = b) : s.card ≤ e - 1 := by
  set f : F[X] := (X + C a) ^ e - X ^ e - C b with hf
  have hcoef : f.coeff (e - 1) = (e : F) * a - if e = 1 then b else 0 := by
    rw [hf, coeff_sub, coeff_sub, coeff_X_add_C_pow, coeff_X_pow, coeff_C, if_neg (by omega),
      show e - (e - 1) = 1 by omega, pow_one, if_neg (by omega), if_neg (by omega), Nat.choose_symm_of_eq_add (b := 1) (by omega),
      Nat.choose_one_right]
    ring
  have hne : f ≠ 0 := by
    intro h0
    rw [h0, coeff_zero, if_neg (by omega), sub_zero] at hcoef
    exact (mul_ne_zero he ha) hcoef.symm
  have hdeg : f.natDegree ≤ e - 1 := by
    rw [natDegree_le_iff_coeff_eq_zero]
    intro N hN
    rw [hf, coeff_sub, coeff_sub, coeff_X_add_C_pow, coeff_X_pow, coeff_C, if_neg (show N ≠ 0 by omega)]
    by_cases hNe : N = e
    · subst hNe; simp
    · rw [if_neg hNe, Nat.choose_eq_zero_of_lt (by omega)]; simp
  calc s.card ≤ f.roots.toFinset.card := by
        apply Finset.card_le_card
        intro x hx
        rw [Multiset.mem_toFinset, mem_roots hne, IsRoot.def, hf]
        simp [hs x hx]
    _ ≤ Multiset.card f.roots := f.roots.toFinset_card_le
    _ ≤ f.natDegree := card_roots' f
    _ ≤ e - 1 := hdeg

/-- **C68**, the inverse S-box: at most two inputs give any one output difference. -/
theorem C68_sbox_inverse (a b : F) (ha : a ≠ 0) (s : Finset F)
    (hs : ∀ x ∈ s, x ≠ 0 ∧ x + a ≠ 0 ∧ (x + a)⁻¹ - x⁻¹ = b) : s.card ≤ 2 := by
  set f : F[X] := C b * X ^ 2 + C (b * a) * X + C a with hf
  have hne : f ≠ 0 := by
    intro h0
    have : f.coeff 0 = a := by simp [hf]
    rw [h0, coeff_zero] at this
    exact ha this.symm
  calc s.card ≤ f.roots.toFinset.card := by
        apply Finset.card_le_card
        intro x hx
        obtain ⟨h1, h2, h3⟩ := hs x hx
        rw [Multiset.mem_toFinset, mem_roots hne, IsRoot.def, hf]
        simp only [eval_add, eval_mul, eval_C, eval_pow, eval_X]
        rw [← h3]
        field_simp
        ring
    _ ≤ Multiset.card f.roots := f.roots.toFinset_card_le
    _ ≤ f.natDegree := card_roots' f
    _ ≤ 2 := natDegree_quadratic_le

/-- **C68**, one S-box of the shipped permutation: at most 16 inputs of any non-zero difference give any one output difference. -/
theorem C68_sbox_shipped (i : Fin 7) (a b : Fq) (ha : a ≠ 0) (s : Finset Fq)
    (hs : ∀ x ∈ s, (shippedParams i).alpha.val (x + a) - (shippedParams i).alpha.val x = b) : s.card ≤ 16 := by
  rw [shipped_alpha] at hs
  refine C68_sbox (e := 17) (by norm_num) ?_ a b ha s hs
  intro h
  have := Nat.le_of_dvd (by norm_num) ((CharP.cast_eq_zero_iff Fq q 17).1 h)
  exact absurd this (by decide +kernel)

/-- **C68**, one S-box of a generated permutation: at most `α - 1 ≤ 42` inputs (two for the inverse S-box) of any non-zero difference
give any one output difference. -/
theorem C68_sbox_generated {L : Libm} {debug : Bool} {nlimbs p security : Nat} [CharP F p] {allow : Bool}
    {P : Params F (k + 1) k nmds nhat rows (k + 1) nround npart} (g : GeneratedBy L debug nlimbs p security allow P)
    (a b : F) (ha : a ≠ 0) (s : Finset F)
    (hs : ∀ x ∈ s, P.alpha.Defined x ∧ P.alpha.Defined (x + a) ∧ P.alpha.val (x + a) - P.alpha.val x = b) :
    match P.alpha with
    | .exponent e => 3 ≤ e ∧ e ≤ 43 ∧ s.card ≤ e - 1
    | .inverse => s.card ≤ 2 := by
  have r := v1Generate_result g.accurate g.log2_two debug g.limbs g.bits g.nmds_eq g.nhat_eq g.nround_eq g.run
  have hpp := prime_of_generated (F := F) (p := p) r.bits
  have hp := numBits_ge r.bits
  have hlt : 43 < 2 ^ 127 := by norm_num
  cases hα : P.alpha with
  | exponent e =>
    rw [hα] at hs
    have hm := List.mem_of_find?_eq_some ((C64_choice hpp (by omega) allow e).1 (hα ▸ r.alpha))
    have hall : ∀ n ∈ chosenExponents, 3 ≤ n ∧ n ≤ 43 := by decide +kernel
    obtain ⟨h3, h43⟩ := hall e hm
    refine ⟨h3, h43, C68_sbox (by omega) ?_ a b ha s fun x hx => (hs x hx).2.2⟩
    intro h
    have := Nat.le_of_dvd (by omega) ((CharP.cast_eq_zero_iff F p e).1 h)
    omega
  | inverse =>
    rw [hα] at hs
    exact C68_sbox_inverse a b ha s fun x hx => hs x hx

/-! ## The hypotheses are met -/

/-- The bound at rate 2: two inputs that differ in one bit activate at least 26 S-boxes. -/
example : 26 ≤ activeSboxes (shippedParams 1).alpha ((shippedParams 1).mds.toM rfl) 4 31 (shippedArc 1) ![0, 0, 0] ![0, 0, 1] :=
  C68_shipped 1 _ _ (by
    intro h
    exact zero_ne_one (congrFun h 2))

/-- C68_generated on the shipped parameters, whose hash never panics. -/
example (i : Fin 7) (x y : Fin (i.val + 1 + 1) → Fq) (hne : x ≠ y) :
    (shippedParams i).rounds.rF / 2 * (i.val + 1 + 2) + (shippedParams i).rounds.rP / (i.val + 1 + 1) ≤
      activeSboxes (shippedParams i).alpha ((shippedParams i).mds.toM rfl) ((shippedParams i).rounds.rF / 2)
        (shippedParams i).rounds.rP
        (Params.roundConstants (shippedParams i) rfl (by rw [shipped_rounds]; decide)) x y := by
  have hl2 : roundedLibm.log2 2 = 1 := by
    show rne (Real.logb 2 2) = 1
    rw [Real.logb_self_eq_one (by norm_num)]
    simpa using rne_natCast (n := 1) (by norm_num)
  have g : GeneratedBy roundedLibm true 4 q 128 true (shippedParams i) :=
    ⟨roundedLibm_accurate, hl2, by norm_num, by decide +kernel, rfl, rfl, rfl, C20_shipped _ roundedLibm_accurate true true i⟩
  obtain ⟨f, -, hf⟩ := C51_bijective roundedLibm roundedLibm_accurate hl2 true 4 (by norm_num) q q_prime card_Fq g.bits 128 true
    rfl rfl rfl (shippedParams i) g.run 17 (shipped_alpha i)
  have hd : ∀ z, ∃ r, Instance.nTo1FixedHash ⟨shippedParams i, Vector.ofFn x⟩ (Vector.ofFn z) = .ok r := fun z => by
    obtain ⟨d, inst', h, -⟩ := hf (Vector.ofFn x) z
    exact ⟨_, h⟩
  exact C68_generated q_prime card_Fq g _ _ x y hne (hd x) (hd y)

/-- `C68_sbox` is sharp at exponent 2: over the rationals exactly one input has a given output difference. -/
example : ∃ s : Finset ℚ, s.card = 2 - 1 ∧ ∀ x ∈ s, (x + 1) ^ 2 - x ^ 2 = 3 :=
  ⟨{1}, by simp, by simp; norm_num⟩

end Poseidon
