import Verif.Props.GenerateV1
import Verif.Props.GenerateV2
import Verif.Props.Security
import Verif.Props.CircuitGenerated
import Mathlib.Data.Nat.Choose.Central

/-!
# When the generators return, for arbitrary const generics (C78)

The callers of `v1::generate` and `v2::generate` choose the array sizes as const generics before the round numbers are
known.  Here no relation between those numbers is assumed.
-/

set_option linter.unusedSectionVars false

namespace Poseidon

open scoped Matrix

variable {F : Type} [Field F] [DecidableEq F] {k rows nmds nhat nround npart : Nat}

/-! ## Shapes -/

theorem Mat.new_dims {α : Type _} {r c n : Nat} {l : List α} {m : Mat α r c n} (h : Mat.new r c n l = .ok m) :
    n = r * c ∧ l.length = n := by
  rw [Mat.new] at h
  split at h
  · cases h
  · next h1 =>
    split at h
    · next h2 => exact ⟨by omega, h2⟩
    · cases h

theorem mdsGenerate_dims {input : GenInput} {m : Mat F input.t input.t nmds} (h : mdsGenerate F nmds input = .ok m) :
    nmds = input.t * input.t := by
  rw [mdsGenerate] at h
  split at h
  · cases h
  · rw [fixedCauchyMatrix] at h
    split at h
    · cases h
    · obtain ⟨els, -, h⟩ := bind_eq_ok h
      obtain ⟨m, h1, -⟩ := bind_eq_ok h
      exact (Mat.new_dims h1).1

theorem arcV1_dims {nlimbs : Nat} {input : GenInput} {rounds : RoundNumbers} {alpha : Alpha}
    {arc : Mat F rows input.t nround} (h : arcV1Generate F nlimbs rows nround input rounds alpha = .ok arc) :
    nround = rows * input.t := by
  rw [arcV1Generate] at h
  obtain ⟨els, -, h⟩ := bind_eq_ok h
  exact (Mat.new_dims h).1

theorem mdsHat_dims {t n tm1 : Nat} {m : Mat F t t n} {o : Mat F tm1 tm1 nhat} (h : mdsHat tm1 nhat m = .ok o) :
    nhat = tm1 * tm1 := by
  rw [mdsHat] at h
  obtain ⟨els, -, h⟩ := bind_eq_ok h
  exact (Mat.new_dims h).1

/-- Whatever the const generics, a run that returns had the right array sizes. -/
theorem v1Generate_dims {L : Libm} {debug : Bool} {nlimbs p security : Nat} {allow : Bool}
    {P : Params F (k + 1) k nmds nhat rows (k + 1) nround npart}
    (h : v1Generate L debug F nlimbs k nmds nhat rows nround npart security p allow = .ok P) :
    nmds = (k + 1) * (k + 1) ∧ nhat = k * k ∧ nround = rows * (k + 1) := by
  rw [v1Generate] at h
  obtain ⟨alpha, -, h⟩ := bind_eq_ok h
  obtain ⟨rounds, -, h⟩ := bind_eq_ok h
  obtain ⟨mds, hmds, h⟩ := bind_eq_ok h
  obtain ⟨arc, harc, h⟩ := bind_eq_ok h
  obtain ⟨o, ho, -⟩ := bind_eq_ok h
  rw [mdsGenerateOptimized] at ho
  obtain ⟨hat, hhat, -⟩ := bind_eq_ok ho
  exact ⟨mdsGenerate_dims hmds, mdsHat_dims hhat, arcV1_dims harc⟩

/-- **C78, version 1.** `v1::generate` returns exactly when the security level is at most 256, the width is 2 to 8, the
modulus has at least 128 bits, an S-box is found, and the five const generics are the right ones: `t²` matrix
elements, `(t-1)²` elements of the reduced matrix, as many rows of constants as there are rounds, `t` constants for
each row, and as many sparse matrices as there are partial rounds.  Any other choice of the const generics panics. -/
theorem C78_v1_returns_iff (L : Libm) (hL : L.Accurate) (hl2 : L.log2 2 = 1) (debug : Bool) (nlimbs : Nat)
    (hn : nlimbs < 2 ^ 28) (p : Nat) (hpp : p.Prime) [CharP F p] (hp : numBits p < 2 ^ 32) (security : Nat) (allow : Bool) :
    (∃ P, v1Generate L debug F nlimbs k nmds nhat rows nround npart security p allow = .ok P) ↔
      (security ≤ 256 ∧ (2 ≤ k + 1 ∧ k + 1 ≤ 8) ∧ 2 ^ 127 ≤ p ∧ (allow = true ∨ ¬ NoSmallExponent p)) ∧
      (nmds = (k + 1) * (k + 1) ∧ nhat = k * k ∧ nround = rows * (k + 1) ∧
        ∃ alpha rounds, alphaGenerate p allow = .ok alpha ∧
          roundsV1Generate L ⟨allow, security, k + 1, p⟩ (log2Big L p) alpha = .ok rounds ∧
          rows = rounds.rP + rounds.rF ∧ npart = rounds.rP) := by
  constructor
  · rintro ⟨P, h⟩
    obtain ⟨hm, hh, ha⟩ := v1Generate_dims h
    have r := v1Generate_result hL hl2 debug hn hp hm hh ha h
    subst ha
    refine ⟨(C50_succeeds_iff L hL hl2 debug nlimbs hn p hpp hp security allow hm hh).1 ⟨_, _, P, h⟩, hm, hh, rfl,
      P.alpha, P.rounds, r.alpha, r.rounds, r.rows_eq, r.npart_eq⟩
  · rintro ⟨⟨h1, ⟨h2, h3⟩, h4, -⟩, hm, hh, ha, alpha, rounds, hα, hr, h5, h6⟩
    subst ha h5 h6
    have hb : 128 ≤ numBits p := by
      rw [numBits, if_neg (by omega)]
      have := (Nat.le_log2 (by omega)).2 h4
      omega
    obtain ⟨rP, rF, h6, -, h8⟩ := C49_full_rounds L hL hl2 ⟨allow, security, k + 1, p⟩ (log2Big L p) alpha h1 h2 h3
      (by rintro e rfl; exact alphaGenerate_range hα)
    obtain rfl : rounds = ⟨rP, rF⟩ := Except.ok.inj (hr.symm.trans h6)
    obtain ⟨P, hP, -⟩ := v1Generate_ok (F := F) debug hn hp hm hh hα h6 h8 h2 h3 hb
    exact ⟨P, hP⟩

/-- **C78, version 1 for callers.** The sizes assumed in C63, C68, C71 and C72 (`GeneratedBy`) are no assumption: every run that
returns has them. -/
theorem C78_v1_sizes (L : Libm) (hL : L.Accurate) (hl2 : L.log2 2 = 1) (debug : Bool) (nlimbs : Nat) (hn : nlimbs < 2 ^ 28)
    (p : Nat) (hp : numBits p < 2 ^ 32) (security : Nat) (allow : Bool) (P : Params F (k + 1) k nmds nhat rows (k + 1) nround npart)
    (h : v1Generate L debug F nlimbs k nmds nhat rows nround npart security p allow = .ok P) :
    GeneratedBy L debug nlimbs p security allow P :=
  have hd := v1Generate_dims h
  ⟨hL, hl2, hn, hp, hd.1, hd.2.1, hd.2.2, h⟩

/-- **C78, version 1 for callers.** Whatever the const generics, if version 1 returns, then optimized and unoptimized hashing with the
result agree on every instance and input. -/
theorem C78_v1_hash (L : Libm) (hL : L.Accurate) (hl2 : L.log2 2 = 1) (debug : Bool) (nlimbs : Nat) (hn : nlimbs < 2 ^ 28)
    (p : Nat) [CharP F p] (hp : numBits p < 2 ^ 32) (security : Nat) (allow : Bool)
    (P : Params F (k + 1) k nmds nhat rows (k + 1) nround npart)
    (h : v1Generate L debug F nlimbs k nmds nhat rows nround npart security p allow = .ok P) (s input : Vector F (k + 1)) :
    Instance.nTo1FixedHash ⟨P, s⟩ input = Instance.unoptimizedNTo1FixedHash ⟨P, s⟩ input :=
  have hd := v1Generate_dims h
  C01_v1_generate L hL hl2 debug nlimbs hn p hp security allow hd.1 hd.2.1 hd.2.2 P h s input

/-- Non-vacuity: the const generics of the shipped parameters of rate 2; with one row of constants less it panics. -/
example : (∃ P, v1Generate (k := 2) (nmds := 9) (nhat := 4) (rows := 39) (nround := 117) (npart := 31) roundedLibm true Fq 4
      128 q false = .ok P) ∧
    ¬ ∃ P, v1Generate (k := 2) (nmds := 9) (nhat := 4) (rows := 38) (nround := 114) (npart := 31) roundedLibm true Fq 4
      128 q false = .ok P := by
  refine ⟨⟨_, C20_shipped _ roundedLibm_accurate true false 1⟩, fun h => ?_⟩
  have hl2 : roundedLibm.log2 2 = 1 := by
    show rne (Real.logb 2 2) = 1
    rw [Real.logb_self_eq_one (by norm_num)]
    simpa using rne_natCast (n := 1) (by norm_num)
  obtain ⟨-, -, -, -, alpha, rounds, h1, h2, h3, -⟩ := (C78_v1_returns_iff roundedLibm roundedLibm_accurate hl2 true 4
    (by norm_num) q q_prime (by decide +kernel) 128 false).1 h
  obtain rfl := Except.ok.inj (h1.symm.trans (C31_shipped false))
  obtain rfl := Except.ok.inj (h2.symm.trans (C39_rounds _ roundedLibm_accurate false 3 (by norm_num) (by norm_num)))
  norm_num at h3

/-! ## Version 2 -/

/-- The bounds of the algebraic attacks for fields of at most 384 bits, whatever the security level. -/
theorem bounds_exponent_field {L : Libm} (hL : L.Accurate) {input : GenInput} {lp : ℝ} (hlp : lp ≤ 400) (ht : 1 ≤ input.t)
    (ht8 : input.t ≤ 8) {e : Nat} (he : 3 ≤ e) (he' : e ≤ 2 ^ 53) :
    ∃ g, algebraicAttackGrobnerBasisV1 L input lp (.exponent e) = .ok g ∧ g ≤ 300 ∧
      algebraicAttackInterpolation L input lp (.exponent e) ≤ 300 := by
  have heR : (3 : ℝ) ≤ e := by exact_mod_cast he
  have htR : (1 : ℝ) ≤ input.t := by exact_mod_cast ht
  have ht64R : (input.t : ℝ) ≤ 64 := by exact_mod_cast (by omega : input.t ≤ 64)
  have hle : (1.09 : ℝ) ≤ Real.log e :=
    log_three_gt.le.trans (Real.log_le_log (by norm_num) heR)
  have hc0 : 0 ≤ L.log 2 e := hL.log_nonneg (by norm_num) (by linarith)
  have hc : L.log 2 e ≤ 0.64 :=
    hL.log_le (by norm_num) (by linarith) Real.log_two_lt_d9.le hle (by norm_num) (by norm_num)
  have hlt : L.log input.t e ≤ 4 := by
    refine hL.log_le htR (by linarith) ((Real.log_le_log (by linarith) ht64R).trans log_64_lt.le) hle
      (by norm_num) (by norm_num)
  have hrt : rne (input.t : ℝ) = input.t := rne_natCast (by omega)
  have hre : rne (e : ℝ) = e := rne_natCast he'
  have hprod : ∀ x : ℝ, x ≤ 400 → rne (L.log 2 e * x) ≤ 257 := by
    intro x hx
    have : L.log 2 e * x ≤ 256 := by
      rcases le_total 0 x with h0 | h0 <;> nlinarith
    exact rne_le_of this (by norm_num) (by norm_num)
  obtain ⟨g, hg⟩ := grobnerV1_ok L lp (.exponent e) ht
  refine ⟨g, hg, ?_, ?_⟩
  · rw [algebraicAttackGrobnerBasisV1, usub, if_pos ht] at hg
    obtain rfl := Except.ok.inj hg
    apply asUsize_floor_le
    simp only [hrt, hre]
    apply max_le
    · refine (hprod _ ((min_le_right _ _).trans ?_)).trans (by norm_num)
      exact rne_le_of (b := 200) (by linarith) (by norm_num) (by norm_num)
    · have h1 : rne ((input.t - 1 : ℕ) : ℝ) ≤ 7 := by
        rw [rne_natCast (by omega)]; exact_mod_cast (by omega : input.t - 1 ≤ 7)
      have h2 : rne (rne (L.log 2 e * lp) / 2) ≤ 130 :=
        rne_le_of (b := 129) (by linarith [hprod lp hlp]) (by norm_num) (by norm_num)
      have h3 := min_le_right (rne (rne (L.log 2 e * rne (input.security : ℝ)) / rne ((input.t : ℝ) + 1)))
        (rne (rne (L.log 2 e * lp) / 2))
      exact rne_le_of (b := 137) (by linarith) (by norm_num) (by norm_num)
  · rw [algebraicAttackInterpolation]
    apply asUsize_ceil_le
    simp only [hrt, hre]
    have h1 : ((⌈rne (L.log 2 e * min (rne (input.security : ℝ)) lp)⌉ : ℤ) : ℝ) ≤ (257 : ℤ) :=
      ceil_le_real ((hprod _ ((min_le_right _ _).trans hlp)).trans (by norm_num))
    push_cast at h1
    exact rne_le_of (b := 262) (by linarith) (by norm_num) (by norm_num)

/-- The additional condition of Poseidon2 holds at the upper end of the search. -/
theorem binomialLarge_top {M t e : Nat} (hM : M ≤ 1500) (ht : 2 ≤ t) : Spec.BinomialLarge M t e 399 99 := by
  set u := (99 - 1) * t + 399 + t / 3 + (t / 3 * (99 / 2) + 399 + e) with hu
  have h1 : Nat.choose (2 * 399) 399 ≤ Nat.choose u 399 := Nat.choose_le_choose _ (by omega)
  have h2 : 2 ^ 752 ≤ Nat.choose (2 * 399) 399 := by
    have h3 := Nat.four_pow_le_two_mul_self_mul_centralBinom 399 (by norm_num)
    rw [Nat.centralBinom] at h3
    have h4 : 2 * 399 * 2 ^ 752 ≤ 4 ^ 399 := by decide +kernel
    exact Nat.le_of_mul_le_mul_left (h4.trans h3) (by norm_num)
  have h0 : Nat.choose u 399 ≠ 0 := (lt_of_lt_of_le (Nat.two_pow_pos 752) (h2.trans h1)).ne'
  refine ⟨399, numBits (Nat.choose u 399), by norm_num, by omega, numBits_spec h0, ?_⟩
  have h5 : 752 ≤ (Nat.choose u 399).log2 := (Nat.le_log2 h0).2 (h2.trans h1)
  rw [numBits, if_neg h0]
  omega

theorem log2Big_le {L : Libm} (hL : L.Accurate) {p : Nat} (h1 : 1 ≤ p) (h : p < 2 ^ 384) : log2Big L p ≤ 400 := by
  obtain ⟨l, -, h2, -, h3⟩ := C43_float L hL p h1
  have h4 : Real.logb 2 p ≤ 384 := by
    have := logb2_le (x := (p : ℝ)) (n := 384) (by exact_mod_cast h1) (by exact_mod_cast h.le)
    simpa using this
  have h5 := (abs_le.1 h3).2
  have h6 : (2⁻¹ : ℝ) ^ 39 * l ≤ 1 := by
    have : (2⁻¹ : ℝ) ^ 39 * l ≤ (2⁻¹ : ℝ) ^ 39 * 384 := mul_le_mul_of_nonneg_left (h2.trans h4) (by positivity)
    refine this.trans ?_
    norm_num
  linarith

/-- The round search of version 2 finds something. -/
theorem roundsV2_ok {L : Libm} (hL : L.Accurate) {input : GenInput} {lp : ℝ}
    (hM : input.security ≤ 256 ∨ input.security ≤ 1500 ∧ lp ≤ 400) (ht : 2 ≤ input.t) (ht8 : input.t ≤ 8)
    {e : Nat} (he : 3 ≤ e) (he' : e ≤ 2 ^ 53) : ∃ r, roundsV2Generate L input lp (.exponent e) = .ok r := by
  obtain ⟨g, hg, hg2, hI⟩ : ∃ g, algebraicAttackGrobnerBasisV1 L input lp (.exponent e) = .ok g ∧ g ≤ 300 ∧
      algebraicAttackInterpolation L input lp (.exponent e) ≤ 300 := by
    rcases hM with hM | ⟨-, hlp⟩
    · obtain ⟨g, h1, h2, h3⟩ := bounds_exponent hL (lp := lp) hM (by omega) (by omega) he he'
      exact ⟨g, h1, h2, by omega⟩
    · exact bounds_exponent_field hL hlp (by omega) ht8 he he'
  have hs1 : isSecureV1 L input lp (.exponent e) ⟨399, 99⟩ = .ok true := by
    rw [isSecureV1_eq L lp _ hg, decide_eq_true]
    have := statistical_cases L input lp (.exponent e)
    simp only [roundMeasure, RoundNumbers.total]
    omega
  have hs2 := (C56_v2 L input lp e 399 99 (by omega) (by omega) (by norm_num)).2
    ⟨hs1, binomialLarge_top (by omega) ht⟩
  rcases C37_v2 L input lp e (by omega) (by omega) with ⟨h, -⟩ | ⟨rP, rF, -, h⟩
  · have := h 399 99 (by unfold Spec.InRange; omega)
    rw [hs2] at this
    cases this
  · exact ⟨_, h⟩

/-- **C78, version 2.** `v2::generate` returns exactly when the width is 2 or 3, the determinant of the
internal matrix (5 or 7) does not vanish in the field, a positive exponent and round numbers are found, and the const generics are `t²` and `t r_F + r_P`. -/
theorem C78_v2_returns_iff (L : Libm) (debug : Bool) (nlimbs : Nat) (hn : nlimbs < 2 ^ 28) (p : Nat)
    (hpp : p.Prime) (hp : numBits p < 2 ^ 32) (security : Nat)
    (t nmds nround : Nat) (allow : Bool) :
    (∃ P, v2Generate L debug F nlimbs t nmds nround security p allow = .ok P) ↔
      (t = 2 ∧ (5 : F) ≠ 0 ∨ t = 3 ∧ (7 : F) ≠ 0) ∧ ¬ NoSmallExponent p ∧ nmds = t * t ∧
        ∃ alpha rounds, alphaGenerate p allow = .ok alpha ∧
          roundsV2Generate L ⟨allow, security, t, p⟩ (log2Big L p) alpha = .ok rounds ∧
          nround = t * rounds.rF + rounds.rP := by
  constructor
  · rintro ⟨P, h⟩
    rw [v2Generate] at h
    obtain ⟨alpha, hα, h⟩ := bind_eq_ok h
    obtain ⟨rounds, hr, h⟩ := bind_eq_ok h
    obtain ⟨arc, harc, h⟩ := bind_eq_ok h
    obtain ⟨mi, hmi, -⟩ := bind_eq_ok h
    obtain ⟨hnm, -⟩ := C41_invertible debug t nmds mi hmi
    have hexp : ¬ NoSmallExponent p := by
      intro hc
      cases allow with
      | true =>
        obtain rfl := Except.ok.inj (hα.symm.trans ((C31_fallback hpp true).1.2 ⟨rfl, hc⟩))
        rw [C37_v2_inverse] at hr
        cases hr
      | false =>
        obtain ⟨e, he⟩ := (C31_fallback hpp false).2.2 ⟨rfl, hc⟩
        rw [hα] at he
        cases he
    refine ⟨?_, hexp, hnm, alpha, rounds, hα, hr, ?_⟩
    · by_cases h2 : t = 2
      · subst h2
        left
        refine ⟨rfl, fun h5 => ?_⟩
        obtain rfl : nmds = 4 := hnm
        rw [(C41_two debug).2 h5] at hmi
        cases hmi
      · by_cases h3 : t = 3
        · subst h3
          right
          refine ⟨rfl, fun h7 => ?_⟩
          obtain rfl : nmds = 9 := hnm
          rw [(C41_three debug).2 h7] at hmi
          cases hmi
        · rw [C41_other debug t nmds h2 h3] at hmi
          cases hmi
    · rw [arcV2Generate] at harc
      obtain ⟨els, hels, harc⟩ := bind_eq_ok harc
      have hlen := (Mat.new_dims harc).2
      obtain ⟨l, h1, h2, -⟩ := C48_stream F nlimbs hn ⟨allow, security, t, p⟩ hp rounds alpha
        (rounds.full * t + rounds.partialRounds) 0
      rw [Nat.add_zero] at h1 h2
      obtain rfl := Except.ok.inj (h1.symm.trans hels)
      rw [← hlen, h2, Nat.mul_comm]
      rfl
  · rintro ⟨ht, hexp, hnm, alpha, rounds, hα, hr, hnr⟩
    obtain ⟨l, h1, h2, -⟩ := C48_stream F nlimbs hn ⟨allow, security, t, p⟩ hp rounds alpha
      (rounds.full * t + rounds.partialRounds) 0
    rw [Nat.add_zero] at h1 h2
    have hlen : l.length = nround := by
      rw [h2, hnr, Nat.mul_comm]
      rfl
    have harc : arcV2Generate F nlimbs nround ⟨allow, security, t, p⟩ rounds alpha = .ok ⟨⟨l.toArray, by simpa using hlen⟩⟩ := by
      rw [arcV2Generate, h1, ok_bind, Mat.new, if_neg (by simp), dif_pos hlen]
    obtain ⟨mi, hmi⟩ : ∃ mi, internalGenerate debug F t nmds = .ok mi := by
      subst hnm
      rcases ht with ⟨rfl, h5⟩ | ⟨rfl, h7⟩
      · obtain ⟨m, hm, -⟩ := (C41_two (F := F) debug).1 h5
        exact ⟨m, hm⟩
      · obtain ⟨m, hm, -⟩ := (C41_three (F := F) debug).1 h7
        exact ⟨m, hm⟩
    refine ⟨⟨security, alpha, rounds, mi, mi, ⟨⟨l.toArray, by simpa using hlen⟩⟩⟩, ?_⟩
    rw [v2Generate, hα, ok_bind]
    dsimp only
    rw [hr, ok_bind, harc, ok_bind, hmi, ok_bind, if_pos (by omega)]
    rfl

/-- **C78, existence.** For security levels up to 256, or up to 1500 over fields of at most 384 bits, the search for round
numbers succeeds: under the conditions on the width, the field and the exponent there are const generics for which
version 2 returns.  Unlike version 1 it does not refuse levels above 256 and does not need a field of 128 bits, and
the inverse S-box is of no use to it. -/
theorem C78_v2_exists (L : Libm) (hL : L.Accurate) (debug : Bool) (nlimbs : Nat) (hn : nlimbs < 2 ^ 28) (p : Nat)
    (hpp : p.Prime) (hp : numBits p < 2 ^ 32) (security : Nat) (hM : security ≤ 256 ∨ security ≤ 1500 ∧ p < 2 ^ 384)
    (t : Nat) (allow : Bool) (ht : t = 2 ∧ (5 : F) ≠ 0 ∨ t = 3 ∧ (7 : F) ≠ 0) (hexp : ¬ NoSmallExponent p) :
    ∃ nmds nround P, v2Generate L debug F nlimbs t nmds nround security p allow = .ok P := by
  cases hα : alphaGenerate p allow with
  | error e => exact absurd ((C31_fallback hpp allow).2.1 ⟨e, hα⟩).2 hexp
  | ok alpha =>
    cases alpha with
    | inverse => exact absurd ((C31_fallback hpp allow).1.1 hα).2 hexp
    | exponent e =>
      have he := alphaGenerate_range hα
      obtain ⟨r, hr⟩ := roundsV2_ok (L := L) hL (input := ⟨allow, security, t, p⟩) (lp := log2Big L p) (e := e)
        (hM.imp id fun h => ⟨h.1, log2Big_le hL hpp.one_lt.le h.2⟩) (by simp only; omega) (by simp only; omega) he.1
        (by omega)
      refine ⟨t * t, t * r.rF + r.rP, (C78_v2_returns_iff L debug nlimbs hn p hpp hp security t _ _ allow).2
        ⟨ht, hexp, rfl, _, r, hα, hr, rfl⟩⟩

/-- **C78, finding.** For the field of the curve and every security level from 257 to 1500, version 1 refuses to generate
parameters for widths 2 and 3 and version 2 returns a set that carries the level asked for. -/
theorem C78_v2_no_limit (L : Libm) (hL : L.Accurate) (debug : Bool) (security : Nat) (h : 256 < security)
    (h' : security ≤ 1500) (t : Nat) (ht : t = 2 ∨ t = 3) (allow : Bool) :
    (∀ nmds nhat rows nround npart, ∃ e,
      v1Generate L debug Fq 4 (t - 1) nmds nhat rows nround npart security q allow = .error e) ∧
    ∃ nmds nround P, v2Generate L debug Fq 4 t nmds nround security q allow = .ok P ∧ P.security = security := by
  have hsmall : (5 : Fq) ≠ 0 ∧ (7 : Fq) ≠ 0 := by
    refine ⟨?_, ?_⟩
    · exact_mod_cast fq_small 5 (by norm_num) (by norm_num)
    · exact_mod_cast fq_small 7 (by norm_num) (by norm_num)
  refine ⟨fun nmds nhat rows nround npart => ⟨.explicit, ?_⟩, ?_⟩
  · rw [v1Generate]
    refine Eq.trans (congrArg (· >>= _) (C31_shipped allow)) ?_
    rw [ok_bind]
    refine Eq.trans (congrArg (· >>= _) (C37_v1_refused L _ _ _ h)) ?_
    rfl
  · have hexp : ¬ NoSmallExponent q := by
      intro hc
      obtain ⟨e, he⟩ := (C31_fallback q_prime false).2.2 ⟨rfl, hc⟩
      rw [C31_shipped] at he
      cases he
    obtain ⟨nmds, nround, P, hP⟩ := C78_v2_exists (F := Fq) L hL debug 4 (by norm_num) q q_prime (by decide +kernel) security
      (Or.inr ⟨h', by decide +kernel⟩) t allow (by rcases ht with rfl | rfl; exacts [Or.inl ⟨rfl, hsmall.1⟩, Or.inr ⟨rfl, hsmall.2⟩])
      hexp
    refine ⟨nmds, nround, P, hP, ?_⟩
    rw [v2Generate] at hP
    obtain ⟨_, _, hP⟩ := bind_eq_ok hP
    obtain ⟨_, _, hP⟩ := bind_eq_ok hP
    obtain ⟨_, _, hP⟩ := bind_eq_ok hP
    obtain ⟨_, _, hP⟩ := bind_eq_ok hP
    rw [if_pos (by omega)] at hP
    cases hP
    rfl

/-- Non-vacuity: 512 bits of security over a field of 253 bits. -/
example : ∃ nmds nround P, v2Generate roundedLibm true Fq 4 3 nmds nround 512 q false = .ok P ∧ P.security = 512 :=
  (C78_v2_no_limit roundedLibm roundedLibm_accurate true 512 (by norm_num) (by norm_num) 3 (Or.inr rfl) false).2

end Poseidon
