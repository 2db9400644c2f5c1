import Verif.Proofs.GenV1
import Verif.Props.Native
import Mathlib.Algebra.CharP.CharAndCard
import Mathlib.FieldTheory.Finite.Basic

/-!
# Properties of `v1::generate` as a whole (C01, C20, C50, C51)

`L : Libm` stands for the platform's logarithms; see `Model/GenFloat.lean`.
-/

set_option linter.unusedSectionVars false

namespace Poseidon

open scoped Matrix

variable {F : Type} [Field F] [DecidableEq F] {k rows nmds nhat nround npart : Nat}

/-! ## C20: the shipped parameters are generated -/

/-- C20: on the modulus of `decaf377::Fq`, 128 bits of security and width `t = 2, …, 8`, `v1::generate` returns
the shipped parameter set of rate `t - 1`: same security level, S-box, round numbers, MDS matrix, round
constants, and every derived table, entry by entry.  In debug and release builds, with or without the inverse
S-box allowed, and for all logarithms with a relative error of at most `2⁻⁴⁰`. -/
theorem C20_shipped (L : Libm) (hL : L.Accurate) (debug allow : Bool) (i : Fin 7) :
    v1Generate L debug Fq 4 (i.val + 1) ((i.val + 2) * (i.val + 2)) ((i.val + 1) * (i.val + 1)) 39 (39 * (i.val + 2)) 31
      128 q allow = .ok (shippedParams i) := by
  have hb : 128 ≤ numBits q := by decide +kernel
  obtain ⟨P, hP, hα, hr⟩ := v1Generate_ok (F := Fq) (L := L) (k := i.val + 1) (nmds := (i.val + 2) * (i.val + 2))
    (nhat := (i.val + 1) * (i.val + 1)) debug (nlimbs := 4) (by norm_num) (p := q) (by decide +kernel)
    (security := 128) (allow := allow) rfl rfl (C31_shipped allow)
    (C39_rounds L hL allow (i.val + 2) (by omega) (by omega)) (by norm_num) (by omega) (by omega) hb
  refine hP.trans (congrArg _ ?_)
  change Params Fq (i.val + 2) (i.val + 1) ((i.val + 2) * (i.val + 2)) ((i.val + 1) * (i.val + 1)) 39 (i.val + 2)
    (39 * (i.val + 2)) 31 at P
  -- the run, step by step
  rw [v1Generate] at hP
  obtain ⟨alpha, hα', hP⟩ := bind_eq_ok hP
  obtain ⟨rounds, hr', hP⟩ := bind_eq_ok hP
  obtain ⟨mds, hmds, hP⟩ := bind_eq_ok hP
  obtain ⟨arc, harc, hP⟩ := bind_eq_ok hP
  obtain ⟨o, ho, hP⟩ := bind_eq_ok hP
  obtain ⟨oarc, hoarc, hP⟩ := bind_eq_ok hP
  obtain ⟨o', ho', hP⟩ := bind_eq_ok hP
  obtain rfl : alpha = .exponent 17 := Except.ok.inj (hα'.symm.trans (C31_shipped allow))
  obtain rfl : rounds = ⟨31, 8⟩ := Except.ok.inj (hr'.symm.trans (C39_rounds L hL allow (i.val + 2) (by omega) (by omega)))
  rw [fitRounds, dif_pos rfl] at ho'
  cases ho'
  obtain rfl : arc = (shippedParams i).arc := Except.ok.inj (harc.symm.trans (C19_arc i allow))
  obtain ⟨-, -, hC⟩ := mdsGenerate_eq_of_ok (F := Fq) (⟨allow, 128, i.val + 2, q⟩ : GenInput) rfl (by simp) mds hmds
  obtain rfl : mds = (shippedParams i).mds := Mat.toM_inj rfl (hC.trans (shipped_mds_cauchy i).symm)
  obtain ⟨-, -, -, -, hdetA, -, -⟩ := (mdsGenerateOptimized_ok_iff debug rfl rfl (shippedParams i).mds ⟨31, 8⟩ o).1 ho
  obtain ⟨s1, s2, -⟩ := shippedAll i
  have d1 := genParams_derivedMds (rows := 39) debug rfl rfl 128 (.exponent 17) ⟨31, 8⟩ (shippedParams i).mds (shippedParams i).arc oarc o ho
  have d2 := genParams_derivedArc (rows := 39) debug rfl rfl 128 (.exponent 17) ⟨31, 8⟩ (shippedParams i).mds (shippedParams i).arc oarc o
    (by omega) hdetA (by norm_num) (by norm_num) (by decide) hoarc
  have e1 : o = (shippedParams i).optimizedMds := d1.unique s1 rfl (by rw [shipped_rounds]; rfl)
  have e2 : oarc = (shippedParams i).optimizedArc := d2.unique s2 rfl (by rw [shipped_rounds]; rfl) rfl
    ((Matrix.isUnit_iff_isUnit_det _).2 (isUnit_iff_ne_zero.2 hdetA)) (by simp [genParams]) (by simp [genParams])
  have e3 := shipped_security i
  have e4 := shipped_alpha i
  have e5 := shipped_rounds i
  subst e1 e2
  refine (Except.ok.inj hP).symm.trans ?_
  rw [← e3, ← e4]
  revert e5
  cases shippedParams i
  rintro rfl
  rfl

/-- Non-vacuity: correctly rounded logarithms are accurate enough. -/
example (i : Fin 7) : v1Generate roundedLibm true Fq 4 (i.val + 1) ((i.val + 2) * (i.val + 2)) ((i.val + 1) * (i.val + 1))
    39 (39 * (i.val + 2)) 31 128 q true = .ok (shippedParams i) :=
  C20_shipped _ roundedLibm_accurate _ _ _

/-! ## C50: when the generator succeeds -/

/-- C50: for a field of prime order `p`, `v1::generate` returns exactly when the security level is at most 256, the
width is 2 to 8, the modulus has at least 128 bits, and the inverse S-box is allowed or some short exponent is
coprime to `p - 1`.  (`rows` and `npart` are the array sizes the caller has to choose; see `C50_sizes`.) -/
theorem C50_succeeds_iff (L : Libm) (hL : L.Accurate) (hl2 : L.log2 2 = 1) (debug : Bool) (nlimbs : Nat)
    (hn : nlimbs < 2 ^ 28) (p : Nat) (hpp : p.Prime) [CharP F p] (hp : numBits p < 2 ^ 32) (security : Nat) (allow : Bool)
    (hm : nmds = (k + 1) * (k + 1)) (hh : nhat = k * k) :
    (∃ rows npart P, v1Generate L debug F nlimbs k nmds nhat rows (rows * (k + 1)) npart security p allow = .ok P) ↔
      security ≤ 256 ∧ (2 ≤ k + 1 ∧ k + 1 ≤ 8) ∧ 2 ^ 127 ≤ p ∧ (allow = true ∨ ¬ NoSmallExponent p) := by
  constructor
  · rintro ⟨rows, npart, P, h⟩
    have r := v1Generate_result hL hl2 debug hn hp hm hh rfl h
    refine ⟨r.security_le, r.width, numBits_ge r.bits, ?_⟩
    by_contra hc
    push Not at hc
    obtain ⟨e, he⟩ := (C31_fallback hpp allow).2.2 ⟨by simpa using hc.1, hc.2⟩
    rw [r.alpha] at he
    cases he
  · rintro ⟨h1, ⟨h2, h3⟩, h4, h5⟩
    have hb : 128 ≤ numBits p := by
      rw [numBits, if_neg (by omega)]
      have := (Nat.le_log2 (by omega)).2 h4
      omega
    cases hα : alphaGenerate p allow with
    | error e =>
      obtain ⟨h6, h7⟩ := (C31_fallback hpp allow).2.1 ⟨e, hα⟩
      rcases h5 with h5 | h5
      · rw [h6] at h5; cases h5
      · exact absurd h7 h5
    | ok alpha =>
      obtain ⟨rP, rF, h6, -, h8⟩ := C49_full_rounds L hL hl2 ⟨allow, security, k + 1, p⟩ (log2Big L p) alpha h1 h2 h3
        (by rintro e rfl; exact alphaGenerate_range hα)
      obtain ⟨P, hP, -⟩ := v1Generate_ok (F := F) debug hn hp hm hh hα h6 h8 h2 h3 hb
      exact ⟨_, _, P, hP⟩

/-- C50: the array sizes are determined by the round numbers returned: `r_P + r_F` rows of constants and `r_P`
sparse matrices; the security level is passed on. -/
theorem C50_sizes (L : Libm) (hL : L.Accurate) (hl2 : L.log2 2 = 1) (debug : Bool) (nlimbs : Nat)
    (hn : nlimbs < 2 ^ 28) (p : Nat) [CharP F p] (hp : numBits p < 2 ^ 32) (security : Nat) (allow : Bool)
    (hm : nmds = (k + 1) * (k + 1)) (hh : nhat = k * k) (ha : nround = rows * (k + 1))
    (P : Params F (k + 1) k nmds nhat rows (k + 1) nround npart)
    (h : v1Generate L debug F nlimbs k nmds nhat rows nround npart security p allow = .ok P) :
    rows = P.rounds.rP + P.rounds.rF ∧ npart = P.rounds.rP ∧ P.security = security ∧
      (P.rounds.rF = 8 ∨ P.rounds.rF = 12) ∧ 1 ≤ P.rounds.rP := by
  have r := v1Generate_result hL hl2 debug hn hp hm hh ha h
  exact ⟨r.rows_eq, r.npart_eq, r.security_eq, r.full, r.part⟩

/-- Non-vacuity of `C50_succeeds_iff`. -/
example : ∃ rows npart P, v1Generate roundedLibm true Fq 4 2 9 4 rows (rows * 3) npart 128 q false = .ok P :=
  ⟨39, 31, _, C20_shipped _ roundedLibm_accurate true false 1⟩

/-! ## C01 and C51: hashing with generated parameters -/

theorem V1Result.consistent {L : Libm} {nlimbs security p : Nat} {allow : Bool}
    {P : Params F (k + 1) k nmds nhat rows (k + 1) nround npart} {hm : nmds = (k + 1) * (k + 1)} {hh : nhat = k * k}
    {ha : nround = rows * (k + 1)} (r : V1Result L nlimbs security p allow P hm hh ha) : Consistent P hm ha := by
  have h1 := r.rows_eq
  have h2 := r.npart_eq
  have h3 : P.rounds.total = P.rounds.rP + P.rounds.rF := rfl
  exact Consistent.of_derived r.derivedMds r.derivedArc (by omega) r.part h2.ge

/-- C01, for the generator as a whole: whatever `v1::generate` returns, the optimized and the unoptimized hash
agree on every input, in their digests, the instances they leave and their panics. -/
theorem C01_v1_generate (L : Libm) (hL : L.Accurate) (hl2 : L.log2 2 = 1) (debug : Bool) (nlimbs : Nat)
    (hn : nlimbs < 2 ^ 28) (p : Nat) [CharP F p] (hp : numBits p < 2 ^ 32) (security : Nat) (allow : Bool)
    (hm : nmds = (k + 1) * (k + 1)) (hh : nhat = k * k) (ha : nround = rows * (k + 1))
    (P : Params F (k + 1) k nmds nhat rows (k + 1) nround npart)
    (h : v1Generate L debug F nlimbs k nmds nhat rows nround npart security p allow = .ok P)
    (s input : Vector F (k + 1)) :
    Instance.nTo1FixedHash ⟨P, s⟩ input = Instance.unoptimizedNTo1FixedHash ⟨P, s⟩ input :=
  hash_agree P s input (permute_agree P hm ha (v1Generate_result hL hl2 debug hn hp hm hh ha h).consistent input)

/-- C51: with generated parameters the hash is the textbook Poseidon hash with the Cauchy matrix `1/(i + j + t)`,
the generated S-box, round numbers and round constants: word 1 of the permuted input, or a panic if the inverse
S-box meets a zero. -/
theorem C51_textbook (L : Libm) (hL : L.Accurate) (hl2 : L.log2 2 = 1) (debug : Bool) (nlimbs : Nat)
    (hn : nlimbs < 2 ^ 28) (p : Nat) [CharP F p] (hp : numBits p < 2 ^ 32) (security : Nat) (allow : Bool)
    (hm : nmds = (k + 1) * (k + 1)) (hh : nhat = k * k) (ha : nround = rows * (k + 1))
    (P : Params F (k + 1) k nmds nhat rows (k + 1) nround npart)
    (h : v1Generate L debug F nlimbs k nmds nhat rows nround npart security p allow = .ok P) :
    ∃ C : Fin (P.rounds.rF / 2 + P.rounds.rP + P.rounds.rF / 2) → Fin (k + 1) → F,
      (∀ r (hr : r < rows) hr' j, C ⟨r, hr'⟩ j = P.arc.toM ha ⟨r, hr⟩ j) ∧
      ∀ (s : Vector F (k + 1)) (x : Fin (k + 1) → F),
        match textbook P.alpha (cauchyMds F (k + 1)) (P.rounds.rF / 2) P.rounds.rP C x with
        | none => Instance.nTo1FixedHash ⟨P, s⟩ (Vector.ofFn x) = .error .divZero
        | some y => ∃ i1 : Fin (k + 1), i1.val = 1 ∧
            Instance.nTo1FixedHash ⟨P, s⟩ (Vector.ofFn x) = .ok (y i1, ⟨P, Vector.ofFn y⟩) := by
  have r := v1Generate_result hL hl2 debug hn hp hm hh ha h
  have hw := r.width
  refine ⟨fun r' => P.arc.toM ha ⟨r'.val, lt_of_lt_of_le r'.isLt r.consistent.rows_le⟩, fun _ _ _ _ => rfl, ?_⟩
  intro s x
  have hN := nTo1FixedHash_eq P hm ha r.consistent (by omega) s x
  rw [r.mds] at hN
  generalize textbook P.alpha _ _ _ _ x = o at hN
  cases o with
  | none => exact hN
  | some y =>
    refine ⟨⟨1, by omega⟩, rfl, hN.trans ?_⟩
    show Except.ok _ = _
    dsimp only
    rw [Vector.getElem_ofFn]

/-- C51: if the generated S-box is an exponent, the hash never panics and its output words are a bijection of the
input words, over every field of `p` elements. -/
theorem C51_bijective (L : Libm) (hL : L.Accurate) (hl2 : L.log2 2 = 1) (debug : Bool) (nlimbs : Nat)
    (hn : nlimbs < 2 ^ 28) (p : Nat) (hpp : p.Prime) [Fintype F] (hF : Fintype.card F = p) (hp : numBits p < 2 ^ 32)
    (security : Nat) (allow : Bool)
    (hm : nmds = (k + 1) * (k + 1)) (hh : nhat = k * k) (ha : nround = rows * (k + 1))
    (P : Params F (k + 1) k nmds nhat rows (k + 1) nround npart)
    (h : v1Generate L debug F nlimbs k nmds nhat rows nround npart security p allow = .ok P)
    (e : Nat) (he : P.alpha = .exponent e) :
    ∃ f : (Fin (k + 1) → F) → (Fin (k + 1) → F), Function.Bijective f ∧
      ∀ (s : Vector F (k + 1)) (x : Fin (k + 1) → F), ∃ d inst',
        Instance.nTo1FixedHash ⟨P, s⟩ (Vector.ofFn x) = .ok (d, inst') ∧ inst'.outputWords = Vector.ofFn (f x) := by
  have : Fact p.Prime := ⟨hpp⟩
  have : CharP F p := charP_of_card_eq_prime hF
  have r := v1Generate_result hL hl2 debug hn hp hm hh ha h
  obtain ⟨C, -, hC⟩ := C51_textbook L hL hl2 debug nlimbs hn p hp security allow hm hh ha P h
  have hb := C31_bijective hpp allow (he ▸ r.alpha) F hF
  refine ⟨permE e (cauchyMds F (k + 1)) _ _ C, permE_bijective (N := P.optimizedMds.mInverse.toM hm)
    (by rw [← r.mds]; exact r.derivedMds.mInverse) hb _ _ _, fun s x => ?_⟩
  have h1 := hC s x
  rw [he, textbook_exponent] at h1
  obtain ⟨i1, -, h1⟩ := h1
  exact ⟨_, _, h1, rfl⟩

/-- C51: if the generated S-box is the inverse, the hash panics on some input: `v1::generate` with
`allow_inverse` can return parameters no caller should use on untrusted input. -/
theorem C51_inverse_panics (L : Libm) (hL : L.Accurate) (hl2 : L.log2 2 = 1) (debug : Bool) (nlimbs : Nat)
    (hn : nlimbs < 2 ^ 28) (p : Nat) [CharP F p] (hp : numBits p < 2 ^ 32) (security : Nat) (allow : Bool)
    (hm : nmds = (k + 1) * (k + 1)) (hh : nhat = k * k) (ha : nround = rows * (k + 1))
    (P : Params F (k + 1) k nmds nhat rows (k + 1) nround npart)
    (h : v1Generate L debug F nlimbs k nmds nhat rows nround npart security p allow = .ok P)
    (he : P.alpha = .inverse) :
    ∃ x, ∀ s, Instance.nTo1FixedHash ⟨P, s⟩ x = .error .divZero := by
  have r := v1Generate_result hL hl2 debug hn hp hm hh ha h
  obtain ⟨C, -, hC⟩ := C51_textbook L hL hl2 debug nlimbs hn p hp security allow hm hh ha P h
  have hrF := r.full
  have hpos : 0 < P.rounds.rF / 2 := by omega
  revert C
  generalize hN : P.rounds.rF / 2 = rf at *
  intro C hC
  obtain ⟨n, hn'⟩ : ∃ n, rf + P.rounds.rP + rf = n + 1 := ⟨rf + P.rounds.rP + rf - 1, by omega⟩
  let r0 : Fin (rf + P.rounds.rP + rf) := ⟨0, by omega⟩
  refine ⟨Vector.ofFn fun i => - C r0 i, fun s => ?_⟩
  have h1 := hC s fun i => - C r0 i
  have h2 : textbook P.alpha (cauchyMds F (k + 1)) rf P.rounds.rP C (fun i => - C r0 i) = none := by
    rw [textbook]
    have hl : List.finRange (rf + P.rounds.rP + rf) = r0 :: (List.finRange (rf + P.rounds.rP + rf)).tail := by
      cases hl : List.finRange (rf + P.rounds.rP + rf) with
      | nil => simp at hl; omega
      | cons a l =>
        have : (List.finRange (rf + P.rounds.rP + rf))[0]? = some a := by rw [hl]; rfl
        rw [List.getElem?_eq_getElem (by simp; omega), List.getElem_finRange] at this
        have e : r0 = a := by
          have := Option.some.inj this
          rw [← this]; rfl
        rw [e]; rfl
    rw [hl, List.foldlM_cons, textbookRound, if_neg]
    · rfl
    · push Not
      exact ⟨0, Or.inr rfl, by simp [he, Alpha.Defined]⟩
  rw [h2] at h1
  exact h1

/-! ### A field for which the inverse S-box is chosen -/

/-- `2^75 · 3 · 5 · 7 · 11 · 13 · 17 · 19 · 23 · 29 · 31 · 37 · 41 · 43 + 1` -/
def inverseModulus : Nat := 247126374464246382119793635087634923521

theorem inverseModulus_prime : Nat.Prime inverseModulus := by
  apply lucas_of_check _ 73 [(2, 75), (3, 1), (5, 1), (7, 1), (11, 1), (13, 1), (17, 1), (19, 1), (23, 1), (29, 1),
    (31, 1), (37, 1), (41, 1), (43, 1)] (by decide +kernel) (by decide +kernel)
  · intro f hf
    fin_cases hf <;> norm_num
  · decide +kernel
  · decide +kernel
  · decide +kernel

/-- Non-vacuity of `C51_inverse_panics` and of the refusal in `C50_succeeds_iff`: for this 128-bit prime the
generator returns the inverse S-box if that is allowed, and panics otherwise. -/
example : (∃ rows npart, ∃ P : Params (ZMod inverseModulus) 3 2 9 4 rows 3 (rows * 3) npart,
      haveI := Fact.mk inverseModulus_prime
      v1Generate roundedLibm true (ZMod inverseModulus) 2 2 9 4 rows (rows * 3) npart 128 inverseModulus true = .ok P ∧
        P.alpha = .inverse) ∧
    ∃ e, alphaGenerate inverseModulus false = .error e := by
  have := Fact.mk inverseModulus_prime
  have hi : alphaGenerate inverseModulus true = .ok .inverse := by decide +kernel
  refine ⟨?_, .explicit, by decide +kernel⟩
  have hl2 : roundedLibm.log2 2 = 1 := by
    show rne (Real.logb 2 2) = 1
    rw [Real.logb_self_eq_one (by norm_num)]
    simpa using rne_natCast (n := 1) (by norm_num)
  obtain ⟨rP, rF, h6, -, h8⟩ := C49_full_rounds roundedLibm roundedLibm_accurate hl2 ⟨true, 128, 2 + 1, inverseModulus⟩
    (log2Big roundedLibm inverseModulus) .inverse (by norm_num) (by norm_num) (by norm_num) (by intro e h; cases h)
  obtain ⟨P, hP, hα, -⟩ := v1Generate_ok (F := ZMod inverseModulus) (nmds := 9) (nhat := 4) true (nlimbs := 2) (by norm_num)
    (p := inverseModulus) (by decide +kernel) rfl rfl hi h6 h8 (by norm_num) (by norm_num) (by decide +kernel)
  exact ⟨_, _, P, hP, hα⟩

end Poseidon
