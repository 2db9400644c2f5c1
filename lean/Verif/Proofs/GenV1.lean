import Verif.Model.GenV1
import Verif.Proofs.DerivedUnique
import Verif.Props.Rounds
import Verif.Props.Alpha
import Verif.Props.Transcript
import Verif.Props.Generator

/-! # Lemmas about `v1::generate` -/

set_option linter.unusedSectionVars false

namespace Poseidon

open scoped Matrix

variable {F : Type} [Field F] [DecidableEq F] {k rows nmds nhat nround npart : Nat}

theorem bind_eq_ok {α β : Type _} {x : R α} {f : α → R β} {y : β} (h : (x >>= f) = .ok y) :
    ∃ a, x = .ok a ∧ f a = .ok y := by
  cases x with
  | error e => exact absurd h (by simp [bind, Except.bind])
  | ok a => exact ⟨a, rfl, h⟩

theorem alphaLoop_mem (p : Nat) (l : List Nat) (a : Nat) (h : alphaLoop p l = .ok (some a)) : a ∈ l := by
  induction l with
  | nil => simp [alphaLoop, pure, Except.pure] at h
  | cons c l ih =>
    rw [alphaLoop] at h
    split at h
    · obtain ⟨b, -, h⟩ := bind_eq_ok h
      cases b with
      | false => exact List.mem_cons_of_mem _ (ih h)
      | true =>
        have : a = c := by simpa [pure, Except.pure] using h.symm
        rw [this]; exact List.mem_cons_self
    · exact List.mem_cons_of_mem _ (ih h)

theorem alphaGenerate_range {p : Nat} {allow : Bool} {e : Nat} (h : alphaGenerate p allow = .ok (.exponent e)) :
    3 ≤ e ∧ e < 2 ^ 32 := by
  obtain ⟨o, h1, h2⟩ := bind_eq_ok h
  cases o with
  | none => cases allow <;> simp [pure, Except.pure] at h2
  | some a =>
    have ha : a = e := by simpa [pure, Except.pure] using h2
    subst ha
    have hm := alphaLoop_mem _ _ _ h1
    have : ∀ x ∈ depthsInOrder, 3 ≤ x ∧ x < 2 ^ 32 := by decide +kernel
    exact this _ hm

theorem mdsGenerate_eq_of_ok (input : GenInput) [CharP F input.p] (hm : nmds = input.t * input.t)
    (ht : 1 ≤ input.t) (mds : Mat F input.t input.t nmds) (h : mdsGenerate F nmds input = .ok mds) :
    input.t ≤ 8 ∧ 128 ≤ numBits input.p ∧ mds.toM hm = cauchyMds F input.t := by
  rw [mdsGenerate] at h
  split at h
  · cases h
  next h2 =>
    by_cases hb : 128 ≤ numBits input.p
    · by_cases h3 : 3 * input.t ≤ input.p + 1
      · rw [fixedCauchyMatrix_eq input nmds hm h3 hb] at h
        by_cases h8 : input.t ≤ 8
        · rw [if_pos ⟨ht, h8⟩] at h
          cases h
          exact ⟨h8, hb, Mat.toM_ofM _ _⟩
        · rw [if_neg (by omega), if_neg (by omega)] at h
          cases h
      · exfalso
        -- `2t ≤ p` but `p + 1 < 3t`: too wide, the determinant refuses it
        have hp := numBits_ge hb
        rw [fixedCauchyMatrix, if_neg (by omega)] at h
        obtain ⟨els, -, h⟩ := bind_eq_ok h
        obtain ⟨m, -, h⟩ := bind_eq_ok h
        rw [determinant_large (by omega)] at h
        cases h
    · rw [fixedCauchyMatrix, if_pos (by omega)] at h
      cases h

/-- What a parameter set returned by `v1::generate` satisfies. -/
structure V1Result (L : Libm) (nlimbs security p : Nat) (allow : Bool)
    (P : Params F (k + 1) k nmds nhat rows (k + 1) nround npart)
    (hm : nmds = (k + 1) * (k + 1)) (hh : nhat = k * k) (ha : nround = rows * (k + 1)) : Prop where
  security_eq : P.security = security
  alpha : alphaGenerate p allow = .ok P.alpha
  rounds : roundsV1Generate L ⟨allow, security, k + 1, p⟩ (log2Big L p) P.alpha = .ok P.rounds
  full : P.rounds.rF = 8 ∨ P.rounds.rF = 12
  part : 1 ≤ P.rounds.rP
  npart_eq : npart = P.rounds.rP
  rows_eq : rows = P.rounds.total
  security_le : security ≤ 256
  width : 2 ≤ k + 1 ∧ k + 1 ≤ 8
  bits : 128 ≤ numBits p
  mds : P.mds.toM hm = cauchyMds F (k + 1)
  arc : arcV1Generate F nlimbs rows nround ⟨allow, security, k + 1, p⟩ P.rounds P.alpha = .ok P.arc
  derivedMds : DerivedMds P hm hh
  derivedArc : DerivedArc P hm ha

theorem arcV1_rows {nlimbs : Nat} (hn : nlimbs < 2 ^ 28) {input : GenInput} (ht : 1 ≤ input.t)
    (hp : numBits input.p < 2 ^ 32) {rounds : RoundNumbers} {alpha : Alpha} (ha : nround = rows * input.t)
    {arc : Mat F rows input.t nround}
    (h : arcV1Generate F nlimbs rows nround input rounds alpha = .ok arc) : rows = rounds.total := by
  obtain ⟨l, h1, h2, -⟩ := C48_stream F nlimbs hn input hp rounds alpha (rounds.total * input.t) 0
  rw [Nat.add_zero] at h1 h2
  rw [arcV1Generate, h1, ok_bind, Mat.new] at h
  split at h
  · cases h
  · split at h
    · next hl =>
      rw [h2, ha] at hl
      exact (Nat.eq_of_mul_eq_mul_right (by omega) hl).symm
    · cases h

theorem v1Generate_result {L : Libm} (hL : L.Accurate) (hl2 : L.log2 2 = 1) (debug : Bool) {nlimbs : Nat}
    (hn : nlimbs < 2 ^ 28) {p : Nat} [CharP F p] (hp : numBits p < 2 ^ 32) {security : Nat} {allow : Bool}
    (hm : nmds = (k + 1) * (k + 1)) (hh : nhat = k * k) (ha : nround = rows * (k + 1))
    {P : Params F (k + 1) k nmds nhat rows (k + 1) nround npart}
    (h : v1Generate L debug F nlimbs k nmds nhat rows nround npart security p allow = .ok P) :
    V1Result L nlimbs security p allow P hm hh ha := by
  rw [v1Generate] at h
  obtain ⟨alpha, hα, h⟩ := bind_eq_ok h
  obtain ⟨rounds, hr, h⟩ := bind_eq_ok h
  obtain ⟨mds, hmds, h⟩ := bind_eq_ok h
  obtain ⟨arc, harc, h⟩ := bind_eq_ok h
  obtain ⟨o, ho, h⟩ := bind_eq_ok h
  obtain ⟨oarc, hoarc, h⟩ := bind_eq_ok h
  obtain ⟨o', ho', h⟩ := bind_eq_ok h
  rw [fitRounds] at ho'
  split at ho'
  case isFalse => cases ho'
  next e =>
  subst e
  cases ho'
  cases h
  have : CharP F (⟨allow, security, k + 1, p⟩ : GenInput).p := ‹CharP F p›
  obtain ⟨h8, hb, hC⟩ := mdsGenerate_eq_of_ok (⟨allow, security, k + 1, p⟩ : GenInput) hm (by simp) mds hmds
  have h8' : k + 1 ≤ 8 := h8
  obtain ⟨hk, -, hrp, hdet, hdetA, -, -⟩ := (mdsGenerateOptimized_ok_iff debug hh hm mds rounds o).1 ho
  have hs : security ≤ 256 := by
    by_contra hs
    rw [C37_v1_refused L _ _ alpha (by simp only; omega)] at hr
    cases hr
  have hαr : ∀ e, alpha = .exponent e → 3 ≤ e ∧ e < 2 ^ 32 := by
    rintro e rfl; exact alphaGenerate_range hα
  obtain ⟨rP, rF, h1, h2, h3⟩ := C49_full_rounds L hL hl2 (⟨allow, security, k + 1, p⟩ : GenInput) (log2Big L p) alpha hs
    (by simp only; omega) h8 hαr
  obtain rfl : rounds = ⟨rP, rF⟩ := Except.ok.inj (hr.symm.trans h1)
  have hrows := arcV1_rows (F := F) hn (input := ⟨allow, security, k + 1, p⟩) (by simp) hp ha harc
  exact
    { security_eq := rfl, alpha := hα, rounds := hr, full := h2, part := h3, npart_eq := rfl
      rows_eq := hrows, security_le := hs, width := ⟨by omega, h8'⟩, bits := hb, mds := hC, arc := harc
      derivedMds := genParams_derivedMds debug hh hm security alpha _ mds arc oarc o ho
      derivedArc := genParams_derivedArc debug hm ha security alpha _ mds arc oarc o h8' hdetA
        (by rcases h2 with h2 | h2 <;> simp [h2]) h3 hrows.ge hoarc }

/-- `v1::generate` on admissible inputs. -/
theorem v1Generate_ok {L : Libm} (debug : Bool) {nlimbs : Nat}
    (hn : nlimbs < 2 ^ 28) {p : Nat} [CharP F p] (hp : numBits p < 2 ^ 32) {security : Nat} {allow : Bool}
    (hm : nmds = (k + 1) * (k + 1)) (hh : nhat = k * k) {alpha : Alpha} {rounds : RoundNumbers}
    (hα : alphaGenerate p allow = .ok alpha)
    (hr : roundsV1Generate L ⟨allow, security, k + 1, p⟩ (log2Big L p) alpha = .ok rounds)
    (hrp : 1 ≤ rounds.rP) (hk : 2 ≤ k + 1) (h8 : k + 1 ≤ 8) (hb : 128 ≤ numBits p) :
    ∃ P : Params F (k + 1) k nmds nhat rounds.total (k + 1) (rounds.total * (k + 1)) rounds.rP,
      v1Generate L debug F nlimbs k nmds nhat rounds.total (rounds.total * (k + 1)) rounds.rP security p allow = .ok P ∧
      P.alpha = alpha ∧ P.rounds = rounds := by
  set input : GenInput := ⟨allow, security, k + 1, p⟩ with hin
  have : CharP F input.p := ‹CharP F p›
  have hp127 := numBits_ge hb
  obtain ⟨mds, hmds, hC, -⟩ := (C35_cauchy (F := F) input nmds hm hb
    (show k + 1 < 2 ^ 64 by omega) (show 1 ≤ k + 1 by omega)).1 h8
  obtain ⟨l, h1, h2, -⟩ := C48_stream F nlimbs hn input hp rounds alpha (rounds.total * input.t) 0
  rw [Nat.add_zero] at h1 h2
  obtain ⟨arc, harc⟩ : ∃ arc, arcV1Generate F nlimbs rounds.total (rounds.total * (k + 1)) input rounds alpha = .ok arc := by
    refine ⟨⟨⟨l.toArray, by simpa using h2⟩⟩, ?_⟩
    rw [arcV1Generate, h1, ok_bind, Mat.new, if_neg (by simp [hin]), dif_pos h2]
  obtain ⟨⟨o, ho⟩, oarc, hoarc⟩ := C36_cauchy (nhat := nhat) debug hb hk h8 hh hm rfl mds hC rounds hrp le_rfl arc
  refine ⟨⟨security, alpha, rounds, mds, arc, oarc, o⟩, ?_, rfl, rfl⟩
  rw [v1Generate, hα, ok_bind]
  dsimp only
  rw [hr, ok_bind, hmds, ok_bind, harc, ok_bind]
  refine Eq.trans (congrArg (· >>= _) ho) ?_
  rw [ok_bind]
  refine Eq.trans (congrArg (· >>= _) hoarc) ?_
  rw [ok_bind]
  refine Eq.trans (congrArg (· >>= _) (show fitRounds rounds.rP o = .ok o by rw [fitRounds, dif_pos rfl])) ?_
  rfl

end Poseidon
