import Verif.Model.GenArg
import Verif.Props.GenerateV1
import Mathlib.GroupTheory.Perm.Cycle.Type

/-! # Lemmas about `v1::generate` with a modulus argument of its own -/

set_option linter.unusedSectionVars false

namespace Poseidon

open scoped Matrix

variable {F : Type} [Field F] [DecidableEq F] {k rows nmds nhat nround npart : Nat}

/-! ## The S-box -/

theorem alphaLoopArg_same (p : Nat) (l : List Nat) : alphaLoopArg p p l = alphaLoop p l := by
  induction l with
  | nil => rfl
  | cons c l ih =>
    rw [alphaLoopArg, alphaLoop, ih]
    rfl

theorem alphaLoopArg_eq {m p : Nat} (hm : 129 ≤ m) (hp : 1 ≤ p) (l : List Nat) (hl : ∀ c ∈ l, 1 ≤ c ∧ c ≤ 128) :
    alphaLoopArg m p l = .ok (l.find? (qualifies p)) := by
  induction l with
  | nil => rfl
  | cons c l ih =>
    have hc := hl c List.mem_cons_self
    have hco : alphaCoprimeArg m c p = .ok (Nat.gcd c (p - 1) == 1) := by
      have h1 : 1 % m = 1 := Nat.mod_eq_of_lt (by omega)
      have hg : Nat.gcd c (p - 1) ≤ c := Nat.gcd_le_left _ (by omega)
      rw [alphaCoprimeArg]
      dsimp only
      rw [h1, usub, if_pos (by omega)]
      show Except.ok _ = Except.ok _
      rw [Nat.mod_eq_of_lt (a := c) (by omega), Nat.mod_eq_of_lt (a := Nat.gcd _ _) (by omega)]
    rw [alphaLoopArg, List.find?_cons, qualifies]
    have ih' := ih fun x hx => hl x (List.mem_cons_of_mem _ hx)
    by_cases h : (c % 2 != 0) = true
    · rw [if_pos h, hco, h, Bool.true_and]
      show (if (Nat.gcd c (p - 1) == 1) = true then _ else _) = _
      cases hg : Nat.gcd c (p - 1) == 1
      · rw [if_neg (by simp)]; exact ih'
      · rw [if_pos rfl]; rfl
    · rw [if_neg h, Bool.eq_false_iff.2 h, Bool.false_and]; exact ih'

theorem alphaGenerateArg_eq {m p : Nat} (hm : 129 ≤ m) (hp : 1 ≤ p) (allow : Bool) :
    alphaGenerateArg m p allow = match depthsInOrder.find? (qualifies p) with
      | some a => .ok (.exponent a)
      | none => if allow then .ok .inverse else .error .explicit := by
  rw [alphaGenerateArg, alphaLoopArg_eq hm hp _ (by decide), ok_bind]
  cases depthsInOrder.find? (qualifies p) <;> rfl

theorem alphaGenerateArg_range {m p : Nat} (hm : 129 ≤ m) (hp : 1 ≤ p) {allow : Bool} {e : Nat}
    (h : alphaGenerateArg m p allow = .ok (.exponent e)) : 3 ≤ e ∧ e < 2 ^ 32 := by
  rw [alphaGenerateArg_eq hm hp] at h
  cases hf : depthsInOrder.find? (qualifies p) with
  | none => rw [hf] at h; cases allow <;> cases h
  | some a =>
    rw [hf] at h
    cases h
    have : ∀ x ∈ depthsInOrder, 3 ≤ x ∧ x < 2 ^ 32 := by decide +kernel
    exact this _ (List.mem_of_find?_eq_some hf)

/-! ## The matrix and the constants -/

/-- The matrix does not depend on `p` beyond the two tests. -/
theorem mdsGenerate_arg (input : GenInput) (m : Nat) (hm : 128 ≤ numBits m) (hp : 128 ≤ numBits input.p)
    (ht : 2 * input.t ≤ m) (ht' : 2 * input.t ≤ input.p) :
    mdsGenerate F nmds input = mdsGenerate F nmds { input with p := m } := by
  rw [mdsGenerate, mdsGenerate, if_neg (by omega), if_neg (by simp only; omega), fixedCauchyMatrix, fixedCauchyMatrix,
    if_neg (by omega), if_neg (by simp only; omega)]

theorem mdsGenerate_small (input : GenInput) (h : numBits input.p < 128) :
    mdsGenerate F nmds input = .error .explicit := by
  rw [mdsGenerate, fixedCauchyMatrix, if_pos h, ite_self]

theorem mdsGenerate_wide (input : GenInput) (h : 8 < input.t) (m : Mat F input.t input.t nmds) :
    mdsGenerate F nmds input ≠ .ok m := by
  intro h1
  rw [mdsGenerate] at h1
  split at h1
  · cases h1
  · rw [fixedCauchyMatrix] at h1
    split at h1
    · cases h1
    · obtain ⟨els, -, h1⟩ := bind_eq_ok h1
      obtain ⟨m, -, h1⟩ := bind_eq_ok h1
      rw [determinant_large h] at h1
      cases h1

theorem arcElementsArg_eq (F : Type) [Field F] (m nlimbs : Nat) (hn : nlimbs < 2 ^ 28) (input : GenInput)
    (rounds : RoundNumbers) (alpha : Alpha) (n : Nat) :
    arcElementsArg F m nlimbs input rounds alpha n =
      drawn F m n (merlinStart.appendAll (allMessages nlimbs input rounds alpha)) := by
  have hsh := allMessages_short nlimbs hn input rounds alpha
  have hs : Strobe.new (asciiBytes "Merlin v1.0") = .ok merlinStart := by rw [strobeNew_eq, merlinStart]
  revert hs
  generalize merlinStart = s
  intro hs
  have h0 := appendMessage_eq s (asciiBytes "dom-sep") (asciiBytes "round-constants")
    (hsh (asciiBytes "dom-sep", asciiBytes "round-constants") List.mem_cons_self)
  have h1 := forList_append (domainSepMessages nlimbs input rounds alpha)
    (s.append' (asciiBytes "dom-sep") (asciiBytes "round-constants")) (fun m hm => hsh m (List.mem_cons_of_mem _ hm))
  have h2 : s.appendAll (allMessages nlimbs input rounds alpha) =
    (s.append' (asciiBytes "dom-sep") (asciiBytes "round-constants")).appendAll
      (domainSepMessages nlimbs input rounds alpha) := by rw [allMessages, Strobe.appendAll]
  rw [h2, arcElementsArg, transcriptNew, hs, ok_bind, h0, ok_bind, domainSep, h1, ok_bind]
  generalize (s.append' (asciiBytes "dom-sep") (asciiBytes "round-constants")).appendAll
      (domainSepMessages nlimbs input rounds alpha) = s'
  refine (loop_drawn F m n 0 [] s').trans ?_
  simp only [List.nil_append]
  exact bind_pure _

theorem arcV1Arg_rows {m nlimbs : Nat} (hn : nlimbs < 2 ^ 28) {input : GenInput} (ht : 1 ≤ input.t)
    (hm : numBits m < 2 ^ 32) {rounds : RoundNumbers} {alpha : Alpha} (ha : nround = rows * input.t)
    {arc : Mat F rows input.t nround}
    (h : arcV1GenerateArg F m nlimbs rows nround input rounds alpha = .ok arc) : rows = rounds.total := by
  obtain ⟨l, h1, h2⟩ := drawn_ok F m hm (rounds.total * input.t)
    (merlinStart.appendAll (allMessages nlimbs input rounds alpha))
  rw [arcV1GenerateArg, arcElementsArg_eq F m nlimbs hn, h1, ok_bind, Mat.new] at h
  split at h
  · cases h
  · split at h
    · next hl =>
      rw [h2, ha] at hl
      exact (Nat.eq_of_mul_eq_mul_right (by omega) hl).symm
    · cases h

/-! ## The whole -/

/-- What a parameter set returned by `v1::generate` satisfies. -/
structure V1ArgResult (m p : Nat) (allow : Bool)
    (P : Params F (k + 1) k nmds nhat rows (k + 1) nround npart)
    (hm : nmds = (k + 1) * (k + 1)) (hh : nhat = k * k) (ha : nround = rows * (k + 1)) : Prop where
  alpha : alphaGenerateArg m p allow = .ok P.alpha
  full : P.rounds.rF = 8 ∨ P.rounds.rF = 12
  part : 1 ≤ P.rounds.rP
  npart_eq : npart = P.rounds.rP
  rows_eq : rows = P.rounds.total
  width : 2 ≤ k + 1 ∧ k + 1 ≤ 8
  security_le : P.security ≤ 256
  bits : 128 ≤ numBits p
  mds : P.mds.toM hm = cauchyMds F (k + 1)
  derivedMds : DerivedMds P hm hh
  derivedArc : DerivedArc P hm ha

theorem v1GenerateArg_result {L : Libm} (hL : L.Accurate) (hl2 : L.log2 2 = 1) (debug : Bool) {m nlimbs : Nat}
    (hn : nlimbs < 2 ^ 28) {p : Nat} [CharP F m] (hmb : 128 ≤ numBits m) (hmb' : numBits m < 2 ^ 32)
    {security : Nat} {allow : Bool}
    (hm : nmds = (k + 1) * (k + 1)) (hh : nhat = k * k) (ha : nround = rows * (k + 1))
    {P : Params F (k + 1) k nmds nhat rows (k + 1) nround npart}
    (h : v1GenerateArg L debug F m nlimbs k nmds nhat rows nround npart security p allow = .ok P) :
    V1ArgResult m p allow P hm hh ha ∧ P.security = security := by
  have hm127 := numBits_ge hmb
  rw [v1GenerateArg] at h
  obtain ⟨alpha, hα, h⟩ := bind_eq_ok h
  obtain ⟨rounds, hr, h⟩ := bind_eq_ok h
  obtain ⟨mds, hmds, h⟩ := bind_eq_ok h
  obtain ⟨arc, harc, h⟩ := bind_eq_ok h
  obtain ⟨o, ho, h⟩ := bind_eq_ok h
  obtain ⟨oarc, hoarc, h⟩ := bind_eq_ok h
  obtain ⟨o', ho', h⟩ := bind_eq_ok h
  rw [fitRounds] at ho'
  split at ho'
  case isFalse => cases ho'
  next e =>
  subst e
  cases ho'
  cases h
  have hb : 128 ≤ numBits p := by
    by_contra hb
    rw [mdsGenerate_small _ (by simp only; omega)] at hmds
    cases hmds
  have hp127 := numBits_ge hb
  have h8' : k + 1 ≤ 8 := by
    by_contra h8
    exact mdsGenerate_wide _ (by simp only; omega) mds hmds
  have hmds' : mdsGenerate F nmds (⟨allow, security, k + 1, m⟩ : GenInput) = .ok mds := by
    rw [← hmds]
    exact (mdsGenerate_arg (⟨allow, security, k + 1, p⟩ : GenInput) m hmb hb (by simp only; omega)
      (by simp only; omega)).symm
  have : CharP F (⟨allow, security, k + 1, m⟩ : GenInput).p := ‹CharP F m›
  obtain ⟨-, -, hC⟩ := mdsGenerate_eq_of_ok (⟨allow, security, k + 1, m⟩ : GenInput) hm (by simp) mds hmds'
  obtain ⟨hk, -, hrp, hdet, hdetA, -, -⟩ := (mdsGenerateOptimized_ok_iff debug hh hm mds rounds o).1 ho
  have hs : security ≤ 256 := by
    by_contra hs
    rw [C37_v1_refused L _ _ alpha (by simp only; omega)] at hr
    cases hr
  have hαr : ∀ e, alpha = .exponent e → 3 ≤ e ∧ e < 2 ^ 32 := by
    rintro e rfl; exact alphaGenerateArg_range (by omega) (by omega) hα
  obtain ⟨rP, rF, h1, h2, h3⟩ := C49_full_rounds L hL hl2 (⟨allow, security, k + 1, p⟩ : GenInput) (log2Big L p) alpha hs
    (by simp only; omega) h8' hαr
  obtain rfl : rounds = ⟨rP, rF⟩ := Except.ok.inj (hr.symm.trans h1)
  have hrows := arcV1Arg_rows (F := F) hn (input := ⟨allow, security, k + 1, p⟩) (by simp) hmb' ha harc
  exact
    ⟨{ alpha := hα, full := h2, part := h3, npart_eq := rfl
       rows_eq := hrows, width := ⟨by omega, h8'⟩, security_le := hs, bits := hb, mds := hC
       derivedMds := genParams_derivedMds debug hh hm security alpha _ mds arc oarc o ho
       derivedArc := genParams_derivedArc debug hm ha security alpha _ mds arc oarc o h8' hdetA
        (by rcases h2 with h2 | h2 <;> simp [h2]) h3 hrows.ge hoarc }, rfl⟩

theorem V1ArgResult.consistent {m p : Nat} {allow : Bool}
    {P : Params F (k + 1) k nmds nhat rows (k + 1) nround npart} {hm : nmds = (k + 1) * (k + 1)} {hh : nhat = k * k}
    {ha : nround = rows * (k + 1)} (r : V1ArgResult m p allow P hm hh ha) : Consistent P hm ha := by
  have h1 := r.rows_eq
  have h2 := r.npart_eq
  have h3 : P.rounds.total = P.rounds.rP + P.rounds.rF := rfl
  exact Consistent.of_derived r.derivedMds r.derivedArc (by omega) r.part h2.ge

theorem v1GenerateArg_ok {L : Libm} (debug : Bool) {m nlimbs : Nat}
    (hn : nlimbs < 2 ^ 28) {p : Nat} [CharP F m] (hmb : 128 ≤ numBits m) (hmb' : numBits m < 2 ^ 32)
    {security : Nat} {allow : Bool}
    (hm : nmds = (k + 1) * (k + 1)) (hh : nhat = k * k) {alpha : Alpha} {rounds : RoundNumbers}
    (hα : alphaGenerateArg m p allow = .ok alpha)
    (hr : roundsV1Generate L ⟨allow, security, k + 1, p⟩ (log2Big L p) alpha = .ok rounds)
    (hrp : 1 ≤ rounds.rP) (hk : 2 ≤ k + 1) (h8 : k + 1 ≤ 8) (hb : 128 ≤ numBits p) :
    ∃ P : Params F (k + 1) k nmds nhat rounds.total (k + 1) (rounds.total * (k + 1)) rounds.rP,
      v1GenerateArg L debug F m nlimbs k nmds nhat rounds.total (rounds.total * (k + 1)) rounds.rP security p allow = .ok P ∧
      P.alpha = alpha ∧ P.rounds = rounds := by
  set input : GenInput := ⟨allow, security, k + 1, p⟩ with hin
  have : CharP F (⟨allow, security, k + 1, m⟩ : GenInput).p := ‹CharP F m›
  have hm127 := numBits_ge hmb
  have hp127 := numBits_ge hb
  obtain ⟨mds, hmds, hC, -⟩ := (C35_cauchy (F := F) (⟨allow, security, k + 1, m⟩ : GenInput) nmds hm hmb
    (show k + 1 < 2 ^ 64 by omega) (show 1 ≤ k + 1 by omega)).1 h8
  have hmds' : mdsGenerate F nmds input = .ok mds := by
    rw [← hmds]
    exact mdsGenerate_arg input m hmb hb (by simp only [hin]; omega) (by simp only [hin]; omega)
  obtain ⟨l, h1, h2⟩ := drawn_ok F m hmb' (rounds.total * input.t)
    (merlinStart.appendAll (allMessages nlimbs input rounds alpha))
  obtain ⟨arc, harc⟩ : ∃ arc, arcV1GenerateArg F m nlimbs rounds.total (rounds.total * (k + 1)) input rounds alpha = .ok arc := by
    refine ⟨⟨⟨l.toArray, by simpa using h2⟩⟩, ?_⟩
    rw [arcV1GenerateArg, arcElementsArg_eq F m nlimbs hn, h1, ok_bind, Mat.new, if_neg (by simp [hin]), dif_pos h2]
  obtain ⟨⟨o, ho⟩, oarc, hoarc⟩ := C36_cauchy (nhat := nhat) debug hmb hk h8 hh hm rfl mds hC rounds hrp le_rfl arc
  refine ⟨⟨security, alpha, rounds, mds, arc, oarc, o⟩, ?_, rfl, rfl⟩
  rw [v1GenerateArg, hα, ok_bind]
  dsimp only
  rw [hr, ok_bind, hmds', ok_bind, harc, ok_bind]
  refine Eq.trans (congrArg (· >>= _) ho) ?_
  rw [ok_bind]
  refine Eq.trans (congrArg (· >>= _) hoarc) ?_
  rw [ok_bind]
  refine Eq.trans (congrArg (· >>= _) (show fitRounds rounds.rP o = .ok o by rw [fitRounds, dif_pos rfl])) ?_
  rfl

/-! ## Power maps that are not injective -/

theorem exists_root [Fintype F] {e : Nat} (h : ¬ Nat.Coprime e (Fintype.card F - 1)) : ∃ z : F, z ≠ 1 ∧ z ^ e = 1 := by
  obtain ⟨r, hr, h1, h2⟩ := Nat.Prime.not_coprime_iff_dvd.1 h
  have : Fact r.Prime := ⟨hr⟩
  obtain ⟨u, hu⟩ := exists_prime_orderOf_dvd_card (G := Fˣ) r (by rwa [Fintype.card_units])
  refine ⟨(u : F), ?_, ?_⟩
  · intro h3
    have : u = 1 := Units.ext h3
    rw [this, orderOf_one] at hu
    exact hr.one_lt.ne hu
  · obtain ⟨c, rfl⟩ := h1
    rw [pow_mul, ← Units.val_pow_eq_pow_val, ← hu, pow_orderOf_eq_one, Units.val_one, one_pow]

/-- A word whose first S-box has a non-zero argument can be replaced. -/
theorem permE_collision {t : Nat} {e : Nat} (M : Matrix (Fin t) (Fin t) F) {rf rp : Nat} (hrf : 0 < rf)
    (C : Fin (rf + rp + rf) → Fin t → F) {z : F} (hz : z ≠ 1) (hze : z ^ e = 1) (x : Fin t → F) (i : Fin t)
    (hi : x i + C ⟨0, by omega⟩ i ≠ 0) : ∃ y, y ≠ x ∧ permE e M rf rp C y = permE e M rf rp C x := by
  set r0 : Fin (rf + rp + rf) := ⟨0, by omega⟩ with hr0
  refine ⟨Function.update x i (z * (x i + C r0 i) - C r0 i), ?_, ?_⟩
  · intro h
    have h1 := congrFun h i
    rw [Function.update_self, sub_eq_iff_eq_add] at h1
    exact hz (mul_right_cancel₀ hi (h1.trans (one_mul _).symm))
  · have hl : List.finRange (rf + rp + rf) = r0 :: (List.finRange (rf + rp + rf)).tail := by
      cases hl : List.finRange (rf + rp + rf) with
      | nil => simp at hl; omega
      | cons a l =>
        have : (List.finRange (rf + rp + rf))[0]? = some a := by rw [hl]; rfl
        rw [List.getElem?_eq_getElem (by simp; omega), List.getElem_finRange] at this
        have e : r0 = a := by
          have := Option.some.inj this
          rw [← this]; rfl
        rw [e]; rfl
    rw [permE, permE, hl, List.foldl_cons, List.foldl_cons]
    congr 1
    have hact : ∀ j : Fin t, Active (decide (r0.val < rf ∨ rf + rp ≤ r0.val)) j := by
      intro j
      refine Or.inl ?_
      simp [hr0, hrf]
    rw [roundE, roundE]
    congr 1
    funext j
    rw [if_pos (hact j), if_pos (hact j)]
    by_cases hj : j = i
    · subst hj
      rw [Function.update_self, sub_add_cancel, mul_pow, hze, one_mul]
    · rw [Function.update_of_ne hj]

end Poseidon
