import Verif.Props.Transcript
import Verif.Model.GenWord
import Mathlib.Data.Int.CardIntervalMod
import Mathlib.Algebra.BigOperators.Fin
import Mathlib.Algebra.Order.BigOperators.Group.Finset
import Mathlib.Data.Real.Basic
import Mathlib.Tactic.Positivity
import Mathlib.Tactic.FieldSimp
import Mathlib.Tactic.Linarith

/-!
# Round constants: bias of the reduction (C74) and the word size of the machine (C75)
-/

set_option linter.unusedSectionVars false

namespace Poseidon

/-! ## C74: the bias of the reduction modulo `p` -/

/-- The field element a string of `n` bytes stands for: its little-endian value modulo `p`. -/
def elementOf {n : Nat} (p : Nat) (b : Fin n → Fin 256) : ZMod p := ∑ i, ((b i).val : ZMod p) * 256 ^ i.val

/-- The number of bytes drawn for a constant. -/
def drawnBytes (p : Nat) : Nat := (numBits p + 135) / 8

theorem leValue_ofFn {n : Nat} (b : Fin n → Fin 256) : leValue (List.ofFn fun i => (b i).val) = ∑ i, (b i).val * 256 ^ i.val := by
  induction n with
  | zero => rfl
  | succ n ih =>
    rw [List.ofFn_succ, leValue, ih, Fin.sum_univ_succ, Fin.val_zero, pow_zero, mul_one, Finset.mul_sum]
    congr 1
    apply Finset.sum_congr rfl
    intro i _
    rw [Fin.val_succ, pow_succ]
    ring

theorem squeeze_bytes (n : Nat) (s : Strobe) : (s.squeeze n).1.length = n ∧ ∀ b ∈ (s.squeeze n).1, b < 256 := by
  induction n generalizing s with
  | zero => exact ⟨rfl, fun b hb => absurd hb (List.not_mem_nil)⟩
  | succ n ih =>
    obtain ⟨h1, h2⟩ := ih ({ s with state := xorByte s.state s.pos (getByte s.state s.pos) }.advance)
    refine ⟨?_, ?_⟩
    · rw [Strobe.squeeze, List.length_cons, h1]
    · intro b hb
      rw [Strobe.squeeze, List.mem_cons] at hb
      rcases hb with rfl | hb
      · exact Nat.mod_lt _ (by norm_num)
      · exact h2 b hb

/-- **C74, what is drawn.** A round constant is the residue of a string of `drawnBytes p` bytes from the transcript. -/
theorem C74_drawn (p : Nat) [Fact p.Prime] {s s' : Strobe} {c : ZMod p} (h : roundConstant (ZMod p) p s = .ok (c, s')) :
    ∃ b : Fin (drawnBytes p) → Fin 256,
      challengeBytes s (asciiBytes "round-constant") (drawnBytes p) = .ok (List.ofFn fun i => (b i).val, s') ∧ c = elementOf p b := by
  rw [roundConstant] at h
  cases hr : challengeBytes s (asciiBytes "round-constant") (drawnBytes p) with
  | error e =>
    rw [show challengeBytes s (asciiBytes "round-constant") ((numBits p + 135) / 8) = .error e from hr] at h
    cases h
  | ok r =>
    rw [show challengeBytes s (asciiBytes "round-constant") ((numBits p + 135) / 8) = .ok r from hr] at h
    have h' : Except.ok (((leValue r.1 : Nat) : ZMod p), r.2) = Except.ok (c, s') := h
    injection h' with h'
    obtain ⟨hc, hs⟩ := Prod.mk.inj h'
    have hb : r.1.length = drawnBytes p ∧ ∀ b ∈ r.1, b < 256 := by
      rw [challengeBytes] at hr
      cases h1 : encodeUsizeAsU32 (drawnBytes p) with
      | error e => rw [h1] at hr; cases hr
      | ok l =>
        rw [h1, ok_bind] at hr
        cases h2 : s.metaAd (asciiBytes "round-constant") false with
        | error e => rw [h2] at hr; cases hr
        | ok s1 =>
          rw [h2, ok_bind] at hr
          cases h3 : s1.metaAd l true with
          | error e => rw [h3] at hr; cases hr
          | ok s2 =>
            rw [h3, ok_bind, Strobe.prf] at hr
            cases h4 : s2.beginOp (flagI ||| flagA ||| flagC) false with
            | error e => rw [h4] at hr; cases hr
            | ok s3 =>
              rw [h4, ok_bind] at hr
              have h5 : Except.ok (s3.squeeze (drawnBytes p)) = Except.ok r := hr
              injection h5 with h5
              rw [← h5]
              exact squeeze_bytes _ _
    have hl : List.ofFn (fun i : Fin (drawnBytes p) => r.1[i.val]'(by rw [hb.1]; exact i.isLt)) = r.1 := by
      apply List.ext_getElem
      · rw [List.length_ofFn, hb.1]
      · intro i h1 h2
        rw [List.getElem_ofFn]
    refine ⟨fun i => ⟨r.1[i.val]'(by rw [hb.1]; exact i.isLt), hb.2 _ (List.getElem_mem _)⟩, ?_, ?_⟩
    · show _ = Except.ok (List.ofFn (fun i : Fin (drawnBytes p) => r.1[i.val]'(by rw [hb.1]; exact i.isLt)), s')
      rw [hl, ← hs]
    · rw [← hc]
      have := leValue_ofFn fun i : Fin (drawnBytes p) => (⟨r.1[i.val]'(by rw [hb.1]; exact i.isLt), hb.2 _ (List.getElem_mem _)⟩ : Fin 256)
      have h6 : leValue r.1 = _ := (congrArg leValue hl).symm.trans this
      rw [h6, elementOf, Nat.cast_sum]
      apply Finset.sum_congr rfl
      intro i _
      rw [Nat.cast_mul, Nat.cast_pow]
      rfl

/-- **C74, counts.** Of the `256^n` strings of `n` bytes, each element of the field stands for `⌊256^n / p⌋` or one more. -/
theorem C74_counts (n p : Nat) [NeZero p] (a : ZMod p) :
    Nat.card {b : Fin n → Fin 256 // elementOf p b = a} = 256 ^ n / p + if a.val < 256 ^ n % p then 1 else 0 := by
  have hp : 0 < p := Nat.pos_of_ne_zero (NeZero.ne p)
  have h1 := Nat.count_modEq_card (256 ^ n) hp a.val
  rw [Nat.mod_eq_of_lt a.val_lt] at h1
  rw [← h1, Nat.count_eq_card_filter_range, Nat.card_eq_fintype_card, Fintype.card_subtype]
  have hv : ∀ b : Fin n → Fin 256, elementOf p b = (((finFunctionFinEquiv b).val : Nat) : ZMod p) := by
    intro b
    rw [finFunctionFinEquiv_apply, elementOf, Nat.cast_sum]
    apply Finset.sum_congr rfl
    intro i _
    rw [Nat.cast_mul, Nat.cast_pow]
    rfl
  have hm : ∀ x : Nat, ((x : Nat) : ZMod p) = a ↔ x ≡ a.val [MOD p] := by
    intro x
    rw [← ZMod.natCast_eq_natCast_iff, ZMod.natCast_zmod_val]
  refine Finset.card_bij (fun b _ => (finFunctionFinEquiv b).val) ?_ ?_ ?_
  · intro b hb
    rw [Finset.mem_filter] at hb ⊢
    exact ⟨Finset.mem_range.2 (finFunctionFinEquiv b).isLt, (hm _).1 ((hv b).symm.trans hb.2)⟩
  · intro b _ b' _ h
    exact finFunctionFinEquiv.injective (Fin.ext h)
  · intro x hx
    rw [Finset.mem_filter, Finset.mem_range] at hx
    refine ⟨finFunctionFinEquiv.symm ⟨x, hx.1⟩, ?_, ?_⟩
    · rw [Finset.mem_filter, hv, Equiv.apply_symm_apply]
      exact ⟨Finset.mem_univ _, (hm x).2 hx.2⟩
    · rw [Equiv.apply_symm_apply]

theorem sum_dist (N p : Nat) [NeZero p] (hN : 0 < N) :
    ∑ a : ZMod p, |(((N / p + if a.val < N % p then 1 else 0 : Nat) : ℝ)) / N - 1 / p| = 2 * (N % p : Nat) * (p - (N % p : Nat)) / (p * N) := by
  have hp : 0 < p := Nat.pos_of_ne_zero (NeZero.ne p)
  have hp' : (0 : ℝ) < p := by exact_mod_cast hp
  have hN' : (0 : ℝ) < N := by exact_mod_cast hN
  have hdm : (N : ℝ) = p * (N / p : Nat) + (N % p : Nat) := by exact_mod_cast (Nat.div_add_mod N p).symm
  have hr : N % p < p := Nat.mod_lt _ hp
  have hr' : ((N % p : Nat) : ℝ) < p := by exact_mod_cast hr
  have h1 : ∀ a : ZMod p, |(((N / p + if a.val < N % p then 1 else 0 : Nat) : ℝ)) / N - 1 / p| =
      if a.val < N % p then ((p : ℝ) - (N % p : Nat)) / ((p : ℝ) * N) else ((N % p : Nat) : ℝ) / ((p : ℝ) * N) := by
    intro a
    split_ifs with h
    · rw [Nat.cast_add, Nat.cast_one, div_sub_div _ _ hN'.ne' hp'.ne', mul_comm (N : ℝ) p, abs_of_nonneg]
      · congr 1
        generalize ((N / p : Nat) : ℝ) = k at *
        generalize ((N % p : Nat) : ℝ) = r at *
        rw [hdm]; ring
      · apply div_nonneg _ (by positivity)
        generalize ((N / p : Nat) : ℝ) = k at *
        generalize ((N % p : Nat) : ℝ) = r at *
        rw [hdm]; nlinarith
    · rw [Nat.add_zero, div_sub_div _ _ hN'.ne' hp'.ne', mul_comm (N : ℝ) p, abs_of_nonpos]
      · rw [← neg_div]
        congr 1
        generalize ((N / p : Nat) : ℝ) = k at *
        generalize ((N % p : Nat) : ℝ) = r at *
        rw [hdm]; ring
      · apply div_nonpos_of_nonpos_of_nonneg _ (by positivity)
        have h0 : (0 : ℝ) ≤ (N % p : Nat) := Nat.cast_nonneg _
        generalize ((N / p : Nat) : ℝ) = k at *
        generalize ((N % p : Nat) : ℝ) = r at *
        rw [hdm]; nlinarith
  rw [Finset.sum_congr rfl fun a _ => h1 a, Finset.sum_ite, Finset.sum_const, Finset.sum_const]
  have hc : (Finset.univ.filter fun a : ZMod p => a.val < N % p).card = N % p := by
    refine Eq.trans ?_ (Finset.card_range (N % p))
    refine Finset.card_bij (fun a _ => a.val) ?_ ?_ ?_
    · intro a ha; exact Finset.mem_range.2 (Finset.mem_filter.1 ha).2
    · intro a _ b _ h; exact ZMod.val_injective p h
    · intro x hx
      rw [Finset.mem_range] at hx
      refine ⟨(x : ZMod p), ?_, ZMod.val_cast_of_lt (hx.trans hr)⟩
      rw [Finset.mem_filter, ZMod.val_cast_of_lt (hx.trans hr)]
      exact ⟨Finset.mem_univ _, hx⟩
  have hc' : (Finset.univ.filter fun a : ZMod p => ¬a.val < N % p).card = p - N % p := by
    have := Finset.card_filter_add_card_filter_not (s := (Finset.univ : Finset (ZMod p))) (fun a => a.val < N % p)
    rw [hc, Finset.card_univ, ZMod.card] at this
    omega
  rw [hc, hc', nsmul_eq_mul, nsmul_eq_mul, Nat.cast_sub hr.le]
  ring

/-- **C74.** If the bytes are uniformly distributed, the statistical distance of a round constant from the uniform distribution on the
field is at most `2^-130`. -/
theorem C74_distance (p : Nat) [NeZero p] :
    (1 / 2 : ℝ) * ∑ a : ZMod p, |(Nat.card {b : Fin (drawnBytes p) → Fin 256 // elementOf p b = a} : ℝ) / 256 ^ drawnBytes p - 1 / p| ≤
      1 / 2 ^ 130 := by
  have hp : 0 < p := Nat.pos_of_ne_zero (NeZero.ne p)
  have hp' : (0 : ℝ) < p := by exact_mod_cast hp
  have h1 := sum_dist (256 ^ drawnBytes p) p (by positivity)
  have h2 : p * 2 ^ 128 ≤ 256 ^ drawnBytes p := by
    have hb : p < 2 ^ numBits p := by
      rw [numBits, if_neg hp.ne']
      exact Nat.lt_log2_self
    calc p * 2 ^ 128 ≤ 2 ^ numBits p * 2 ^ 128 := Nat.mul_le_mul_right _ hb.le
      _ = 2 ^ (numBits p + 128) := (pow_add _ _ _).symm
      _ ≤ 2 ^ (8 * drawnBytes p) := Nat.pow_le_pow_right (by norm_num) (by rw [drawnBytes]; omega)
      _ = 256 ^ drawnBytes p := by rw [pow_mul]; norm_num
  have h3 : (p : ℝ) * 2 ^ 128 ≤ (256 ^ drawnBytes p : Nat) := by exact_mod_cast h2
  have h4 : ∀ a : ZMod p, (Nat.card {b : Fin (drawnBytes p) → Fin 256 // elementOf p b = a} : ℝ) / 256 ^ drawnBytes p =
      (((256 ^ drawnBytes p) / p + if a.val < (256 ^ drawnBytes p) % p then 1 else 0 : Nat) : ℝ) / (256 ^ drawnBytes p : Nat) := by
    intro a
    rw [C74_counts, Nat.cast_pow 256]
    rfl
  rw [Finset.sum_congr rfl fun a _ => by rw [h4 a], h1]
  have hN : (0 : ℝ) < (256 ^ drawnBytes p : Nat) := by positivity
  generalize ((256 ^ drawnBytes p : Nat) : ℝ) = N at *
  generalize ((256 ^ drawnBytes p % p : Nat) : ℝ) = r
  have h5 : r * (p - r) ≤ p * p / 4 := by nlinarith [sq_nonneg (p - 2 * r)]
  rw [show (1 / 2 : ℝ) * (2 * r * (p - r) / (p * N)) = r * (p - r) / (p * N) by ring, div_le_div_iff₀ (by positivity) (by positivity)]
  nlinarith

/-- A draw of the curve's generator that succeeds. -/
example : ∃ c s', roundConstant Fq q merlinStart = .ok (c, s') := by
  obtain ⟨l, hl, hlen⟩ := drawn_ok Fq q (by decide +kernel) 1 merlinStart
  rw [drawn] at hl
  cases h : roundConstant Fq q merlinStart with
  | error e => rw [h] at hl; cases hl
  | ok r => exact ⟨r.1, r.2, rfl⟩

/-- A field of two elements, too. -/
example : (1 / 2 : ℝ) * ∑ a : ZMod 2, |(Nat.card {b : Fin (drawnBytes 2) → Fin 256 // elementOf 2 b = a} : ℝ) / 256 ^ drawnBytes 2 - 1 / (2 : Nat)| ≤
    1 / 2 ^ 130 := C74_distance 2

/-- The bytes for the curve's field: 48, so 384 bits for 253. -/
example : drawnBytes q = 48 := by decide +kernel

/-! ## C75: the word size of the machine -/

/-- The model of the generator has words of 8 bytes. -/
theorem arcV1GenerateW_eight (F : Type) [Field F] (nlimbs rows nround : Nat) (input : GenInput) (rounds : RoundNumbers) (alpha : Alpha) :
    arcV1GenerateW F 8 nlimbs rows nround input rounds alpha = arcV1Generate F nlimbs rows nround input rounds alpha := rfl

theorem arcElementsW_eq (F : Type) [Field F] (wordBytes nlimbs : Nat) (hw : wordBytes < 2 ^ 32) (hn : nlimbs < 2 ^ 28) (input : GenInput)
    (rounds : RoundNumbers) (alpha : Alpha) (n : Nat) :
    arcElementsW F wordBytes nlimbs input rounds alpha n =
      drawn F input.p n (merlinStart.appendAll ((asciiBytes "dom-sep", asciiBytes "round-constants") ::
        domainSepMessagesW wordBytes nlimbs input rounds alpha)) := by
  have hsh : ∀ m ∈ (asciiBytes "dom-sep", asciiBytes "round-constants") :: domainSepMessagesW wordBytes nlimbs input rounds alpha,
      m.2.length < 2 ^ 32 := by
    have h1 : (asciiBytes "round-constants").length = 15 := by decide +kernel
    have h2 : (asciiBytes "poseidon-paramgen").length = 17 := by decide +kernel
    intro m hm
    simp only [domainSepMessagesW, List.mem_cons, List.not_mem_nil, or_false] at hm
    rcases hm with rfl | rfl | rfl | rfl | rfl | rfl | rfl | rfl
    all_goals dsimp only
    · rw [h1]; omega
    · rw [h2]; omega
    · rw [leBytes_length]; omega
    · rw [leBytes_length]; omega
    · rw [leBytes_length]; omega
    · simp
    · simp
    · rw [toBytesLe_length]; omega
  have hs : Strobe.new (asciiBytes "Merlin v1.0") = .ok merlinStart := by rw [strobeNew_eq, merlinStart]
  revert hs
  generalize merlinStart = s
  intro hs
  have h0 := appendMessage_eq s (asciiBytes "dom-sep") (asciiBytes "round-constants")
    (hsh (asciiBytes "dom-sep", asciiBytes "round-constants") List.mem_cons_self)
  have h1 := forList_append (domainSepMessagesW wordBytes nlimbs input rounds alpha)
    (s.append' (asciiBytes "dom-sep") (asciiBytes "round-constants")) (fun m hm => hsh m (List.mem_cons_of_mem _ hm))
  rw [Strobe.appendAll, arcElementsW, transcriptNew, hs, ok_bind, h0, ok_bind, domainSepW, h1, ok_bind]
  generalize (s.append' (asciiBytes "dom-sep") (asciiBytes "round-constants")).appendAll
      (domainSepMessagesW wordBytes nlimbs input rounds alpha) = s'
  refine (loop_drawn F input.p n 0 [] s').trans ?_
  simp only [List.nil_append]
  exact bind_pure _

/-- **C75, transcript.** Machines of different word sizes never have the same transcript, whatever the instance. -/
theorem C75_messages {w w' : Nat} (h : w ≠ w') (nlimbs : Nat) (input input' : GenInput) (rounds rounds' : RoundNumbers) (alpha alpha' : Alpha) :
    domainSepMessagesW w nlimbs input rounds alpha ≠ domainSepMessagesW w' nlimbs input' rounds' alpha' := by
  intro h1
  have h2 := congrArg (fun l => ((l.getD 1 ([], [])).2).length) h1
  simp only [domainSepMessagesW, List.getD_cons_succ, List.getD_cons_zero, leBytes_length] at h2
  exact h h2

/-- The messages on a 32-bit machine. -/
def msgsLit32 (t : Nat) : List (List Nat × List Nat) := [
  ([100, 111, 109, 45, 115, 101, 112], [114, 111, 117, 110, 100, 45, 99, 111, 110, 115, 116, 97, 110, 116, 115]),
  ([100, 111, 109, 45, 115, 101, 112], [112, 111, 115, 101, 105, 100, 111, 110, 45, 112, 97, 114, 97, 109, 103, 101, 110]),
  ([116], [t, 0, 0, 0]),
  ([77], [128, 0, 0, 0]),
  ([112], [1, 0, 0, 0, 0, 128, 17, 10, 1, 0, 0, 208, 254, 118, 170, 89, 1, 176, 55, 92, 30, 77, 180, 96, 86, 165, 44, 154, 94, 101, 171, 18]),
  ([114, 95, 70], [8]),
  ([114, 95, 80], [31]),
  ([97, 108, 112, 104, 97], [17, 0, 0, 0])]

theorem msgsLit32_eq : ∀ i : Fin 7, (asciiBytes "dom-sep", asciiBytes "round-constants") ::
    domainSepMessagesW 4 4 ⟨true, 128, i.val + 2, q⟩ ⟨31, 8⟩ (.exponent 17) = msgsLit32 (i.val + 2) := by
  decide +kernel

/-- The first round constant on a 32-bit machine, per shipped rate. -/
def first32 : Fin 7 → Nat
  | 0 => 7727994355070667032857022275678709503611316822716687397543815020810394566531
  | 1 => 8047206676057515979386986083931810128314395219630635837652162910733682515124
  | 2 => 8078080663557450122796782686567011911349950077891422929414504269857398597652
  | 3 => 5081474938586606629078575869254604588638754920475964874132346985138557006324
  | 4 => 5306465415626328028290346450870286667565223058248385279963813075378807372692
  | 5 => 3691210141995708680595036145134274360015660458660560900784212107147244616022
  | 6 => 4038988570657701515980412777845980180987348353790786224283218507409477968871

theorem first32_check : ∀ i : Fin 7, checkDraw (msgsLit32 (i.val + 2)) [first32 i] = true := by
  decide +kernel

theorem arc_first {t : Nat} (ht : 0 < t) {r : RawTables} (hw : r.wf t = true) {c : Nat}
    (hc : Nat.beq (nth (canons r.arc) 0 % q) (c % q) = false) : (r.toParams hw).arc.get 0 0 ≠ .ok (c : Fq) := by
  have h0 : 0 * t + 0 < 39 * t := by omega
  rw [Mat.get, aget, dif_pos h0]
  intro h
  injection h with h
  have h1 : (vecOf (39 * t) r.arc (RawTables.wf_iff hw).1)[0 * t + 0] = (nth (canons r.arc) (0 * t + 0) : Fq) := vecOf_get _ _ _ _ h0
  have h2 : ((nth (canons r.arc) (0 * t + 0) : Nat) : Fq) = (c : Fq) := h1.symm.trans h
  rw [show 0 * t + 0 = 0 by omega] at h2
  have h3 : nth (canons r.arc) 0 % q = c % q := (ZMod.natCast_eq_natCast_iff _ _ q).1 h2
  rw [h3, show Nat.beq (c % q) (c % q) = true from Nat.beq_refl _] at hc
  exact absurd hc (by decide)

/-- **C75, shipped parameters.** On a 32-bit machine the generator returns, for the input of each of the shipped parameter sets, other round
constants than the shipped ones: already the first differs. -/
theorem C75_shipped (i : Fin 7) :
    ∃ m, arcV1GenerateW Fq 4 4 39 (39 * (i.val + 2)) ⟨true, 128, i.val + 2, q⟩ ⟨31, 8⟩ (.exponent 17) = .ok m ∧
      m.get 0 0 = .ok (first32 i : Fq) ∧ (shippedParams i).arc.get 0 0 ≠ .ok (first32 i : Fq) := by
  have hd := arcElementsW_eq Fq 4 4 (by norm_num) (by norm_num) ⟨true, 128, i.val + 2, q⟩ ⟨31, 8⟩ (.exponent 17)
  rw [msgsLit32_eq i] at hd
  have h1 := first32_check i
  rw [checkDraw, startF_eq] at h1
  have h2 : drawn Fq q 1 _ = .ok [((first32 i : Nat) : Fq)] := drawF_sound (by decide +kernel) [first32 i] _ h1
  obtain ⟨l, hl, hlen⟩ := drawn_ok Fq q (by decide +kernel) (1 + (39 * (i.val + 2) - 1)) (merlinStart.appendAll (msgsLit32 (i.val + 2)))
  have h3 := drawn_prefix Fq q 1 (39 * (i.val + 2) - 1) _ l hl
  rw [h2] at h3
  injection h3 with h3
  have hn : 1 + (39 * (i.val + 2) - 1) = 39 * (i.val + 2) := by omega
  rw [hn] at hl hlen
  have hnew : Mat.new 39 (i.val + 2) (39 * (i.val + 2)) l = .ok ⟨⟨l.toArray, by simpa using hlen⟩⟩ := by
    rw [Mat.new, if_neg (by simp), dif_pos hlen]
  refine ⟨⟨⟨l.toArray, by simpa using hlen⟩⟩, ?_, ?_, ?_⟩
  · rw [arcV1GenerateW, show RoundNumbers.total ⟨31, 8⟩ * (⟨true, 128, i.val + 2, q⟩ : GenInput).t = 39 * (i.val + 2) from rfl,
      hd (39 * (i.val + 2))]
    show (drawn Fq q _ _ >>= _) = _
    rw [hl, ok_bind]
    exact hnew
  · have h0 : 0 * (i.val + 2) + 0 < 39 * (i.val + 2) := by omega
    rw [Mat.get, aget, dif_pos h0]
    refine congrArg Except.ok ?_
    have h4 : ∀ k (hk : k < l.length), k = 0 → l[k] = ((first32 i : Nat) : Fq) := by
      intro k hk e
      subst e
      have h5 : (l.take 1)[0]'(by rw [← h3]; simp) = ((first32 i : Nat) : Fq) := by simp only [← h3, List.getElem_cons_zero]
      rw [← h5, List.getElem_take]
    exact h4 (0 * (i.val + 2) + 0) (by omega) (by omega)
  · fin_cases i
    · exact arc_first (by norm_num) rate1Raw_wf (by decide +kernel)
    · exact arc_first (by norm_num) rate2Raw_wf (by decide +kernel)
    · exact arc_first (by norm_num) rate3Raw_wf (by decide +kernel)
    · exact arc_first (by norm_num) rate4Raw_wf (by decide +kernel)
    · exact arc_first (by norm_num) rate5Raw_wf (by decide +kernel)
    · exact arc_first (by norm_num) rate6Raw_wf (by decide +kernel)
    · exact arc_first (by norm_num) rate7Raw_wf (by decide +kernel)

/-- 32-bit and 64-bit machines. -/
example (input : GenInput) (rounds : RoundNumbers) (alpha : Alpha) :
    domainSepMessagesW 4 4 input rounds alpha ≠ domainSepMessagesW 8 4 input rounds alpha := C75_messages (by norm_num) 4 _ _ _ _ _ _

end Poseidon
