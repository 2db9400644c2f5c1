import Verif.Proofs.ArcShipped
import Verif.Props.Alpha

/-!
# Properties of the round constants and the transcript (C19, C34, C48)
-/

set_option linter.unusedSectionVars false

namespace Poseidon

/-! ## C19: the shipped round constants -/

/-- C19: each of the seven shipped tables of round constants is what the generator draws from the Merlin
transcript for the shipped security level, width, modulus, round numbers and exponent. -/
theorem C19_arc (i : Fin 7) (allow : Bool) :
    arcV1Generate Fq 4 39 (39 * (i.val + 2))
      { allowInverse := allow, security := 128, t := i.val + 2, p := q } { rP := 31, rF := 8 } (.exponent 17) =
      .ok (shippedParams i).arc := by
  have hm (i : Fin 7) : allMessages 4 ⟨allow, 128, i.val + 2, q⟩ ⟨31, 8⟩ (.exponent 17) = msgsLit (i.val + 2) :=
    msgsLit_eq i
  fin_cases i
  · exact arc_of_check rate1Raw_wf allow (hm 0) rate1_arc_check
  · exact arc_of_check rate2Raw_wf allow (hm 1) rate2_arc_check
  · exact arc_of_check rate3Raw_wf allow (hm 2) rate3_arc_check
  · exact arc_of_check rate4Raw_wf allow (hm 3) rate4_arc_check
  · exact arc_of_check rate5Raw_wf allow (hm 4) rate5_arc_check
  · exact arc_of_check rate6Raw_wf allow (hm 5) rate6_arc_check
  · exact arc_of_check rate7Raw_wf allow (hm 6) rate7_arc_check

/-! ## C34: what the transcript binds -/

theorem leBytes_inj {n x y : Nat} (hx : x < 256 ^ n) (hy : y < 256 ^ n) (h : leBytes n x = leBytes n y) : x = y := by
  induction n generalizing x y with
  | zero => simp at hx hy; omega
  | succ n ih =>
    rw [leBytes, leBytes, List.cons.injEq] at h
    have := ih (by rw [pow_succ] at hx; exact Nat.div_lt_of_lt_mul (by rw [Nat.mul_comm]; exact hx))
      (by rw [pow_succ] at hy; exact Nat.div_lt_of_lt_mul (by rw [Nat.mul_comm]; exact hy)) h.2
    omega

/-- C34: the messages of two generator runs (over possibly different fields, with `n` and `n'` limbs) are
the same iff width, security level, modulus (and its number of limbs), the S-box and the low bytes of the round numbers are, where
`Exponent(2^32 - 1)` and `Inverse` count as the same S-box. -/
theorem C34_messages (n n' : Nat) (a b : GenInput) (ra rb : RoundNumbers) (α β : Alpha)
    (hta : a.t < 2 ^ 64) (htb : b.t < 2 ^ 64) (hMa : a.security < 2 ^ 64) (hMb : b.security < 2 ^ 64)
    (hpa : a.p < 2 ^ (64 * n)) (hpb : b.p < 2 ^ (64 * n')) (hα : α.Valid) (hβ : β.Valid) :
    domainSepMessages n a ra α = domainSepMessages n' b rb β ↔
      a.t = b.t ∧ a.security = b.security ∧ (n = n' ∧ a.p = b.p) ∧ ra.rF % 256 = rb.rF % 256 ∧
        ra.rP % 256 = rb.rP % 256 ∧
        (α = β ∨ (α = .exponent (2 ^ 32 - 1) ∧ β = .inverse) ∨ (α = .inverse ∧ β = .exponent (2 ^ 32 - 1))) := by
  rw [← C33_injective α β hα hβ]
  have h64 : (2 : Nat) ^ 64 = 256 ^ 8 := by norm_num
  have hlimb (m : Nat) : (2 : Nat) ^ (64 * m) = 256 ^ (8 * m) := by
    rw [show (256 : Nat) = 2 ^ 8 from rfl, ← pow_mul]; congr 1; omega
  rw [h64] at hta htb hMa hMb
  rw [hlimb] at hpa hpb
  simp only [domainSepMessages, List.cons.injEq, Prod.mk.injEq, true_and, and_true, RoundNumbers.full,
    RoundNumbers.partialRounds]
  constructor
  · rintro ⟨h1, h2, h3, h4, h5, h6⟩
    have hn : n = n' := by
      have := congrArg List.length h3
      rw [leBytes_length, leBytes_length] at this
      omega
    subst hn
    exact ⟨leBytes_inj hta htb h1, leBytes_inj hMa hMb h2, ⟨rfl, leBytes_inj hpa hpb h3⟩, h4, h5, h6⟩
  · rintro ⟨h1, h2, ⟨rfl, h3⟩, h4, h5, h6⟩
    rw [h1, h2, h3]
    exact ⟨rfl, rfl, rfl, h4, h5, h6⟩

/-- C34: for round numbers below 256 and an S-box other than `Exponent(2^32 - 1)` the messages determine the
instance. -/
theorem C34_binding (n : Nat) (a b : GenInput) (ra rb : RoundNumbers) (α β : Alpha)
    (hta : a.t < 2 ^ 64) (htb : b.t < 2 ^ 64) (hMa : a.security < 2 ^ 64) (hMb : b.security < 2 ^ 64)
    (hpa : a.p < 2 ^ (64 * n)) (hpb : b.p < 2 ^ (64 * n))
    (hra : ra.rF < 256 ∧ ra.rP < 256) (hrb : rb.rF < 256 ∧ rb.rP < 256) (hα : α.Valid) (hβ : β.Valid)
    (hα' : α ≠ .exponent (2 ^ 32 - 1)) (hβ' : β ≠ .exponent (2 ^ 32 - 1))
    (h : domainSepMessages n a ra α = domainSepMessages n b rb β) :
    a.t = b.t ∧ a.security = b.security ∧ a.p = b.p ∧ ra = rb ∧ α = β := by
  obtain ⟨h1, h2, ⟨-, h3⟩, h4, h5, h6⟩ := (C34_messages n n a b ra rb _ _ hta htb hMa hMb hpa hpb hα hβ).1 h
  refine ⟨h1, h2, h3, ?_, ?_⟩
  · obtain ⟨x, y⟩ := ra
    obtain ⟨x', y'⟩ := rb
    dsimp only at hra hrb h4 h5
    rw [RoundNumbers.mk.injEq]
    omega
  · rcases h6 with h6 | ⟨h6, -⟩ | ⟨-, h6⟩
    · exact h6
    · exact absurd h6 hα'
    · exact absurd h6 hβ'

/-- C34: the truncation is real: 31 and 287 partial rounds give the same messages, hence the same stream of
constants. -/
theorem C34_truncation (F : Type) [Field F] (n : Nat) (input : GenInput) (rF count : Nat) (α : Alpha) :
    domainSepMessages n input ⟨31, rF⟩ α = domainSepMessages n input ⟨287, rF⟩ α ∧
    arcElements F n input ⟨31, rF⟩ α count = arcElements F n input ⟨287, rF⟩ α count := by
  have h : domainSepMessages n input ⟨31, rF⟩ α = domainSepMessages n input ⟨287, rF⟩ α := by
    simp only [domainSepMessages, RoundNumbers.full, RoundNumbers.partialRounds]
  refine ⟨h, ?_⟩
  have hd : ∀ s, domainSep n input ⟨31, rF⟩ α s = domainSep n input ⟨287, rF⟩ α s := by
    intro s; rw [domainSep, domainSep, h]
  simp only [arcElements, hd]

/-- Non-vacuity of `C34_binding`: the shipped instances of widths 2 and 3 have different messages. -/
example : domainSepMessages 4 ⟨true, 128, 2, q⟩ ⟨31, 8⟩ (.exponent 17) ≠
    domainSepMessages 4 ⟨true, 128, 3, q⟩ ⟨31, 8⟩ (.exponent 17) := fun h => by
  have := (C34_binding 4 _ _ _ _ _ _ (by norm_num) (by norm_num) (by norm_num) (by norm_num) (by decide +kernel) (by decide +kernel)
    ⟨by norm_num, by norm_num⟩ ⟨by norm_num, by norm_num⟩ (by norm_num [Alpha.Valid]) (by norm_num [Alpha.Valid])
    (by simp) (by simp) h).1
  norm_num at this

/-! ## C48: drawing never fails, and is a stream -/

theorem roundConstant_ok (F : Type) [Field F] (p : Nat) (hp : numBits p < 2 ^ 32) (s : Strobe) :
    ∃ c, roundConstant F p s = .ok c := by
  obtain ⟨r, hr⟩ := challenge_ok s (asciiBytes "round-constant") ((numBits p + 135) / 8) (by omega)
  rw [roundConstant, hr]
  exact ⟨_, rfl⟩

theorem drawn_ok (F : Type) [Field F] (p : Nat) (hp : numBits p < 2 ^ 32) (n : Nat) (s : Strobe) :
    ∃ l, drawn F p n s = .ok l ∧ l.length = n := by
  induction n generalizing s with
  | zero => exact ⟨[], rfl, rfl⟩
  | succ n ih =>
    obtain ⟨c, hc⟩ := roundConstant_ok F p hp s
    obtain ⟨l, hl, hn⟩ := ih c.2
    refine ⟨c.1 :: l, ?_, by rw [List.length_cons, hn]⟩
    rw [drawn, hc, ok_bind, hl]
    rfl

theorem drawn_prefix (F : Type) [Field F] (p : Nat) (n m : Nat) (s : Strobe) (l : List F)
    (h : drawn F p (n + m) s = .ok l) : drawn F p n s = .ok (l.take n) := by
  induction n generalizing s l with
  | zero => rw [List.take_zero]; rfl
  | succ n ih =>
    rw [show n + 1 + m = (n + m) + 1 by omega, drawn] at h
    rw [drawn]
    cases hc : roundConstant F p s with
    | error e => rw [hc] at h; cases h
    | ok c =>
      rw [hc, ok_bind] at h
      cases hd : drawn F p (n + m) c.2 with
      | error e => rw [hd] at h; cases h
      | ok l' =>
        rw [hd] at h
        have h' : Except.ok (c.1 :: l') = Except.ok l := h
        cases h'
        rw [ok_bind, ih c.2 l' hd]
        rfl

/-- C48: generating constants never panics (moduli of less than 2^28 limbs), gives the requested number of
constants, and generating fewer constants gives a prefix. -/
theorem C48_stream (F : Type) [Field F] (nlimbs : Nat) (hn : nlimbs < 2 ^ 28) (input : GenInput)
    (hp : numBits input.p < 2 ^ 32) (rounds : RoundNumbers) (alpha : Alpha) (n m : Nat) :
    ∃ l, arcElements F nlimbs input rounds alpha (n + m) = .ok l ∧ l.length = n + m ∧
      arcElements F nlimbs input rounds alpha n = .ok (l.take n) := by
  rw [arcElements_eq F nlimbs hn, arcElements_eq F nlimbs hn]
  obtain ⟨l, hl, hlen⟩ := drawn_ok F input.p hp (n + m) (merlinStart.appendAll (allMessages nlimbs input rounds alpha))
  exact ⟨l, hl, hlen, drawn_prefix F input.p n m _ l hl⟩

/-- C48: in particular, for the same input and round numbers the constants of Poseidon2 are the first
`t r_F + r_P` constants of Poseidon. -/
theorem C48_v2_prefix (F : Type) [Field F] (nlimbs : Nat) (hn : nlimbs < 2 ^ 28) (input : GenInput) (ht : 1 ≤ input.t)
    (hp : numBits input.p < 2 ^ 32) (rounds : RoundNumbers) (alpha : Alpha) :
    ∃ (a : Mat F rounds.total input.t (rounds.total * input.t))
      (b : Mat F (rounds.full * input.t + rounds.partialRounds) 1 (rounds.full * input.t + rounds.partialRounds)),
      arcV1Generate F nlimbs rounds.total (rounds.total * input.t) input rounds alpha = .ok a ∧
      arcV2Generate F nlimbs (rounds.full * input.t + rounds.partialRounds) input rounds alpha = .ok b ∧
      b.elements.toList = a.elements.toList.take (rounds.full * input.t + rounds.partialRounds) := by
  have hle : rounds.full * input.t + rounds.partialRounds ≤ rounds.total * input.t := by
    show rounds.rF * input.t + rounds.rP ≤ (rounds.rP + rounds.rF) * input.t
    rw [Nat.add_mul, Nat.add_comm]
    exact Nat.add_le_add_right (Nat.le_mul_of_pos_right _ ht) _
  obtain ⟨c, hc⟩ := Nat.exists_eq_add_of_le hle
  obtain ⟨l, h1, h2, h3⟩ := C48_stream F nlimbs hn input hp rounds alpha (rounds.full * input.t + rounds.partialRounds) c
  rw [← hc] at h1 h2
  have e1 : arcV1Generate F nlimbs rounds.total (rounds.total * input.t) input rounds alpha =
      .ok ⟨⟨l.toArray, by simpa using h2⟩⟩ := by
    rw [arcV1Generate, h1, ok_bind, Mat.new, if_neg (by simp), dif_pos h2]
  have h4 : (l.take (rounds.full * input.t + rounds.partialRounds)).length =
      rounds.full * input.t + rounds.partialRounds := by
    rw [List.length_take, h2]; omega
  have e2 : arcV2Generate F nlimbs (rounds.full * input.t + rounds.partialRounds) input rounds alpha =
      .ok ⟨⟨(l.take (rounds.full * input.t + rounds.partialRounds)).toArray, by simpa using h4⟩⟩ := by
    rw [arcV2Generate, h3, ok_bind, Mat.new, if_neg (by simp), dif_pos h4]
  exact ⟨_, _, e1, e2, rfl⟩

end Poseidon
