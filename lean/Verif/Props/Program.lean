import Verif.Proofs.Program
import Verif.Props.Degree
import Verif.Props.History
import Verif.Props.GenerateV1

/-!
# The hash backwards, and the length of programs for it (C105, C106)

The specification is `Spec/Program.lean`: programs of additions and multiplications.
-/

set_option linter.unusedSectionVars false

namespace Poseidon

/-! ## The inverse of the S-box -/

theorem pow_pow_inverse {F : Type} [Field F] [Fintype F] {e d : Nat} (h : e * d % (Fintype.card F - 1) = 1) (x : F) : (x ^ e) ^ d = x := by
  rw [← pow_mul, ← Nat.div_add_mod (e * d) (Fintype.card F - 1), h, pow_add, pow_mul, pow_one]
  by_cases hx : x = 0
  · rw [hx, mul_zero]
  · rw [FiniteField.pow_card_sub_one_eq_one x hx, one_pow, one_mul]

theorem exists_inverse_exponent {F : Type} [Field F] [Fintype F] {e : Nat} (h3 : 3 ≤ Fintype.card F) (h : Nat.Coprime e (Fintype.card F - 1)) :
    ∃ d, 0 < d ∧ d < Fintype.card F - 1 ∧ ∀ x : F, (x ^ e) ^ d = x := by
  obtain ⟨d, hd⟩ := Nat.exists_mul_mod_eq_one_of_coprime h (by omega)
  refine ⟨d, Nat.pos_of_ne_zero ?_, hd.1, pow_pow_inverse hd.2⟩
  rintro rfl
  simp at hd

theorem coprime_of_pow_bijective {F : Type} [Field F] [Fintype F] {e : Nat} (h : Function.Bijective fun x : F => x ^ e) :
    Nat.Coprime e (Fintype.card F - 1) := by
  obtain ⟨g, hg⟩ := IsCyclic.exists_ofOrder_eq_natCard (α := Fˣ)
  rw [Nat.card_units, Nat.card_eq_fintype_card] at hg
  have h1 : orderOf (g ^ e) = orderOf g := by
    refine Nat.dvd_antisymm (orderOf_pow_dvd e) (orderOf_dvd_of_pow_eq_one ?_)
    have h2 : (g ^ orderOf (g ^ e)) ^ e = 1 := by rw [pow_right_comm, pow_orderOf_eq_one]
    refine Units.ext (h.1 ?_)
    have h3 := congrArg Units.val h2
    simpa using h3
  have hpos : 0 < orderOf g := orderOf_pos g
  rw [orderOf_pow] at h1
  have h4 : Nat.gcd (orderOf g) e ∣ orderOf g := Nat.gcd_dvd_left _ _
  have h5 := Nat.div_mul_cancel h4
  rw [h1] at h5
  have h6 : Nat.gcd (orderOf g) e = 1 := by
    have : orderOf g * Nat.gcd (orderOf g) e = orderOf g * 1 := by omega
    exact Nat.eq_of_mul_eq_mul_left hpos this
  rw [← hg, Nat.coprime_comm]
  exact h6

/-! ## The shipped permutations -/

theorem perm377_inverse (i : Fin 7) : ∃ f : (Fin (i.val + 2) → Fq) → (Fin (i.val + 2) → Fq),
    Makes (programLength (i.val + 2) 4 31 252) (wordsOf fun x : Fin (i.val + 2) → Fq => fun a => x (Equiv.swap 0 1 a))
      (wordsOf fun x : Fin (i.val + 2) → Fq => f fun a => x (Equiv.swap 0 1 a)) ∧
    Makes (programLength (i.val + 2) 4 31 252) (wordsOf id) (wordsOf f) ∧ ∀ x, f (perm377 i x) = x := by
  have h := (shippedAll i).1.mInverse
  rw [shipped_mds_cauchy] at h
  obtain ⟨d, h0, h1, h2⟩ := exists_inverse_exponent (F := Fq) (e := 17) (by rw [card_Fq]; decide +kernel) (by rw [card_Fq]; exact coprime17)
  have h3 : d < 2 ^ (252 + 1) := by
    rw [card_Fq] at h1
    exact h1.trans (by decide +kernel)
  exact ⟨unpermE d _ 4 31 (shippedArc i), Makes.unpermE h0 h3 _ _ _ _, Makes.unpermE h0 h3 _ _ _ _,
    unpermE_permE (mul_eq_one_comm.1 h) h2 _ _ _⟩

/-- Running backwards, for a function that is the digest of a bijection with an easy inverse -/
theorem runsBackwards_of {F : Type} [Field F] {n N : Nat} {h : (Fin (n + 2) → F) → R F} {p f : (Fin (n + 2) → F) → (Fin (n + 2) → F)}
    (hp : Function.Bijective p) (hf : ∀ x, f (p x) = x) (hh : ∀ x, h x = .ok (p x 1))
    (hm : Makes N (wordsOf fun x : Fin (n + 2) → F => fun a => x (Equiv.swap 0 1 a)) (wordsOf fun x : Fin (n + 2) → F => f fun a => x (Equiv.swap 0 1 a))) :
    RunsBackwards N h := by
  have hpf : ∀ y, p (f y) = y := fun y => by
    obtain ⟨x, rfl⟩ := hp.2 y
    rw [hf]
  refine ⟨fun w => f fun a => w (Equiv.swap 0 1 a), Makes.hasProgram (hm.left ?_), fun d => ⟨?_, fun x => ?_⟩⟩
  · rintro _ ⟨j, rfl⟩
    exact ⟨Equiv.swap 0 1 j, rfl⟩
  · intro u u' e
    have e := congrArg p e
    simp only [hpf] at e
    funext j
    have := congrFun e (Equiv.swap 0 1 j.succ)
    simpa using this
  · rw [hh]
    constructor
    · intro e
      injection e with e
      refine ⟨fun j => p x (Equiv.swap 0 1 j.succ), ?_⟩
      refine (congrArg f (funext fun a => ?_)).trans (hf x)
      obtain ⟨b, rfl⟩ := (Equiv.swap (0 : Fin (n + 2)) 1).surjective a
      rw [Equiv.swap_apply_self]
      rcases Fin.eq_zero_or_eq_succ b with rfl | ⟨b, rfl⟩
      · simp [e]
      · simp
    · rintro ⟨u, rfl⟩
      rw [hpf]
      simp

theorem perm377_runsBackwards (i : Fin 7) {h : (Fin (i.val + 2) → Fq) → R Fq} (hh : ∀ x, ∃ y, spec377 i x = some y ∧ h x = .ok (y 1)) :
    RunsBackwards (programLength (i.val + 2) 4 31 252) h := by
  obtain ⟨f, h1, -, h2⟩ := perm377_inverse i
  refine runsBackwards_of (perm377_bijective i) h2 (fun x => ?_) h1
  obtain ⟨y, h3, h4⟩ := hh x
  rw [spec377_eq] at h3
  rw [h4, ← Option.some.inj h3]

theorem perm377_hasDigestProgram (i : Fin 7) {h : (Fin (i.val + 2) → Fq) → R Fq} (hh : ∀ x, ∃ y, spec377 i x = some y ∧ h x = .ok (y 1)) :
    HasDigestProgram (programLength (i.val + 2) 4 31 4) h := by
  have h1 : Makes (programLength (i.val + 2) 4 31 4) (wordsOf id) (wordsOf fun x => perm377 i (id x)) :=
    Makes.permE (by norm_num) (by norm_num) (cauchyMds Fq (i.val + 2)) 4 31 (shippedArc i)
  refine ⟨fun x _ => perm377 i x 1, Makes.hasProgram (h1.right ?_), fun x => ?_⟩
  · rintro _ ⟨j, rfl⟩
    exact ⟨1, rfl⟩
  · obtain ⟨y, h3, h4⟩ := hh x
    rw [spec377_eq] at h3
    rw [h4, ← Option.some.inj h3]

theorem perm377_noShortProgram (i : Fin 7) {h : (Fin (i.val + 2) → Fq) → R Fq} (hh : ∀ x, ∃ y, spec377 i x = some y ∧ h x = .ok (y 1)) :
    NoShortProgram 160 (17 ^ 39) h := by
  intro x j P out hP
  obtain ⟨g, h1, h2⟩ := perm377_degree i x j 1
  have h3 : 2 ^ multiplications P < g.natDegree := by
    rw [h1]
    exact (Nat.pow_le_pow_right (by norm_num) (Nat.le_of_lt_succ hP)).trans_lt (by norm_num)
  refine le_trans (le_of_eq ?_) ((few_right g P out h3).trans h1.le)
  congr 1
  ext z
  obtain ⟨y, h4, h5⟩ := hh (Function.update x j z)
  rw [spec377_eq] at h4
  have h6 : h (Function.update x j z) = .ok (g.eval z) := by rw [h5, ← Option.some.inj h4, h2]
  constructor
  · rintro ⟨d, h7, h8⟩
    rw [h6] at h7
    injection h7 with h7
    subst h7
    exact h8
  · exact fun h7 => ⟨_, h6, h7⟩

/-! ## C105 -/

/-- **C105, the state an instance keeps.** For every shipped rate there is a program of additions and multiplications that computes the last hashed
words from `output_words`, after any history of calls. -/
theorem C105_state (i : Fin 7) : ∃ f : (Fin (i.val + 2) → Fq) → (Fin (i.val + 2) → Fq),
    HasProgram ((8 * (i.val + 2) + 31) * 504 + 39 * ((i.val + 2) * (3 * (i.val + 2) + 3))) f ∧
    ∀ (cs : List (Call Fq (i.val + 2))) (b), History (Instance.new (shippedParams i)) cs b → ∀ x : Fin (i.val + 2) → Fq,
      ((hashCalls cs).getLast? = some (.hash (Vector.ofFn x)) ∨ (hashCalls cs).getLast? = some (.unoptimizedHash (Vector.ofFn x))) →
        (f fun a => b.outputWords[a]) = x := by
  obtain ⟨f, -, h1, h2⟩ := perm377_inverse i
  refine ⟨f, Makes.hasProgram h1, fun cs b h x hx => ?_⟩
  obtain ⟨y, h3, h4⟩ := C07_shipped i cs b h x hx
  rw [spec377_eq] at h3
  rw [h4, ← Option.some.inj h3]
  rw [show (fun a : Fin (i.val + 2) => (Vector.ofFn (perm377 i x))[a]) = perm377 i x from funext fun a => by simp]
  exact h2 x

/-- **C105 for an instance of a shipped rate.** -/
theorem C105_instance (i : Fin 7) (s : Vector Fq (i.val + 2)) :
    RunsBackwards ((8 * (i.val + 2) + 31) * 504 + 39 * ((i.val + 2) * (3 * (i.val + 2) + 3)))
      (fun x : Fin (i.val + 2) → Fq => (Instance.nTo1FixedHash ⟨shippedParams i, s⟩ (Vector.ofFn x)).map Prod.fst) := by
  refine perm377_runsBackwards i fun x => ?_
  obtain ⟨y, hy, e⟩ := C02_instance i s x
  exact ⟨y, hy, by rw [e]; rfl⟩

theorem hash1_words (x : Fin 2 → Fq) : ∃ y, spec377 0 x = some y ∧ hash1 (x 0) (x 1) = .ok (y 1) := by
  have h := C02_hash_1 (x 0) (x 1)
  rwa [show ![x 0, x 1] = x from by funext a; fin_cases a <;> rfl] at h

/-- **C105** for `hash_1`, domain separator included among the arguments. -/
theorem C105_hash_1 : RunsBackwards 24390 (fun x : Fin 2 → Fq => hash1 (x 0) (x 1)) :=
  perm377_runsBackwards 0 hash1_words

theorem hash2_words (x : Fin 3 → Fq) : ∃ y, spec377 1 x = some y ∧ hash2 (x 0) (x 1, x 2) = .ok (y 1) := by
  have h := C02_hash_2 (x 0) (x 1, x 2)
  rwa [show ![x 0, x 1, x 2] = x from by funext a; fin_cases a <;> rfl] at h

/-- **C105** for `hash_2`, domain separator included among the arguments. -/
theorem C105_hash_2 : RunsBackwards 29124 (fun x : Fin 3 → Fq => hash2 (x 0) (x 1, x 2)) :=
  perm377_runsBackwards 1 hash2_words

theorem hash3_words (x : Fin 4 → Fq) : ∃ y, spec377 2 x = some y ∧ hash3 (x 0) (x 1, x 2, x 3) = .ok (y 1) := by
  have h := C02_hash_3 (x 0) (x 1, x 2, x 3)
  rwa [show ![x 0, x 1, x 2, x 3] = x from by funext a; fin_cases a <;> rfl] at h

/-- **C105** for `hash_3`, domain separator included among the arguments. -/
theorem C105_hash_3 : RunsBackwards 34092 (fun x : Fin 4 → Fq => hash3 (x 0) (x 1, x 2, x 3)) :=
  perm377_runsBackwards 2 hash3_words

theorem hash4_words (x : Fin 5 → Fq) : ∃ y, spec377 3 x = some y ∧ hash4 (x 0) (x 1, x 2, x 3, x 4) = .ok (y 1) := by
  have h := C02_hash_4 (x 0) (x 1, x 2, x 3, x 4)
  rwa [show ![x 0, x 1, x 2, x 3, x 4] = x from by funext a; fin_cases a <;> rfl] at h

/-- **C105** for `hash_4`, domain separator included among the arguments. -/
theorem C105_hash_4 : RunsBackwards 39294 (fun x : Fin 5 → Fq => hash4 (x 0) (x 1, x 2, x 3, x 4)) :=
  perm377_runsBackwards 3 hash4_words

theorem hash5_words (x : Fin 6 → Fq) : ∃ y, spec377 4 x = some y ∧ hash5 (x 0) (x 1, x 2, x 3, x 4, x 5) = .ok (y 1) := by
  have h := C02_hash_5 (x 0) (x 1, x 2, x 3, x 4, x 5)
  rwa [show ![x 0, x 1, x 2, x 3, x 4, x 5] = x from by funext a; fin_cases a <;> rfl] at h

/-- **C105** for `hash_5`, domain separator included among the arguments. -/
theorem C105_hash_5 : RunsBackwards 44730 (fun x : Fin 6 → Fq => hash5 (x 0) (x 1, x 2, x 3, x 4, x 5)) :=
  perm377_runsBackwards 4 hash5_words

theorem hash6_words (x : Fin 7 → Fq) : ∃ y, spec377 5 x = some y ∧ hash6 (x 0) (x 1, x 2, x 3, x 4, x 5, x 6) = .ok (y 1) := by
  have h := C02_hash_6 (x 0) (x 1, x 2, x 3, x 4, x 5, x 6)
  rwa [show ![x 0, x 1, x 2, x 3, x 4, x 5, x 6] = x from by funext a; fin_cases a <;> rfl] at h

/-- **C105** for `hash_6`, domain separator included among the arguments. -/
theorem C105_hash_6 : RunsBackwards 50400 (fun x : Fin 7 → Fq => hash6 (x 0) (x 1, x 2, x 3, x 4, x 5, x 6)) :=
  perm377_runsBackwards 5 hash6_words

theorem hash7_words (x : Fin 8 → Fq) : ∃ y, spec377 6 x = some y ∧ hash7 (x 0) (x 1, x 2, x 3, x 4, x 5, x 6, x 7) = .ok (y 1) := by
  have h := C02_hash_7 (x 0) (x 1, x 2, x 3, x 4, x 5, x 6, x 7)
  rwa [show ![x 0, x 1, x 2, x 3, x 4, x 5, x 6, x 7] = x from by funext a; fin_cases a <;> rfl] at h

/-- **C105** for `hash_7`, domain separator included among the arguments. -/
theorem C105_hash_7 : RunsBackwards 56304 (fun x : Fin 8 → Fq => hash7 (x 0) (x 1, x 2, x 3, x 4, x 5, x 6, x 7)) :=
  perm377_runsBackwards 6 hash7_words

section
variable {F : Type} [Field F] [DecidableEq F] {k nmds nhat rows nround npart : Nat}

/-- **C105 for generated parameters.** Whatever parameters with an exponent as S-box `v1::generate` returns, hashing with them runs backwards. -/
theorem C105_generated (L : Libm) (hL : L.Accurate) (hl2 : L.log2 2 = 1) (debug : Bool) (nlimbs : Nat)
    (hn : nlimbs < 2 ^ 28) (p : Nat) (hpp : p.Prime) [Fintype F] (hF : Fintype.card F = p) (hp : numBits p < 2 ^ 32)
    (security : Nat) (allow : Bool)
    (hm : nmds = (k + 1) * (k + 1)) (hh : nhat = k * k) (ha : nround = rows * (k + 1))
    (P : Params F (k + 1) k nmds nhat rows (k + 1) nround npart)
    (h : v1Generate L debug F nlimbs k nmds nhat rows nround npart security p allow = .ok P)
    (e : Nat) (he : P.alpha = .exponent e) (s : Vector F (k + 1)) :
    RunsBackwards ((2 * (P.rounds.rF / 2) * (k + 1) + P.rounds.rP) * (2 * (numBits p - 1)) +
        (2 * (P.rounds.rF / 2) + P.rounds.rP) * ((k + 1) * (3 * (k + 1) + 3)))
      (fun x : Fin (k + 1) → F => (Instance.nTo1FixedHash ⟨P, s⟩ (Vector.ofFn x)).map Prod.fst) := by
  have : Fact p.Prime := ⟨hpp⟩
  have : CharP F p := charP_of_card_eq_prime hF
  have r := v1Generate_result hL hl2 debug hn hp hm hh ha h
  obtain ⟨C, -, hC⟩ := C51_textbook L hL hl2 debug nlimbs hn p hp security allow hm hh ha P h
  have hb := C31_bijective hpp allow (he ▸ r.alpha) F hF
  have h3 : 3 ≤ p := by
    subst ha
    have h7 := ((C50_succeeds_iff (F := F) L hL hl2 debug nlimbs hn p hpp hp security allow hm hh).1 ⟨_, _, _, h⟩).2.2.1
    omega
  have hM : cauchyMds F (k + 1) * P.optimizedMds.mInverse.toM hm = 1 := by rw [← r.mds]; exact r.derivedMds.mInverse
  obtain ⟨d, h0, h1, h2⟩ := exists_inverse_exponent (by omega) (coprime_of_pow_bijective hb)
  have h4 : d < 2 ^ (numBits p - 1 + 1) := by
    rw [numBits, if_neg (by omega), Nat.add_sub_cancel]
    have := Nat.lt_log2_self (n := p)
    omega
  have hw := r.width
  obtain ⟨m, rfl⟩ : ∃ m, k = m + 1 := ⟨k - 1, by omega⟩
  refine runsBackwards_of (permE_bijective hM hb _ _ C) (unpermE_permE (mul_eq_one_comm.1 hM) h2 _ _ C) (fun x => ?_) (Makes.unpermE h0 h4 _ _ _ _)
  have h5 := hC s x
  rw [he, textbook_exponent] at h5
  obtain ⟨i1, h6, h5⟩ := h5
  rw [h5, show i1 = 1 from Fin.ext h6]
  rfl

end

/-- **C105 is about something.** Any digest of `hash_2` has two different preimages, and the program finds them: it gives a different one for each choice
of the two free words. -/
example (d : Fq) : ∃ f : (Fin 3 → Fq) → (Fin 3 → Fq), HasProgram 29124 f ∧ f ![d, 0, 0] ≠ f ![d, 0, 1] ∧
    ∀ x ∈ ({f ![d, 0, 0], f ![d, 0, 1]} : Set (Fin 3 → Fq)), hash2 (x 0) (x 1, x 2) = .ok d := by
  obtain ⟨f, h1, h2⟩ := C105_hash_2
  have e : ∀ u : Fin 2 → Fq, (Fin.cons d u : Fin 3 → Fq) = ![d, u 0, u 1] := fun u => by funext a; fin_cases a <;> rfl
  refine ⟨f, h1, fun h => ?_, ?_⟩
  · have := (h2 d).1 (a₁ := ![0, 0]) (a₂ := ![0, 1]) (by simpa [e] using h)
    have h3 := congrFun this 1
    simp at h3
  · rintro x (rfl | rfl)
    · exact ((h2 d).2 _).2 ⟨![0, 0], by simp [e]⟩
    · exact ((h2 d).2 _).2 ⟨![0, 1], by simp [e]⟩

/-- Not every function can be run backwards. -/
example (N : Nat) : ¬ RunsBackwards N (fun _ : Fin 2 → Fq => (.ok 0 : R Fq)) := by
  rintro ⟨f, -, h⟩
  obtain ⟨u, -⟩ : ∃ u : Fin 1 → Fq, True := ⟨0, trivial⟩
  have := ((h 1).2 (f (Fin.cons 1 u))).2 ⟨u, rfl⟩
  injection this with this
  exact zero_ne_one this

/-- The generated parameters of **C105** exist. -/
example (s : Vector Fq 3) : RunsBackwards 29124 (fun x : Fin 3 → Fq => (Instance.nTo1FixedHash ⟨shippedParams 1, s⟩ (Vector.ofFn x)).map Prod.fst) := by
  have hl2 : roundedLibm.log2 2 = 1 := by
    show rne (Real.logb 2 2) = 1
    rw [Real.logb_self_eq_one (by norm_num)]
    simpa using rne_natCast (n := 1) (by norm_num)
  have h := C105_generated (F := Fq) (k := 2) roundedLibm roundedLibm_accurate hl2 true 4 (by norm_num) q (Fact.out) card_Fq (by decide +kernel) 128 true
    rfl rfl rfl _ (C20_shipped _ roundedLibm_accurate true true 1) 17 (shipped_alpha 1) s
  rw [shipped_rounds, show numBits q = 253 from by decide +kernel] at h
  exact h

/-! ## C106 -/

/-- **C106 for an instance of a shipped rate.** -/
theorem C106_instance (i : Fin 7) (s : Vector Fq (i.val + 2)) :
    HasDigestProgram ((8 * (i.val + 2) + 31) * 8 + 39 * ((i.val + 2) * (3 * (i.val + 2) + 3)))
      (fun x : Fin (i.val + 2) → Fq => (Instance.nTo1FixedHash ⟨shippedParams i, s⟩ (Vector.ofFn x)).map Prod.fst) ∧
    NoShortProgram 160 (17 ^ 39)
      (fun x : Fin (i.val + 2) → Fq => (Instance.nTo1FixedHash ⟨shippedParams i, s⟩ (Vector.ofFn x)).map Prod.fst) := by
  have hh : ∀ x : Fin (i.val + 2) → Fq, ∃ y, spec377 i x = some y ∧
      (Instance.nTo1FixedHash ⟨shippedParams i, s⟩ (Vector.ofFn x)).map Prod.fst = .ok (y 1) := by
    intro x
    obtain ⟨y, hy, e⟩ := C02_instance i s x
    exact ⟨y, hy, by rw [e]; rfl⟩
  exact ⟨perm377_hasDigestProgram i hh, perm377_noShortProgram i hh⟩

/-- **C106** for `hash_1`. -/
theorem C106_hash_1 : HasDigestProgram 1078 (fun x : Fin 2 → Fq => hash1 (x 0) (x 1)) ∧
    NoShortProgram 160 (17 ^ 39) (fun x : Fin 2 → Fq => hash1 (x 0) (x 1)) :=
  ⟨perm377_hasDigestProgram 0 hash1_words, perm377_noShortProgram 0 hash1_words⟩

/-- **C106** for `hash_2`. -/
theorem C106_hash_2 : HasDigestProgram 1844 (fun x : Fin 3 → Fq => hash2 (x 0) (x 1, x 2)) ∧
    NoShortProgram 160 (17 ^ 39) (fun x : Fin 3 → Fq => hash2 (x 0) (x 1, x 2)) :=
  ⟨perm377_hasDigestProgram 1 hash2_words, perm377_noShortProgram 1 hash2_words⟩

/-- **C106** for `hash_3`. -/
theorem C106_hash_3 : HasDigestProgram 2844 (fun x : Fin 4 → Fq => hash3 (x 0) (x 1, x 2, x 3)) ∧
    NoShortProgram 160 (17 ^ 39) (fun x : Fin 4 → Fq => hash3 (x 0) (x 1, x 2, x 3)) :=
  ⟨perm377_hasDigestProgram 2 hash3_words, perm377_noShortProgram 2 hash3_words⟩

/-- **C106** for `hash_4`. -/
theorem C106_hash_4 : HasDigestProgram 4078 (fun x : Fin 5 → Fq => hash4 (x 0) (x 1, x 2, x 3, x 4)) ∧
    NoShortProgram 160 (17 ^ 39) (fun x : Fin 5 → Fq => hash4 (x 0) (x 1, x 2, x 3, x 4)) :=
  ⟨perm377_hasDigestProgram 3 hash4_words, perm377_noShortProgram 3 hash4_words⟩

/-- **C106** for `hash_5`. -/
theorem C106_hash_5 : HasDigestProgram 5546 (fun x : Fin 6 → Fq => hash5 (x 0) (x 1, x 2, x 3, x 4, x 5)) ∧
    NoShortProgram 160 (17 ^ 39) (fun x : Fin 6 → Fq => hash5 (x 0) (x 1, x 2, x 3, x 4, x 5)) :=
  ⟨perm377_hasDigestProgram 4 hash5_words, perm377_noShortProgram 4 hash5_words⟩

/-- **C106** for `hash_6`. -/
theorem C106_hash_6 : HasDigestProgram 7248 (fun x : Fin 7 → Fq => hash6 (x 0) (x 1, x 2, x 3, x 4, x 5, x 6)) ∧
    NoShortProgram 160 (17 ^ 39) (fun x : Fin 7 → Fq => hash6 (x 0) (x 1, x 2, x 3, x 4, x 5, x 6)) :=
  ⟨perm377_hasDigestProgram 5 hash6_words, perm377_noShortProgram 5 hash6_words⟩

/-- **C106** for `hash_7`. -/
theorem C106_hash_7 : HasDigestProgram 9184 (fun x : Fin 8 → Fq => hash7 (x 0) (x 1, x 2, x 3, x 4, x 5, x 6, x 7)) ∧
    NoShortProgram 160 (17 ^ 39) (fun x : Fin 8 → Fq => hash7 (x 0) (x 1, x 2, x 3, x 4, x 5, x 6, x 7)) :=
  ⟨perm377_hasDigestProgram 6 hash7_words, perm377_noShortProgram 6 hash7_words⟩

/-- **C106 is about something.** A function of low degree has a short program. -/
example : ¬ NoShortProgram 160 (17 ^ 39) (fun x : Fin 2 → Fq => (.ok (x 0 * x 0) : R Fq)) := by
  intro h
  have h1 := h 0 0 [.mul 0 0] (fun _ => 1) (by simp [multiplications])
  have h2 : {z : Fq | ∃ d, (.ok (Function.update (0 : Fin 2 → Fq) 0 z 0 * Function.update (0 : Fin 2 → Fq) 0 z 0) : R Fq) = .ok d ∧
      Outputs [.mul 0 0] (fun _ : Fin 1 => 1) (fun _ : Fin 1 => z) fun _ => d} = Set.univ := by
    ext z
    simp only [Set.mem_univ, iff_true]
    refine ⟨z * z, by simp, [z, z * z], ?_, fun _ => rfl⟩
    simp [runProgram, Instr.value]
  rw [h2, Set.ncard_univ, Nat.card_eq_fintype_card, card_Fq] at h1
  exact absurd h1 (by decide +kernel)

/-- `17^39` is a small part of the field: less than one in `2^92`. -/
theorem C106_small : 17 ^ 39 * 2 ^ 92 < q := by decide +kernel

end Poseidon
