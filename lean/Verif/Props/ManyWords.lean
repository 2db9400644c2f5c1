import Verif.Spec.ManyWords
import Verif.Proofs.MvDegree

/-!
# The hash as a polynomial in all its arguments (C102)
-/

set_option linter.unusedSectionVars false

namespace Poseidon

open MvPolynomial

/-! ## The shipped permutations -/

/-- Words that are polynomials in any variables -/
theorem perm377_mv (i : Fin 7) {σ : Type} {φ : Fin (i.val + 2) → MvPolynomial σ Fq} {m : Nat} (h : ∀ a, (φ a).totalDegree ≤ m) :
    ∃ g : Fin (i.val + 2) → MvPolynomial σ Fq, (∀ a, (g a).totalDegree ≤ m * 17 ^ 39) ∧
      ∀ u, perm377 i (fun a => eval u (φ a)) = fun a => eval u (g a) :=
  permE_mv (e := 17) (cauchyMds Fq (i.val + 2)) (rf := 4) (rp := 31) (shippedArc i) (by norm_num) h

theorem eval_aeval {K : Type} [Field K] {k : Nat} (w : Fin k → Polynomial K) (f : MvPolynomial (Fin k) K) (z : K) :
    (aeval w f).eval z = eval (fun l => (w l).eval z) f := by
  induction f using MvPolynomial.induction_on with
  | C a => simp
  | add f g hf hg => simp only [map_add, Polynomial.eval_add, hf, hg]
  | mul_X f l hf => simp only [map_mul, Polynomial.eval_mul, hf, aeval_X, eval_X]

/-- The words at the positions `p` free, the others fixed -/
noncomputable def freeWords {n k : Nat} (p : Fin k → Fin n) (x : Fin n → Fq) : Fin n → MvPolynomial (Fin k) Fq :=
  Function.extend p X fun a => C (x a)

theorem freeWords_eval {n k : Nat} {p : Fin k → Fin n} (hp : Function.Injective p) (x : Fin n → Fq) (u : Fin k → Fq) :
    (fun a => eval u (freeWords p x a)) = Function.extend p u x := by
  funext a
  rw [freeWords]
  by_cases h : ∃ l, p l = a
  · obtain ⟨l, rfl⟩ := h
    rw [hp.extend_apply, hp.extend_apply, eval_X]
  · rw [Function.extend_apply' _ _ _ h, Function.extend_apply' _ _ _ h, eval_C]

theorem freeWords_degree {n k : Nat} {p : Fin k → Fin n} (hp : Function.Injective p) (x : Fin n → Fq) (a : Fin n) :
    (freeWords p x a).totalDegree ≤ 1 := by
  rw [freeWords]
  by_cases h : ∃ l, p l = a
  · obtain ⟨l, rfl⟩ := h
    rw [hp.extend_apply, totalDegree_X]
  · rw [Function.extend_apply' _ _ _ h, totalDegree_C]
    omega

/-- With the words at the positions `p` free, every output word is a polynomial of total degree exactly `17^39`. -/
theorem perm377_free (i : Fin 7) {k : Nat} {p : Fin k → Fin (i.val + 2)} (hk : 0 < k) (hp : Function.Injective p) (x : Fin (i.val + 2) → Fq) :
    ∃ g : Fin (i.val + 2) → MvPolynomial (Fin k) Fq, (∀ a, (g a).totalDegree = 17 ^ 39) ∧
      ∀ u, perm377 i (Function.extend p u x) = fun a => eval u (g a) := by
  obtain ⟨g, h1, h2⟩ := perm377_mv i (freeWords_degree hp x)
  rw [one_mul] at h1
  refine ⟨g, fun a => le_antisymm (h1 a) ?_, fun u => ?_⟩
  · have : NeZero k := ⟨by omega⟩
    -- fix all free words but the first
    obtain ⟨f, h3, h4⟩ := perm377_degree i (Function.extend p 0 x) (p 0) a
    let w : Fin k → Polynomial Fq := Function.update 0 0 Polynomial.X
    have hw : ∀ l, (w l).natDegree ≤ 1 := by
      intro l
      rw [show w l = _ from Function.update_apply _ _ _ _]
      split_ifs
      · exact Polynomial.natDegree_X_le
      · simp
    have hz : ∀ z : Fq, (fun l => (w l).eval z) = Function.update (0 : Fin k → Fq) 0 z := by
      intro z
      funext l
      rw [show w l = _ from Function.update_apply _ _ _ _, Function.update_apply]
      split_ifs <;> simp
    have h5 : (aeval w (g a)).natDegree ≤ (g a).totalDegree * 1 := aeval_natDegree_le (g a) le_rfl w hw
    rw [mul_one] at h5
    have h6 : f = aeval w (g a) := by
      refine Polynomial.eq_of_natDegree_lt_card_of_eval_eq f _ Function.injective_id (fun z => ?_) ?_
      · have e1 : Polynomial.eval z (aeval w (g a)) = eval (Function.update 0 0 z) (g a) := by
          rw [← hz z, eval_aeval]
        have e2 : Function.update (Function.extend p 0 x) (p 0) z = Function.extend p (Function.update 0 0 z) x := by
          funext b
          by_cases hb : ∃ l, p l = b
          · obtain ⟨l, rfl⟩ := hb
            rw [hp.extend_apply, Function.update_apply, Function.update_apply, hp.extend_apply]
            simp only [hp.eq_iff]
          · rw [Function.extend_apply' _ _ _ hb, Function.update_of_ne (fun h => hb ⟨0, h.symm⟩), Function.extend_apply' _ _ _ hb]
        rw [id, ← h4 z, e1, e2, ← freeWords_eval hp, h2]
      · rw [card_Fq, h3]
        have h7 : 17 ^ 39 < q := by decide +kernel
        exact max_lt h7 (lt_of_le_of_lt (h5.trans (h1 a)) h7)
    rw [← h3, h6]
    exact h5
  · rw [← freeWords_eval hp, h2]

theorem perm377_sumsVanish (i : Fin 7) {h : (Fin (i.val + 2) → Fq) → R Fq} (hh : ∀ x, ∃ y, spec377 i x = some y ∧ h x = .ok (y 1)) :
    SumsVanish (17 ^ 39) h := by
  refine ⟨fun x => perm377 i x 1, fun x => ?_, fun k m φ hφ P l hl => ?_⟩
  · obtain ⟨y, h1, h2⟩ := hh x
    rw [spec377_eq] at h1
    rw [h2, ← Option.some.inj h1]
  · obtain ⟨g, h1, h2⟩ := perm377_mv i hφ
    have h3 := sum_mul_eval (P := P) (Q := X (1 : Fin (i.val + 2)) ^ l) h1 (by
      rw [card_Fq, totalDegree_X_pow, Fintype.card_fin]
      exact hl)
    rw [← h3]
    refine Finset.sum_congr rfl fun u _ => ?_
    rw [map_pow, eval_X]
    show eval u P * perm377 i (fun a => eval u (φ a)) 1 ^ l = _
    rw [h2]

theorem perm377_noRelation (i : Fin 7) {h : (Fin (i.val + 2) → Fq) → R Fq} (hh : ∀ x, ∃ y, spec377 i x = some y ∧ h x = .ok (y 1)) :
    NoRelation (17 ^ 39) h := by
  refine ⟨fun x => perm377 i x 1, fun x => ?_, fun k p hk hp x F dx hF hx hD S => ?_⟩
  · obtain ⟨y, h1, h2⟩ := hh x
    rw [spec377_eq] at h1
    rw [h2, ← Option.some.inj h1]
  · obtain ⟨g, h1, h2⟩ := perm377_free i hk hp x
    have h3 := relation_card hF hx (by rw [h1 1]; exact hD) S
    rw [h1 1] at h3
    refine le_trans (le_of_eq ?_) h3
    simp only [h2]

/-- **C102.** For every shipped rate the digest is a polynomial of total degree exactly `17^39` in the input words; so is every word the instance
is left with. -/
theorem C102_polynomial (i : Fin 7) :
    ∃ g : Fin (i.val + 2) → MvPolynomial (Fin (i.val + 2)) Fq, (∀ a, (g a).totalDegree = 17 ^ 39) ∧
      ∀ (s : Vector Fq (i.val + 2)) (x : Fin (i.val + 2) → Fq), Instance.nTo1FixedHash ⟨shippedParams i, s⟩ (Vector.ofFn x) =
        .ok (eval x (g 1), ⟨shippedParams i, Vector.ofFn fun a => eval x (g a)⟩) := by
  obtain ⟨g, h1, h2⟩ := perm377_free i (p := id) (by omega) Function.injective_id 0
  refine ⟨g, h1, fun s x => ?_⟩
  have h3 := h2 x
  rw [show Function.extend id x 0 = x from funext fun a => Function.injective_id.extend_apply x 0 a] at h3
  rw [nTo1_perm377, h3]

/-- **C102, all output words.** Let the input words be polynomials of total degree at most `m` in any number of parameters.  Then any polynomial `Q` of all
the words the instance is left with, times any polynomial `P` of the parameters, adds up to zero over all values of the parameters, as soon as
the degrees allow it. -/
theorem C102_words (i : Fin 7) (k m : Nat) (φ : Fin (i.val + 2) → MvPolynomial (Fin k) Fq) (hφ : ∀ a, (φ a).totalDegree ≤ m)
    (P : MvPolynomial (Fin k) Fq) (Q : MvPolynomial (Fin (i.val + 2)) Fq) (h : P.totalDegree + Q.totalDegree * (m * 17 ^ 39) < (q - 1) * k) :
    ∃ w : (Fin k → Fq) → Fin (i.val + 2) → Fq,
      (∀ (s : Vector Fq (i.val + 2)) (u : Fin k → Fq), ∃ digest inst',
        Instance.nTo1FixedHash ⟨shippedParams i, s⟩ (Vector.ofFn fun a => eval u (φ a)) = .ok (digest, inst') ∧
          inst'.outputWords = Vector.ofFn (w u)) ∧
      ∑ u : Fin k → Fq, eval u P * eval (w u) Q = 0 := by
  obtain ⟨g, h1, h2⟩ := perm377_mv i hφ
  refine ⟨fun u a => eval u (g a), fun s u => ?_, ?_⟩
  · rw [nTo1_perm377, h2]
    exact ⟨_, _, rfl, rfl⟩
  · exact sum_mul_eval h1 (by rw [card_Fq, Fintype.card_fin]; exact h)

/-- **C102, instances.** The sums of digests over all values of many words, and the relations between words and digest. -/
theorem C102_instance (i : Fin 7) (s : Vector Fq (i.val + 2)) :
    SumsVanish (17 ^ 39) (fun x : Fin (i.val + 2) → Fq => (Instance.nTo1FixedHash ⟨shippedParams i, s⟩ (Vector.ofFn x)).map Prod.fst) ∧
    NoRelation (17 ^ 39) (fun x : Fin (i.val + 2) → Fq => (Instance.nTo1FixedHash ⟨shippedParams i, s⟩ (Vector.ofFn x)).map Prod.fst) := by
  have hh : ∀ x : Fin (i.val + 2) → Fq, ∃ y, spec377 i x = some y ∧
      (Instance.nTo1FixedHash ⟨shippedParams i, s⟩ (Vector.ofFn x)).map Prod.fst = .ok (y 1) := by
    intro x
    obtain ⟨y, hy, e⟩ := C02_instance i s x
    exact ⟨y, hy, by rw [e]; rfl⟩
  exact ⟨perm377_sumsVanish i hh, perm377_noRelation i hh⟩

/-- **C102** for `hash_1`, as a function of all its arguments. -/
theorem C102_hash_1 : SumsVanish (17 ^ 39) (fun x : Fin 2 → Fq => hash1 (x 0) (x 1)) ∧
    NoRelation (17 ^ 39) (fun x : Fin 2 → Fq => hash1 (x 0) (x 1)) := by
  have hh : ∀ x : Fin 2 → Fq, ∃ y, spec377 0 x = some y ∧ hash1 (x 0) (x 1) = .ok (y 1) := by
    intro x
    have h := C02_hash_1 (x 0) (x 1)
    rwa [show ![x 0, x 1] = x from by funext a; fin_cases a <;> rfl] at h
  exact ⟨perm377_sumsVanish 0 hh, perm377_noRelation 0 hh⟩

/-- **C102** for `hash_2`, as a function of all its arguments. -/
theorem C102_hash_2 : SumsVanish (17 ^ 39) (fun x : Fin 3 → Fq => hash2 (x 0) (x 1, x 2)) ∧
    NoRelation (17 ^ 39) (fun x : Fin 3 → Fq => hash2 (x 0) (x 1, x 2)) := by
  have hh : ∀ x : Fin 3 → Fq, ∃ y, spec377 1 x = some y ∧ hash2 (x 0) (x 1, x 2) = .ok (y 1) := by
    intro x
    have h := C02_hash_2 (x 0) (x 1, x 2)
    rwa [show ![x 0, x 1, x 2] = x from by funext a; fin_cases a <;> rfl] at h
  exact ⟨perm377_sumsVanish 1 hh, perm377_noRelation 1 hh⟩

/-- **C102** for `hash_3`, as a function of all its arguments. -/
theorem C102_hash_3 : SumsVanish (17 ^ 39) (fun x : Fin 4 → Fq => hash3 (x 0) (x 1, x 2, x 3)) ∧
    NoRelation (17 ^ 39) (fun x : Fin 4 → Fq => hash3 (x 0) (x 1, x 2, x 3)) := by
  have hh : ∀ x : Fin 4 → Fq, ∃ y, spec377 2 x = some y ∧ hash3 (x 0) (x 1, x 2, x 3) = .ok (y 1) := by
    intro x
    have h := C02_hash_3 (x 0) (x 1, x 2, x 3)
    rwa [show ![x 0, x 1, x 2, x 3] = x from by funext a; fin_cases a <;> rfl] at h
  exact ⟨perm377_sumsVanish 2 hh, perm377_noRelation 2 hh⟩

/-- **C102** for `hash_4`, as a function of all its arguments. -/
theorem C102_hash_4 : SumsVanish (17 ^ 39) (fun x : Fin 5 → Fq => hash4 (x 0) (x 1, x 2, x 3, x 4)) ∧
    NoRelation (17 ^ 39) (fun x : Fin 5 → Fq => hash4 (x 0) (x 1, x 2, x 3, x 4)) := by
  have hh : ∀ x : Fin 5 → Fq, ∃ y, spec377 3 x = some y ∧ hash4 (x 0) (x 1, x 2, x 3, x 4) = .ok (y 1) := by
    intro x
    have h := C02_hash_4 (x 0) (x 1, x 2, x 3, x 4)
    rwa [show ![x 0, x 1, x 2, x 3, x 4] = x from by funext a; fin_cases a <;> rfl] at h
  exact ⟨perm377_sumsVanish 3 hh, perm377_noRelation 3 hh⟩

/-- **C102** for `hash_5`, as a function of all its arguments. -/
theorem C102_hash_5 : SumsVanish (17 ^ 39) (fun x : Fin 6 → Fq => hash5 (x 0) (x 1, x 2, x 3, x 4, x 5)) ∧
    NoRelation (17 ^ 39) (fun x : Fin 6 → Fq => hash5 (x 0) (x 1, x 2, x 3, x 4, x 5)) := by
  have hh : ∀ x : Fin 6 → Fq, ∃ y, spec377 4 x = some y ∧ hash5 (x 0) (x 1, x 2, x 3, x 4, x 5) = .ok (y 1) := by
    intro x
    have h := C02_hash_5 (x 0) (x 1, x 2, x 3, x 4, x 5)
    rwa [show ![x 0, x 1, x 2, x 3, x 4, x 5] = x from by funext a; fin_cases a <;> rfl] at h
  exact ⟨perm377_sumsVanish 4 hh, perm377_noRelation 4 hh⟩

/-- **C102** for `hash_6`, as a function of all its arguments. -/
theorem C102_hash_6 : SumsVanish (17 ^ 39) (fun x : Fin 7 → Fq => hash6 (x 0) (x 1, x 2, x 3, x 4, x 5, x 6)) ∧
    NoRelation (17 ^ 39) (fun x : Fin 7 → Fq => hash6 (x 0) (x 1, x 2, x 3, x 4, x 5, x 6)) := by
  have hh : ∀ x : Fin 7 → Fq, ∃ y, spec377 5 x = some y ∧ hash6 (x 0) (x 1, x 2, x 3, x 4, x 5, x 6) = .ok (y 1) := by
    intro x
    have h := C02_hash_6 (x 0) (x 1, x 2, x 3, x 4, x 5, x 6)
    rwa [show ![x 0, x 1, x 2, x 3, x 4, x 5, x 6] = x from by funext a; fin_cases a <;> rfl] at h
  exact ⟨perm377_sumsVanish 5 hh, perm377_noRelation 5 hh⟩

/-- **C102** for `hash_7`, as a function of all its arguments. -/
theorem C102_hash_7 : SumsVanish (17 ^ 39) (fun x : Fin 8 → Fq => hash7 (x 0) (x 1, x 2, x 3, x 4, x 5, x 6, x 7)) ∧
    NoRelation (17 ^ 39) (fun x : Fin 8 → Fq => hash7 (x 0) (x 1, x 2, x 3, x 4, x 5, x 6, x 7)) := by
  have hh : ∀ x : Fin 8 → Fq, ∃ y, spec377 6 x = some y ∧ hash7 (x 0) (x 1, x 2, x 3, x 4, x 5, x 6, x 7) = .ok (y 1) := by
    intro x
    have h := C02_hash_7 (x 0) (x 1, x 2, x 3, x 4, x 5, x 6, x 7)
    rwa [show ![x 0, x 1, x 2, x 3, x 4, x 5, x 6, x 7] = x from by funext a; fin_cases a <;> rfl] at h
  exact ⟨perm377_sumsVanish 6 hh, perm377_noRelation 6 hh⟩

section
variable {F : Type} [Field F] [DecidableEq F] {k rows nmds nhat nround npart : Nat}

/-- **C102, generated parameters.** If the S-box is a power `e`, the digest is a polynomial of total degree at most `m * e^(r_F + r_P)` in any variables in
which the input words are polynomials of total degree at most `m`; over a finite field its powers, times any polynomial, have sum zero as soon as
the degrees allow it. -/
theorem C102_generated {L : Libm} {debug : Bool} {nlimbs p security : Nat} [CharP F p] {allow : Bool}
    {P : Params F (k + 1) k nmds nhat rows (k + 1) nround npart} (g : GeneratedBy L debug nlimbs p security allow P)
    {e : Nat} (he : P.alpha = .exponent e) (n m : Nat) (φ : Fin (k + 1) → MvPolynomial (Fin n) F) (hφ : ∀ a, (φ a).totalDegree ≤ m) :
    ∃ f : MvPolynomial (Fin n) F, f.totalDegree ≤ m * e ^ (P.rounds.rF + P.rounds.rP) ∧
      (∀ (s : Vector F (k + 1)) (u : Fin n → F), ∃ inst', Instance.nTo1FixedHash ⟨P, s⟩ (Vector.ofFn fun a => eval u (φ a)) =
        .ok (eval u f, inst')) ∧
      ∀ [Fintype F] (W : MvPolynomial (Fin n) F) (l : Nat),
        W.totalDegree + l * (m * e ^ (P.rounds.rF + P.rounds.rP)) < (Fintype.card F - 1) * n → ∑ u : Fin n → F, eval u W * eval u f ^ l = 0 := by
  have r := v1Generate_result g.accurate g.log2_two debug g.limbs g.bits g.nmds_eq g.nhat_eq g.nround_eq g.run
  have hr := alphaGenerate_range (he ▸ r.alpha)
  have hw := r.width
  have hsum : P.rounds.rF / 2 + P.rounds.rP + P.rounds.rF / 2 = P.rounds.rF + P.rounds.rP := by
    rcases r.full with h | h <;> omega
  have hc := r.consistent
  obtain ⟨Q, h1, h2⟩ := permE_mv (e := e) (P.mds.toM g.nmds_eq) (rf := P.rounds.rF / 2) (rp := P.rounds.rP)
    (fun r => P.arc.toM g.nround_eq ⟨r.val, lt_of_lt_of_le r.isLt hc.rows_le⟩) (by omega) hφ
  rw [hsum] at h1
  refine ⟨Q ⟨1, by omega⟩, h1 _, fun s u => ?_, fun W l h => ?_⟩
  · rw [nTo1FixedHash_eq P g.nmds_eq g.nround_eq hc (by omega), he, textbook_exponent, h2 u]
    exact ⟨_, congrArg Except.ok (Prod.ext (Vector.getElem_ofFn _) rfl)⟩
  · have h3 := sum_mul_eval (P := W) (Q := X (0 : Fin 1) ^ l) (g := fun _ => Q ⟨1, by omega⟩) (fun _ => h1 _) (by
      rw [totalDegree_X_pow, Fintype.card_fin]
      exact h)
    simpa only [map_pow, eval_X] using h3

end

/-! ## The hypotheses are met -/

/-- The sum of all digests of `hash_2` over the two message words, and that of their `2^93`-th powers, is zero for every domain separator. -/
example (ds : Fq) : ∃ d : Fq → Fq → Fq, (∀ v w, hash2 ds (v, w) = .ok (d v w)) ∧ ∑ u : Fin 2 → Fq, d (u 0) (u 1) = 0 ∧
    ∑ u : Fin 2 → Fq, d (u 0) (u 1) ^ 2 ^ 93 = 0 := by
  obtain ⟨d, h1, h2⟩ := C102_hash_2.1
  have h3 := h2 2 1 ![C ds, X 0, X 1] (by
    intro a
    fin_cases a
    · exact (totalDegree_C ds).le.trans (Nat.zero_le 1)
    · exact (totalDegree_X (0 : Fin 2)).le
    · exact (totalDegree_X (1 : Fin 2)).le) 1
  have hv : ∀ u : Fin 2 → Fq, (fun a => eval u ((![C ds, X 0, X 1] : Fin 3 → MvPolynomial (Fin 2) Fq) a)) = ![ds, u 0, u 1] := by
    intro u
    funext a
    fin_cases a
    · exact eval_C ds
    · exact eval_X 0
    · exact eval_X 1
  simp only [hv, map_one, one_mul, totalDegree_one, zero_add] at h3
  refine ⟨fun v w => d ![ds, v, w], fun v w => h1 ![ds, v, w], ?_, h3 _ (by decide +kernel)⟩
  simpa only [pow_one] using h3 1 (by decide +kernel)

/-- `digest^2 = v w` is a relation: it holds for at most `(2 + 2 * 17^39) q` of the `q^2` pairs of message words of `hash_2`. -/
example (ds : Fq) : ((Finset.univ : Finset (Fin 2 → Fq)).filter fun u => ∃ y, hash2 ds (u 0, u 1) = .ok y ∧ y ^ 2 - u 0 * u 1 = 0).card * q ≤
    (2 + 2 * 17 ^ 39) * q ^ 2 := by
  obtain ⟨d, h1, h2⟩ := C102_hash_2.2
  have hp : Function.Injective (Fin.succ : Fin 2 → Fin 3) := Fin.succ_injective 2
  have h3 := h2 2 Fin.succ (by norm_num) hp (fun _ => ds) (Polynomial.X ^ 2 - Polynomial.C (X 0 * X 1)) 2
    (Polynomial.X_pow_sub_C_ne_zero (by norm_num) _) (by
      intro j
      have hx : ((X 0 * X 1 : MvPolynomial (Fin 2) Fq)).totalDegree ≤ 2 :=
        (totalDegree_mul _ _).trans (by rw [totalDegree_X, totalDegree_X])
      rw [Polynomial.coeff_sub, Polynomial.coeff_X_pow, Polynomial.coeff_C]
      refine (totalDegree_sub _ _).trans (max_le ?_ ?_)
      · split_ifs <;> simp
      · split_ifs
        · exact hx
        · simp)
    (by decide +kernel) Finset.univ
  have hn : (Polynomial.X ^ 2 - Polynomial.C (X 0 * X 1 : MvPolynomial (Fin 2) Fq)).natDegree = 2 := Polynomial.natDegree_X_pow_sub_C
  have hc : (Finset.univ : Finset Fq).card = q := Finset.card_univ.trans card_Fq
  simp only [hn, hc] at h3
  refine le_trans (le_of_eq (congrArg (fun s : Finset (Fin 2 → Fq) => s.card * q) ?_)) h3
  ext u
  have he : Function.extend (Fin.succ : Fin 2 → Fin 3) u (fun _ => ds) = ![ds, u 0, u 1] := by
    funext a
    fin_cases a
    · exact Function.extend_apply' _ _ _ (fun ⟨l, hl⟩ => Fin.succ_ne_zero l hl)
    · exact hp.extend_apply u _ 0
    · exact hp.extend_apply u _ 1
  rw [Finset.mem_filter, Finset.mem_filter, he]
  simp only [Finset.mem_univ, true_and, Fintype.mem_piFinset, implies_true]
  have h4 : hash2 ds (u 0, u 1) = .ok (d ![ds, u 0, u 1]) := h1 ![ds, u 0, u 1]
  rw [h4]
  simp only [Except.ok.injEq, exists_eq_left', Polynomial.map_sub, Polynomial.map_pow, Polynomial.map_X, Polynomial.map_mul, Polynomial.map_C, Polynomial.eval_sub, Polynomial.eval_mul,
    Polynomial.eval_pow, Polynomial.eval_X, Polynomial.eval_C, map_mul, eval_X]

end Poseidon
