import Verif.Proofs.GenArg

/-!
# The argument `p` of `v1::generate` (C77)

`v1::generate::<F, ..>(M, t, p, allow_inverse)` takes `p` from the caller and does not compare it with the modulus of
`F`.  In this file `m` is the modulus of `F` and `p` is the argument.
-/

set_option linter.unusedSectionVars false

namespace Poseidon

open scoped Matrix

variable {F : Type} [Field F] [DecidableEq F] {k rows nmds nhat nround npart : Nat}

/-- **C77, agreement.** For a caller who passes the modulus of the field, this is the generator of C20, C50 and C51. -/
theorem C77_own_modulus (L : Libm) (debug : Bool) (nlimbs k nmds nhat rows nround npart security m : Nat) (allow : Bool) :
    v1GenerateArg L debug F m nlimbs k nmds nhat rows nround npart security m allow =
      v1Generate L debug F nlimbs k nmds nhat rows nround npart security m allow := by
  rw [v1GenerateArg, v1Generate, alphaGenerateArg, alphaGenerate, alphaLoopArg_same]
  rfl

/-- **C77, no check.** Over a field whose modulus `m` has at least 128 bits, whether `v1::generate` returns does not
depend on `m` at all: it returns exactly when the security level is at most 256, the width is 2 to 8, the *argument*
`p` has at least 128 bits, and the inverse S-box is allowed or some short exponent is coprime to `p - 1`.  `p` need
not be a prime. -/
theorem C77_not_checked (L : Libm) (hL : L.Accurate) (hl2 : L.log2 2 = 1) (debug : Bool) (nlimbs : Nat)
    (hn : nlimbs < 2 ^ 28) (m : Nat) [CharP F m] (hmb : 2 ^ 127 ≤ m) (hmb' : numBits m < 2 ^ 32) (p : Nat)
    (security : Nat) (allow : Bool) (hm : nmds = (k + 1) * (k + 1)) (hh : nhat = k * k) :
    (∃ rows npart P, v1GenerateArg L debug F m nlimbs k nmds nhat rows (rows * (k + 1)) npart security p allow = .ok P) ↔
      security ≤ 256 ∧ (2 ≤ k + 1 ∧ k + 1 ≤ 8) ∧ 2 ^ 127 ≤ p ∧ (allow = true ∨ ¬ NoSmallExponent p) := by
  have toBits : ∀ x, 2 ^ 127 ≤ x → 128 ≤ numBits x := by
    intro x hx
    rw [numBits, if_neg (by omega)]
    have := (Nat.le_log2 (by omega)).2 hx
    omega
  constructor
  · rintro ⟨rows, npart, P, h⟩
    obtain ⟨r, hs⟩ := v1GenerateArg_result hL hl2 debug hn (toBits m hmb) hmb' hm hh rfl h
    have hp := numBits_ge r.bits
    refine ⟨hs ▸ r.security_le, r.width, hp, ?_⟩
    by_contra hc
    push Not at hc
    have h1 := r.alpha
    rw [alphaGenerateArg_eq (by omega) (by omega), (find_none_iff p).2 hc.2] at h1
    cases allow
    · cases h1
    · exact hc.1 rfl
  · rintro ⟨h1, ⟨h2, h3⟩, h4, h5⟩
    have hα := alphaGenerateArg_eq (m := m) (p := p) (by omega) (by omega) allow
    obtain ⟨alpha, hα'⟩ : ∃ alpha, alphaGenerateArg m p allow = .ok alpha := by
      cases hf : depthsInOrder.find? (qualifies p) with
      | some a => rw [hf] at hα; exact ⟨_, hα⟩
      | none =>
        rw [hf] at hα
        rcases h5 with h5 | h5
        · subst h5; exact ⟨_, hα⟩
        · exact absurd ((find_none_iff p).1 hf) h5
    obtain ⟨rP, rF, h6, -, h8⟩ := C49_full_rounds L hL hl2 ⟨allow, security, k + 1, p⟩ (log2Big L p) alpha h1 h2 h3
      (by rintro e rfl; exact alphaGenerateArg_range (by omega) (by omega) hα')
    obtain ⟨P, hP, -⟩ := v1GenerateArg_ok (F := F) debug hn (toBits m hmb) hmb' hm hh hα' h6 h8 h2 h3 (toBits p h4)
    exact ⟨_, _, P, hP⟩

/-- **C77, what survives.** Whatever `p` the caller passed, the parameters returned are consistent: the optimized
and the unoptimized hash agree on every input, and they are the textbook Poseidon hash over `F` with the Cauchy matrix
and the S-box, round numbers and constants returned. -/
theorem C77_still_poseidon (L : Libm) (hL : L.Accurate) (hl2 : L.log2 2 = 1) (debug : Bool) (nlimbs : Nat)
    (hn : nlimbs < 2 ^ 28) (m : Nat) [CharP F m] (hmb : 128 ≤ numBits m) (hmb' : numBits m < 2 ^ 32) (p : Nat)
    (security : Nat) (allow : Bool)
    (hm : nmds = (k + 1) * (k + 1)) (hh : nhat = k * k) (ha : nround = rows * (k + 1))
    (P : Params F (k + 1) k nmds nhat rows (k + 1) nround npart)
    (h : v1GenerateArg L debug F m nlimbs k nmds nhat rows nround npart security p allow = .ok P) :
    (∀ s input : Vector F (k + 1),
      Instance.nTo1FixedHash ⟨P, s⟩ input = Instance.unoptimizedNTo1FixedHash ⟨P, s⟩ input) ∧
    ∃ C : Fin (P.rounds.rF / 2 + P.rounds.rP + P.rounds.rF / 2) → Fin (k + 1) → F,
      (∀ r (hr : r < rows) hr' j, C ⟨r, hr'⟩ j = P.arc.toM ha ⟨r, hr⟩ j) ∧
      ∀ (s : Vector F (k + 1)) (x : Fin (k + 1) → F),
        match textbook P.alpha (cauchyMds F (k + 1)) (P.rounds.rF / 2) P.rounds.rP C x with
        | none => Instance.nTo1FixedHash ⟨P, s⟩ (Vector.ofFn x) = .error .divZero
        | some y => ∃ i1 : Fin (k + 1), i1.val = 1 ∧
            Instance.nTo1FixedHash ⟨P, s⟩ (Vector.ofFn x) = .ok (y i1, ⟨P, Vector.ofFn y⟩) := by
  obtain ⟨r, -⟩ := v1GenerateArg_result hL hl2 debug hn hmb hmb' hm hh ha h
  have hw := r.width
  refine ⟨fun s input => hash_agree P s input (permute_agree P hm ha r.consistent input),
    fun r' => P.arc.toM ha ⟨r'.val, lt_of_lt_of_le r'.isLt r.consistent.rows_le⟩, fun _ _ _ _ => rfl, ?_⟩
  intro s x
  have hN := nTo1FixedHash_eq P hm ha r.consistent (by omega) s x
  rw [r.mds] at hN
  generalize textbook P.alpha _ _ _ _ x = o at hN
  cases o with
  | none => exact hN
  | some y =>
    refine ⟨⟨1, by omega⟩, rfl, hN.trans ?_⟩
    show Except.ok _ = _
    dsimp only
    rw [Vector.getElem_ofFn]

/-- **C77, the S-box.** The exponent returned is the one the generator returns for a field of `p` elements: it is
coprime to `p - 1`, and it does not depend on the field `F` at hand. -/
theorem C77_exponent (m p : Nat) (hm : 129 ≤ m) (hp : 1 ≤ p) (allow : Bool) :
    (∀ m', 129 ≤ m' → alphaGenerateArg m' p allow = alphaGenerateArg m p allow) ∧
    ∀ e, alphaGenerateArg m p allow = .ok (.exponent e) → Nat.Coprime e (p - 1) := by
  refine ⟨fun m' hm' => by rw [alphaGenerateArg_eq hm hp, alphaGenerateArg_eq hm' hp], fun e he => ?_⟩
  rw [alphaGenerateArg_eq hm hp] at he
  cases hf : depthsInOrder.find? (qualifies p) with
  | none => rw [hf] at he; cases allow <;> cases he
  | some a =>
    rw [hf] at he
    cases he
    have := List.find?_some hf
    rw [qualifies, Bool.and_eq_true] at this
    simpa using this.2

/-- **C77, what is lost.** Let the exponent returned, which is coprime to `p - 1`, have a factor in common with
`m - 1`.  Then the hash is not a permutation of the state: every input except the negated first row of constants has
a second preimage, a different input with the same digest and the same output words. -/
theorem C77_collisions (L : Libm) (hL : L.Accurate) (hl2 : L.log2 2 = 1) (debug : Bool) (nlimbs : Nat)
    (hn : nlimbs < 2 ^ 28) (m : Nat) (hmp : m.Prime) [Fintype F] (hF : Fintype.card F = m)
    (hmb : 128 ≤ numBits m) (hmb' : numBits m < 2 ^ 32) (p : Nat)
    (security : Nat) (allow : Bool)
    (hm : nmds = (k + 1) * (k + 1)) (hh : nhat = k * k) (ha : nround = rows * (k + 1))
    (P : Params F (k + 1) k nmds nhat rows (k + 1) nround npart)
    (h : v1GenerateArg L debug F m nlimbs k nmds nhat rows nround npart security p allow = .ok P)
    (e : Nat) (he : P.alpha = .exponent e) (hc : ¬ Nat.Coprime e (m - 1)) (h0 : 0 < rows)
    (x : Fin (k + 1) → F) (hx : ∃ i, x i ≠ - P.arc.toM ha ⟨0, h0⟩ i) :
    ∃ y, y ≠ x ∧ ∀ s, ∃ d out, Instance.nTo1FixedHash ⟨P, s⟩ (Vector.ofFn x) = .ok (d, out) ∧
      Instance.nTo1FixedHash ⟨P, s⟩ (Vector.ofFn y) = .ok (d, out) := by
  have : Fact m.Prime := ⟨hmp⟩
  have : CharP F m := charP_of_card_eq_prime hF
  obtain ⟨r, -⟩ := v1GenerateArg_result hL hl2 debug hn hmb hmb' hm hh ha h
  obtain ⟨-, C, hC0, hC⟩ := C77_still_poseidon L hL hl2 debug nlimbs hn m hmb hmb' p security allow hm hh ha P h
  obtain ⟨z, hz, hze⟩ := exists_root (F := F) (e := e) (by rw [hF]; exact hc)
  obtain ⟨i, hi⟩ := hx
  have hrF := r.full
  obtain ⟨y, hy, hperm⟩ := permE_collision (e := e) (cauchyMds F (k + 1)) (rf := P.rounds.rF / 2) (rp := P.rounds.rP)
    (by omega) C hz hze x i (by
      rw [hC0 0 h0]
      intro h
      exact hi (eq_neg_of_add_eq_zero_left h))
  refine ⟨y, hy, fun s => ?_⟩
  have h1 := hC s x
  have h2 := hC s y
  rw [he, textbook_exponent] at h1 h2
  rw [hperm] at h2
  obtain ⟨i1, hi1, h1⟩ := h1
  obtain ⟨i2, hi2, h2⟩ := h2
  obtain rfl : i1 = i2 := Fin.ext (hi1.trans hi2.symm)
  exact ⟨_, _, h1, h2⟩

/-- **C77, criterion.** With an exponent S-box, the map from the input words to the output words is a bijection
exactly when the exponent returned is coprime to `m - 1`, the order of the unit group of the field itself. -/
theorem C77_bijective_iff (L : Libm) (hL : L.Accurate) (hl2 : L.log2 2 = 1) (debug : Bool) (nlimbs : Nat)
    (hn : nlimbs < 2 ^ 28) (m : Nat) (hmp : m.Prime) [Fintype F] (hF : Fintype.card F = m)
    (hmb : 128 ≤ numBits m) (hmb' : numBits m < 2 ^ 32) (p : Nat)
    (security : Nat) (allow : Bool)
    (hm : nmds = (k + 1) * (k + 1)) (hh : nhat = k * k) (ha : nround = rows * (k + 1))
    (P : Params F (k + 1) k nmds nhat rows (k + 1) nround npart)
    (h : v1GenerateArg L debug F m nlimbs k nmds nhat rows nround npart security p allow = .ok P)
    (e : Nat) (he : P.alpha = .exponent e) :
    ∃ f : (Fin (k + 1) → F) → (Fin (k + 1) → F),
      (∀ (s : Vector F (k + 1)) (x : Fin (k + 1) → F), ∃ d inst',
        Instance.nTo1FixedHash ⟨P, s⟩ (Vector.ofFn x) = .ok (d, inst') ∧ inst'.outputWords = Vector.ofFn (f x)) ∧
      (Function.Bijective f ↔ Nat.Coprime e (m - 1)) := by
  have : Fact m.Prime := ⟨hmp⟩
  have : CharP F m := charP_of_card_eq_prime hF
  have hm127 := numBits_ge hmb
  obtain ⟨r, -⟩ := v1GenerateArg_result hL hl2 debug hn hmb hmb' hm hh ha h
  have hp127 := numBits_ge r.bits
  have he3 := alphaGenerateArg_range (m := m) (p := p) (by omega) (by omega) (he ▸ r.alpha)
  obtain ⟨-, C, hC0, hC⟩ := C77_still_poseidon L hL hl2 debug nlimbs hn m hmb hmb' p security allow hm hh ha P h
  refine ⟨permE e (cauchyMds F (k + 1)) _ _ C, fun s x => ?_, ?_, ?_⟩
  · have h1 := hC s x
    rw [he, textbook_exponent] at h1
    obtain ⟨i1, -, h1⟩ := h1
    exact ⟨_, _, h1, rfl⟩
  · intro hb
    by_contra hc
    obtain ⟨z, hz, hze⟩ := exists_root (F := F) (e := e) (by rw [hF]; exact hc)
    have hrF := r.full
    obtain ⟨y, hy, hperm⟩ := permE_collision (e := e) (cauchyMds F (k + 1)) (rf := P.rounds.rF / 2) (rp := P.rounds.rP)
      (by omega) C hz hze (fun i => 1 - C ⟨0, by omega⟩ i) 0 (by simp)
    exact hy (hb.1 hperm)
  · intro hc
    exact permE_bijective (N := P.optimizedMds.mInverse.toM hm)
      (by rw [← r.mds]; exact r.derivedMds.mInverse) (pow_bijective (by rw [hF]; exact hc) (by omega)) _ _ _

/-! ### The wrong modulus for `decaf377::Fq` -/

/-- The modulus of the base field of BN254, a `BigInt<4>` like the modulus of `decaf377::Fq`. -/
def bn254Modulus : Nat := 21888242871839275222246405745257275088696311157297823662689037894645226208583

/-- **C77, instance.** `v1::generate::<decaf377::Fq, ..>` called with the modulus of BN254's base field returns, for
every width from 2 to 8 and every security level up to 256, and the S-box is `x⁵`, although 5 divides `q - 1`.  Every
input of every such hash, except one, has a second preimage. -/
theorem C77_wrong_modulus (L : Libm) (hL : L.Accurate) (hl2 : L.log2 2 = 1) (debug allow : Bool) (security : Nat)
    (hs : security ≤ 256) (k : Nat) (hk : 2 ≤ k + 1) (hk' : k + 1 ≤ 8) :
    ∃ rows npart, ∃ P : Params Fq (k + 1) k ((k + 1) * (k + 1)) (k * k) rows (k + 1) (rows * (k + 1)) npart,
      v1GenerateArg L debug Fq q 4 k _ _ rows _ npart security bn254Modulus allow = .ok P ∧
      P.alpha = .exponent 5 ∧ ¬ Nat.Coprime 5 (q - 1) ∧
      ∃ c : Fin (k + 1) → Fq, ∀ x, x ≠ c → ∃ y, y ≠ x ∧ ∀ s, ∃ d out,
        Instance.nTo1FixedHash ⟨P, s⟩ (Vector.ofFn x) = .ok (d, out) ∧
        Instance.nTo1FixedHash ⟨P, s⟩ (Vector.ofFn y) = .ok (d, out) := by
  have hα : alphaGenerateArg q bn254Modulus allow = .ok (.exponent 5) := by cases allow <;> decide +kernel
  have hqb : 128 ≤ numBits q := by decide +kernel
  have hqb' : numBits q < 2 ^ 32 := by decide +kernel
  have hc : ¬ Nat.Coprime 5 (q - 1) := by decide +kernel
  obtain ⟨rP, rF, h6, h7, h8⟩ := C49_full_rounds L hL hl2 ⟨allow, security, k + 1, bn254Modulus⟩
    (log2Big L bn254Modulus) (.exponent 5) hs hk hk' (by rintro e he; cases he; norm_num)
  obtain ⟨P, hP, hPα, hPr⟩ := v1GenerateArg_ok (F := Fq) debug (m := q) (nlimbs := 4) (by norm_num) hqb hqb' rfl rfl hα
    h6 h8 hk hk' (by decide +kernel)
  refine ⟨_, _, P, hP, hPα, hc, ?_⟩
  have h0 : 0 < (⟨rP, rF⟩ : RoundNumbers).total := by
    show 0 < rP + rF
    omega
  refine ⟨fun i => - P.arc.toM rfl ⟨0, h0⟩ i, fun x hx => ?_⟩
  refine C77_collisions L hL hl2 debug 4 (by norm_num) q q_prime (ZMod.card q) hqb hqb' bn254Modulus security allow rfl rfl
    rfl P hP 5 hPα hc h0 x ?_
  by_contra hcon
  push Not at hcon
  exact hx (funext hcon)

/-- Non-vacuity: correctly rounded logarithms satisfy the hypotheses. -/
example : ∃ rows npart, ∃ P : Params Fq 3 2 9 4 rows 3 (rows * 3) npart,
    v1GenerateArg roundedLibm true Fq q 4 2 9 4 rows _ npart 128 bn254Modulus false = .ok P ∧ P.alpha = .exponent 5 := by
  have hl2 : roundedLibm.log2 2 = 1 := by
    show rne (Real.logb 2 2) = 1
    rw [Real.logb_self_eq_one (by norm_num)]
    simpa using rne_natCast (n := 1) (by norm_num)
  obtain ⟨rows, npart, P, h1, h2, -⟩ := C77_wrong_modulus roundedLibm roundedLibm_accurate hl2 true false 128
    (by norm_num) 2 (by norm_num) (by norm_num)
  exact ⟨rows, npart, P, h1, h2⟩

/-- Non-vacuity of `C77_own_modulus`: the shipped parameters. -/
example : v1GenerateArg roundedLibm true Fq q 4 2 9 4 39 117 31 128 q false = .ok (shippedParams 1) := by
  rw [C77_own_modulus]
  exact C20_shipped _ roundedLibm_accurate true false 1

end Poseidon
