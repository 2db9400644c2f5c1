import Verif.Proofs.Groth16Preimage
import Mathlib.FieldTheory.Finite.Basic

/-!
# Property C87: the tests of the proof system

`poseidon-tests` makes a key for the preimage circuit, proves with it and verifies (poseidon377_r1cs.rs:160-250).  `Model/Groth16.lean`
models key generation, prover and verifier.  Every statement is for all groups with a bilinear map, all secrets `w` of the key with
`gamma`, `delta` not zero, all randomness `r`, `s` of the prover, and every circuit `c₀` that the key was made with.

`d` is the evaluation domain: `size` roots of unity; 2465 or more are needed, the library takes 4096.  `g` is the generator of the
coset on which the prover divides.
-/

namespace Poseidon

open Poseidon.Groth16

variable {G1 G2 GT : Type} [AddCommGroup G1] [Module Fq G1] [AddCommGroup G2] [Module Fq G2] [AddCommGroup GT] [Module Fq GT]

/-- **C87, one key for all.** Key generation succeeds, and the key does not depend on the circuit it was made with. -/
theorem C87_setup (d : Domain Fq) (hd : d.Good) (hs : 2465 ≤ d.size) (g1 : G1) (g2 : G2) (w : Secrets Fq) (hw : w.Usable) :
    ∃ pk, ∀ c₀, setup d g1 g2 w c₀ = .ok pk := by
  obtain ⟨M, cons, hI, hM⟩ := the_matrices
  exact ⟨_, fun c₀ => setup_eq hI hM hd hs g1 g2 hw c₀⟩

/-- **C87, unusable secrets.** Key generation fails exactly when one of the secrets that it inverts is zero. -/
theorem C87_setup_fails (d : Domain Fq) (hd : d.Good) (hs : 2465 ≤ d.size) (g1 : G1) (g2 : G2) (w : Secrets Fq) (c₀ : R1cs.PreimageCircuit)
    (hw : ¬ w.Usable) : setup d g1 g2 w c₀ = .error .unwrapNone := by
  obtain ⟨M, cons, hI, hM⟩ := the_matrices
  obtain ⟨cs, M', h1, -⟩ := C85_preimage_matrices c₀ true
  obtain ⟨k1, k2, k3⟩ := hM c₀ true cs h1
  have hS := hI.shape hs
  unfold setup generateParameters
  rw [h1, ok_bind, k1, ok_bind, k2, k3, instanceMap_eq hd hS.a hS.b hS.c hS.lb hS.lc hS.fits w.tau, ok_bind]
  by_cases hγ : w.gamma = 0
  · rw [if_pos hγ]; rfl
  · rw [if_neg hγ, if_pos (by by_contra hδ; exact hw ⟨hγ, hδ⟩)]; rfl

/-- **C87, completeness.** A proof of a true claim is accepted: whatever the secrets of the key, the randomness of the prover, and
whether debug assertions are on. -/
theorem C87_complete [DecidableEq GT] (e : G1 →ₗ[Fq] G2 →ₗ[Fq] GT) (g1 : G1) (g2 : G2) (he : e g1 g2 ≠ 0) (d : Domain Fq) (hd : d.Good)
    (hs : 2465 ≤ d.size) (g : Fq) (hg : d.Coset g) (w : Secrets Fq) (hw : w.Usable) (c₀ c : R1cs.PreimageCircuit)
    (hc : PreimageRelation c.preimages c.hashOutputs) (debug : Bool) (r s : Fq) :
    ∃ pk p, setup d g1 g2 w c₀ = .ok pk ∧ prove debug d g pk r s c = .ok p ∧ verify e pk.vk c.hashOutputs.toList p = .ok true := by
  obtain ⟨M, cons, hI, hM⟩ := the_matrices
  obtain ⟨z, h1, h2, h3⟩ := prove_run e he hI hM hd hs hg c
  obtain ⟨p, h4, h5⟩ := (h3 debug (theKey d g1 g2 w M 8 2457) r s).2 (fun _ => hc) w hw rfl
  refine ⟨_, p, setup_eq hI hM hd hs g1 g2 hw c₀, h4, ?_⟩
  rw [h5 c.hashOutputs, rowsLeft_zero hd hg (hI.shape hs) (h1.2 hc), Polynomial.eval_zero, zero_add]
  have : publicLeft d M 8 w.alpha w.beta z (1 :: c.hashOutputs.toList) = 0 := by
    refine Finset.sum_eq_zero fun j hj => ?_
    rw [h2 j (Finset.mem_range.1 hj), sub_self, Polynomial.C_0, zero_mul]
  rw [this, Polynomial.eval_zero, decide_eq_true rfl]

/-- **C87, a false claim, debug assertions on** (as in `cargo test`): the prover panics. -/
theorem C87_debug (d : Domain Fq) (g : Fq) (pk : ProvingKey G1 G2) (r s : Fq) (c : R1cs.PreimageCircuit)
    (hc : ¬ PreimageRelation c.preimages c.hashOutputs) : prove true d g pk r s c = .error .assertFailed := by
  obtain ⟨M, cons, hI, hM⟩ := the_matrices
  obtain ⟨cs, h1, h2, h3, h4⟩ := prover_run c hM
  obtain ⟨k1, k2, k3⟩ := hM c false cs h1
  obtain ⟨b, b1, b2⟩ := isSatisfied_eq (hI.shape (d := ⟨2465, 1, 1⟩) le_rfl) (z := 1 :: c.hashOutputs.toList ++ cs.witnessAssignment)
    (by simp [h3])
  unfold prove
  rw [h1, ok_bind, k1, ok_bind, h2]
  dsimp only
  rw [b1, ok_bind]
  have : b = false := by
    cases b with
    | false => rfl
    | true => exact absurd (h4.1 (b2.1 rfl)) hc
  rw [this]
  rfl

/-- **C87, what a verdict means.** Run the prover of this library on any claim, true or false, and verify its proof against any public inputs
`y`.  Unless the claim is true and `y` are its hashes the proof is rejected, for all but `2 * size - 2` values of the secret point
`tau`; the exceptional values are fixed by the claim, `y`, `alpha` and `beta`. -/
theorem C87_rejects [DecidableEq GT] (e : G1 →ₗ[Fq] G2 →ₗ[Fq] GT) (g1 : G1) (g2 : G2) (he : e g1 g2 ≠ 0) (d : Domain Fq) (hd : d.Good)
    (hs : 2465 ≤ d.size) (g : Fq) (hg : d.Coset g) (alpha beta : Fq) (hβ : beta ≠ 0) (c : R1cs.PreimageCircuit) (y : Vector Fq 7)
    (hc : ¬ (PreimageRelation c.preimages c.hashOutputs ∧ y = c.hashOutputs)) :
    ∃ bad : Finset Fq, bad.card ≤ 2 * d.size - 2 ∧
      ∀ w : Secrets Fq, w.Usable → w.alpha = alpha → w.beta = beta → w.tau ∉ bad → ∀ (c₀ : R1cs.PreimageCircuit) (r s : Fq),
        ∃ pk p, setup d g1 g2 w c₀ = .ok pk ∧ prove false d g pk r s c = .ok p ∧ verify e pk.vk y.toList p = .ok false := by
  obtain ⟨M, cons, hI, hM⟩ := the_matrices
  obtain ⟨z, h1, h2, h3⟩ := prove_run e he hI hM hd hs hg c
  have hS := hI.shape hs
  obtain ⟨la, -, -⟩ := hI.lengths
  have hne : rowsLeft d g M 8 z + publicLeft d M 8 alpha beta z (1 :: y.toList) ≠ 0 := by
    intro h0
    by_cases hy : y = c.hashOutputs
    · have hp : publicLeft d M 8 alpha beta z (1 :: y.toList) = 0 := by
        refine Finset.sum_eq_zero fun j hj => ?_
        rw [h2 j (Finset.mem_range.1 hj), hy, sub_self, Polynomial.C_0, zero_mul]
      rw [hp, add_zero] at h0
      refine hc ⟨h1.1 ((satisfied_iff hS _).2 fun m hm => ?_), hy⟩
      have := rowsLeft_at hd g hS z (m := m) (by omega)
      rw [h0, Polynomial.eval_zero, dif_pos hm] at this
      exact sub_eq_zero.1 this.symm
    · refine hy (Vector.ext fun i hi => ?_)
      have hd4 : M.a.length + (i + 1) < d.size := by omega
      have := congrArg (Polynomial.eval (d.gen ^ (M.a.length + (i + 1)))) h0
      rw [Polynomial.eval_add, rowsLeft_at hd g hS z hd4, dif_neg (by omega), zero_add, publicLeft_at hd hS _ _ _ _ (by omega),
        Polynomial.eval_zero, h2 _ (by omega)] at this
      have := sub_eq_zero.1 ((mul_eq_zero.1 this).resolve_right hβ)
      simpa [hi] using this.symm
  obtain ⟨bad, b1, b2⟩ := few_roots hne (n := 2 * d.size - 2) ((Polynomial.natDegree_add_le _ _).trans (max_le
    (rowsLeft_natDegree hd g M 8 z (by omega)) ((natDegree_le_of hd.pos (lt_of_sub (publicLeft_mem _ _ _ _ _ _ _))).trans (by omega))))
  refine ⟨bad, b1, fun w hw hα hβ' hτ c₀ r s => ?_⟩
  obtain ⟨p, h4, h5⟩ := (h3 false (theKey d g1 g2 w M 8 2457) r s).2 (fun h => by cases h) w hw rfl
  refine ⟨_, p, setup_eq hI hM hd hs g1 g2 hw c₀, h4, ?_⟩
  rw [h5 y, hα, hβ', ← Polynomial.eval_add, decide_eq_false (b2 _ hτ)]

/-- **C87, other public inputs.** A proof of a true claim is rejected with any other public inputs, for all but `size - 1` values of
`tau`; the exceptional values are fixed by the two lists of public inputs. -/
theorem C87_other_inputs [DecidableEq GT] (e : G1 →ₗ[Fq] G2 →ₗ[Fq] GT) (g1 : G1) (g2 : G2) (he : e g1 g2 ≠ 0) (d : Domain Fq) (hd : d.Good)
    (hs : 2465 ≤ d.size) (y y' : Vector Fq 7) (hy : y' ≠ y) :
    ∃ bad : Finset Fq, bad.card ≤ d.size - 1 ∧
      ∀ w : Secrets Fq, w.Usable → w.beta ≠ 0 → w.tau ∉ bad → ∀ (g : Fq), d.Coset g → ∀ (c₀ c : R1cs.PreimageCircuit) (debug : Bool) (r s : Fq),
        c.hashOutputs = y → PreimageRelation c.preimages c.hashOutputs →
        ∃ pk p, setup d g1 g2 w c₀ = .ok pk ∧ prove debug d g pk r s c = .ok p ∧ verify e pk.vk y'.toList p = .ok false := by
  obtain ⟨M, cons, hI, hM⟩ := the_matrices
  have hS := hI.shape hs
  obtain ⟨la, -, -⟩ := hI.lengths
  have hne : publicLeft d M 8 0 1 (1 :: y.toList) (1 :: y'.toList) ≠ 0 := by
    intro h0
    refine hy (Vector.ext fun i hi => ?_)
    have := congrArg (Polynomial.eval (d.gen ^ (M.a.length + (i + 1)))) h0
    rw [publicLeft_at hd hS _ _ _ _ (by omega), Polynomial.eval_zero, mul_one] at this
    have := sub_eq_zero.1 this
    simpa [hi] using this.symm
  obtain ⟨bad, b1, b2⟩ := few_roots hne (natDegree_le_of hd.pos (lt_of_sub (publicLeft_mem _ _ _ _ _ _ _)))
  refine ⟨bad, b1, fun w hw hβ hτ g hg c₀ c debug r s hcy hc => ?_⟩
  obtain ⟨z, h1, h2, h3⟩ := prove_run e he hI hM hd hs hg c
  obtain ⟨p, h4, h5⟩ := (h3 debug (theKey d g1 g2 w M 8 2457) r s).2 (fun _ => hc) w hw rfl
  refine ⟨_, p, setup_eq hI hM hd hs g1 g2 hw c₀, h4, ?_⟩
  rw [h5 y', rowsLeft_zero hd hg hS (h1.2 hc), Polynomial.eval_zero, zero_add]
  have key : (publicLeft d M 8 w.alpha w.beta z (1 :: y'.toList)).eval w.tau =
      w.beta * (publicLeft d M 8 0 1 (1 :: y.toList) (1 :: y'.toList)).eval w.tau := by
    unfold publicLeft
    rw [Polynomial.eval_finsetSum, Polynomial.eval_finsetSum, Finset.mul_sum]
    refine Finset.sum_congr rfl fun j hj => ?_
    have hj := Finset.mem_range.1 hj
    rw [h2 j hj, hcy]
    by_cases h0 : j = 0
    · subst h0
      simp
    · obtain ⟨p1, p2⟩ := hI.public d (Nat.pos_of_ne_zero h0) hj
      rw [p1, p2]
      simp only [Polynomial.eval_mul, Polynomial.eval_add, Polynomial.eval_C, Polynomial.eval_zero]
      ring
  rw [key, decide_eq_false (mul_ne_zero hβ (b2 _ hτ))]

/-- **C87, number of public inputs.** The verifier returns an error unless there are seven. -/
theorem C87_arity [DecidableEq GT] (e : G1 →ₗ[Fq] G2 →ₗ[Fq] GT) (g1 : G1) (g2 : G2) (d : Domain Fq) (hd : d.Good) (hs : 2465 ≤ d.size)
    (w : Secrets Fq) (hw : w.Usable) (c₀ : R1cs.PreimageCircuit) (p : Groth16.Proof G1 G2) (y : List Fq) :
    ∃ pk, setup d g1 g2 w c₀ = .ok pk ∧ ((∃ b, verify e pk.vk y p = .ok b) ↔ y.length = 7) ∧
      (y.length ≠ 7 → verify e pk.vk y p = .error .unwrapNone) := by
  obtain ⟨M, cons, hI, hM⟩ := the_matrices
  have hl : (theKey d g1 g2 w M 8 2457).vk.gammaAbcG1.length = 8 := by simp [theKey, keyOf]
  have hf : y.length ≠ 7 → verify e (theKey d g1 g2 w M 8 2457).vk y p = .error .unwrapNone := by
    intro h
    unfold verify prepareInputs
    rw [hl, if_pos (by omega)]
    rfl
  refine ⟨_, setup_eq hI hM hd hs g1 g2 hw c₀, ⟨?_, fun h => ?_⟩, hf⟩
  · rintro ⟨b, hb⟩
    by_contra h
    rw [hf h] at hb
    cases hb
  · unfold verify prepareInputs
    rw [hl, if_neg (by omega), lget_lt _ (by omega)]
    exact ⟨_, rfl⟩

/-- The claims of the tests are true. -/
theorem testOutputs_relation (v : Vector Fq 7) : ∃ y, testOutputs v = .ok y ∧ PreimageRelation v y := by
  obtain ⟨y0, h0⟩ := C03_hash_1_total R1cs.testDomainSep v[0]
  obtain ⟨y1, h1⟩ := C03_hash_2_total R1cs.testDomainSep (v[0], v[1])
  obtain ⟨y2, h2⟩ := C03_hash_3_total R1cs.testDomainSep (v[0], v[1], v[2])
  obtain ⟨y3, h3⟩ := C03_hash_4_total R1cs.testDomainSep (v[0], v[1], v[2], v[3])
  obtain ⟨y4, h4⟩ := C03_hash_5_total R1cs.testDomainSep (v[0], v[1], v[2], v[3], v[4])
  obtain ⟨y5, h5⟩ := C03_hash_6_total R1cs.testDomainSep (v[0], v[1], v[2], v[3], v[4], v[5])
  obtain ⟨y6, h6⟩ := C03_hash_7_total R1cs.testDomainSep (v[0], v[1], v[2], v[3], v[4], v[5], v[6])
  refine ⟨#v[y0, y1, y2, y3, y4, y5, y6], ?_, h0, h1, h2, h3, h4, h5, h6⟩
  unfold testOutputs
  rw [h0, ok_bind, h1, ok_bind, h2, ok_bind, h3, ok_bind, h4, ok_bind, h5, ok_bind, h6, ok_bind]
  rfl

/-- **C87, the happy path.** The test passes for every preimage and every key that the generator can make. -/
theorem C87_happy_path [DecidableEq GT] (e : G1 →ₗ[Fq] G2 →ₗ[Fq] GT) (g1 : G1) (g2 : G2) (he : e g1 g2 ≠ 0) (d : Domain Fq) (hd : d.Good)
    (hs : 2465 ≤ d.size) (g : Fq) (hg : d.Coset g) (w : Secrets Fq) (hw : w.Usable) (c₀ : R1cs.PreimageCircuit) (v : Vector Fq 7)
    (debug : Bool) (r s : Fq) :
    ∃ pk, setup d g1 g2 w c₀ = .ok pk ∧ happyPath debug e d g pk pk.vk r s v = .ok () := by
  obtain ⟨y, h1, h2⟩ := testOutputs_relation v
  obtain ⟨pk, p, h3, h4, h5⟩ := C87_complete e g1 g2 he d hd hs g hg w hw c₀ ⟨v, y⟩ h2 debug r s
  refine ⟨pk, h3, ?_⟩
  unfold happyPath
  rw [h1, ok_bind, h4, ok_bind]
  dsimp only at h5
  rw [h5, ok_bind]
  rfl

/-- **C87, the unhappy path.** The test passes for every preimage and every key that the generator can make, unless the secret point
of the key is one of `size - 1` values that are fixed by the preimage. -/
theorem C87_unhappy_path [DecidableEq GT] (e : G1 →ₗ[Fq] G2 →ₗ[Fq] GT) (g1 : G1) (g2 : G2) (he : e g1 g2 ≠ 0) (d : Domain Fq) (hd : d.Good)
    (hs : 2465 ≤ d.size) (v : Vector Fq 7) :
    ∃ bad : Finset Fq, bad.card ≤ d.size - 1 ∧
      ∀ w : Secrets Fq, w.Usable → w.beta ≠ 0 → w.tau ∉ bad → ∀ (g : Fq), d.Coset g → ∀ (c₀ : R1cs.PreimageCircuit) (debug : Bool) (r s : Fq),
        ∃ pk, setup d g1 g2 w c₀ = .ok pk ∧ unhappyPath debug e d g pk pk.vk r s v = .ok () := by
  obtain ⟨y, h1, h2⟩ := testOutputs_relation v
  obtain ⟨bad, b1, b2⟩ := C87_other_inputs e g1 g2 he d hd hs y (Vector.replicate 7 (y[0] + 1)) (fun h => by
    have := congrArg (fun v : Vector Fq 7 => v[0]) h
    simp at this)
  refine ⟨bad, b1, fun w hw hβ hτ g hg c₀ debug r s => ?_⟩
  obtain ⟨pk, p, h3, h4, h5⟩ := b2 w hw hβ hτ g hg c₀ ⟨v, y⟩ debug r s rfl h2
  refine ⟨pk, h3, ?_⟩
  unfold unhappyPath
  rw [h1, ok_bind, h4, ok_bind, h5, ok_bind]
  rfl

/-! ### The hypotheses are met -/

/-- The domain of the library for this circuit: 4096 roots of unity. -/
def domain4096 : Domain Fq := ⟨4096, (7010854306464939002932811365735081035812768059550215077065386543336384326022 : Nat), 1⟩

theorem primitive4096 {x : Fq} (h : x ^ 2048 = -1) : IsPrimitiveRoot x 4096 := by
  have h2 : orderOf x = 2 ^ (11 + 1) := by
    refine orderOf_eq_prime_pow ?_ ?_
    · rw [show 2 ^ 11 = 2048 by norm_num, h]
      decide +kernel
    · rw [show 2 ^ (11 + 1) = 2048 * 2 by norm_num, pow_mul, h]
      ring
  rw [show 4096 = 2 ^ (11 + 1) by norm_num, ← h2]
  exact IsPrimitiveRoot.orderOf x

theorem pow_eq_neg_one {x n : Nat} (h : (x ^ n + 1) % q = 0) : (x : Fq) ^ n = -1 := by
  have : ((x ^ n + 1 : Nat) : Fq) = 0 := by
    rw [ZMod.natCast_eq_zero_iff]
    exact Nat.dvd_of_mod_eq_zero h
  rw [Nat.cast_add, Nat.cast_pow, Nat.cast_one] at this
  exact eq_neg_of_add_eq_zero_left this

theorem pow_ne_one {x n : Nat} (h : x ^ n % q ≠ 1 % q) : (x : Fq) ^ n ≠ 1 := by
  intro e
  have : ((x ^ n : Nat) : Fq) = ((1 : Nat) : Fq) := by rw [Nat.cast_pow, Nat.cast_one, e]
  rw [ZMod.natCast_eq_natCast_iff'] at this
  exact h this

theorem domain4096_good : domain4096.Good := by
  refine ⟨?_, ?_, rfl⟩
  · have h := primitive4096 (pow_eq_neg_one (x := 7010854306464939002932811365735081035812768059550215077065386543336384326022) (n := 2048)
      (by decide +kernel))
    exact h
  · show ((4096 : Nat) : Fq) ≠ 0
    decide +kernel

/-- `GENERATOR` of the scalar field of BLS12-377 is 22. -/
theorem coset22 : domain4096.Coset (22 : Nat) := by
  refine ⟨by decide +kernel, ?_⟩
  have h : ((22 : Nat) : Fq) ^ 4096 ≠ 1 := pow_ne_one (by decide +kernel)
  exact h

/-- The whole test, with the field itself for the groups: secrets (3, 5, 7, 11, 13), preimages (1, …, 7). -/
example : ∃ pk, setup domain4096 (1 : Fq) (1 : Fq) ⟨3, 5, 7, 11, 13⟩ ⟨Vector.replicate 7 2, Vector.replicate 7 2⟩ = .ok pk ∧
    happyPath true (LinearMap.mul Fq Fq) domain4096 (22 : Nat) pk pk.vk 17 19 #v[1, 2, 3, 4, 5, 6, 7] = .ok () :=
  C87_happy_path (LinearMap.mul Fq Fq) 1 1 (by simp) domain4096 domain4096_good (by decide) _ coset22 ⟨3, 5, 7, 11, 13⟩
    ⟨by decide +kernel, by decide +kernel⟩ _ _ _ _ _

/-- The exceptional values are few: almost all values of `tau` meet the hypotheses of `C87_rejects` and `C87_other_inputs`. -/
example (bad : Finset Fq) (h : bad.card ≤ 2 * domain4096.size - 2) : ∃ w : Secrets Fq, w.Usable ∧ w.beta ≠ 0 ∧ w.tau ∉ bad := by
  have : bad.card < (Finset.univ : Finset Fq).card := by
    rw [Finset.card_univ, ZMod.card]
    exact h.trans_lt (by decide +kernel)
  obtain ⟨x, -, hx⟩ := Finset.exists_mem_notMem_of_card_lt_card this
  exact ⟨⟨1, 1, 1, 1, x⟩, ⟨one_ne_zero, one_ne_zero⟩, one_ne_zero, hx⟩

/-- A false claim. -/
example : ∃ c : R1cs.PreimageCircuit, ¬ PreimageRelation c.preimages c.hashOutputs := by
  obtain ⟨y, h1, h2⟩ := testOutputs_relation (Vector.replicate 7 0)
  refine ⟨⟨Vector.replicate 7 0, Vector.replicate 7 (y[0] + 1)⟩, fun h => ?_⟩
  have := h2.1.symm.trans h.1
  simp at this

end Poseidon
