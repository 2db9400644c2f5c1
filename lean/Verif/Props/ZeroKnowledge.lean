import Verif.Props.Groth16

/-!
# Property C88: what a proof reveals, and what it does not prevent

The prover of `poseidon-tests` (`Groth16::prove`, poseidon377_r1cs.rs:199) draws `r` and `s` at random.  Its proof of a true claim is the one
that `simulate` writes down from the public inputs and two random numbers, without the preimages.
-/

namespace Poseidon

open Poseidon.Groth16

variable {G1 G2 GT : Type} [AddCommGroup G1] [Module Fq G1] [AddCommGroup G2] [Module Fq G2] [AddCommGroup GT] [Module Fq GT]

/-- **C88, zero knowledge.** With `r` and `s` uniform, the proof of a true claim is distributed as `simulate` with `a` and `b` uniform:
for every key and claim there are bijections that turn one into the other. -/
theorem C88_zero_knowledge (g1 : G1) (g2 : G2) (d : Domain Fq) (hd : d.Good) (hs : 2465 ≤ d.size) (g : Fq) (hg : d.Coset g) (w : Secrets Fq)
    (hw : w.Usable) (c₀ c : R1cs.PreimageCircuit) (hc : PreimageRelation c.preimages c.hashOutputs) (debug : Bool) :
    ∃ pk, setup d g1 g2 w c₀ = .ok pk ∧ ∃ fa fb : Fq → Fq, Function.Bijective fa ∧ Function.Bijective fb ∧ ∀ r s,
      ∃ p, prove debug d g pk r s c = .ok p ∧ simulate g1 g2 w pk.vk c.hashOutputs.toList (fa r) (fb s) = .ok p := by
  obtain ⟨M, cons, hI, hM⟩ := the_matrices
  obtain ⟨aux, h1, h2, h3⟩ := prove_unfold (G1 := G1) (G2 := G2) hI hM c
  have hS := hI.shape hs
  have hbij : ∀ x y : Fq, Function.Bijective fun r : Fq => r * w.delta + x + y := fun x y =>
    Function.bijective_iff_has_inverse.2 ⟨fun a => (a - y - x) * w.delta⁻¹,
      fun r => by simp [hw.2], fun a => by simp [hw.2]⟩
  refine ⟨_, setup_eq hI hM hd hs g1 g2 hw c₀, fun r => r * w.delta + (rowPolyA d M.a 8 (1 :: c.hashOutputs.toList ++ aux)).eval w.tau + w.alpha,
    fun s => s * w.delta + (rowPoly d M.b (1 :: c.hashOutputs.toList ++ aux)).eval w.tau + w.beta, hbij _ _, hbij _ _, fun r s => ?_⟩
  obtain ⟨h, q1, k, q2, q3⟩ := prove_eq g1 g2 hd hg hS hw r s (x := c.hashOutputs.toList) (y := aux) (by simp) h1
  obtain ⟨SP, q4, q5⟩ := q3 c.hashOutputs.toList rfl
  refine ⟨_, by rw [(h3 debug d g _ r s).2 (fun _ => hc), q1, ok_bind, q2], ?_⟩
  have hp : publicLeft d M 8 w.alpha w.beta (1 :: c.hashOutputs.toList ++ aux) (1 :: c.hashOutputs.toList) = 0 := by
    refine Finset.sum_eq_zero fun j hj => ?_
    rw [List.getD_append _ _ _ _ (by simpa using Finset.mem_range.1 hj), sub_self, Polynomial.C_0, zero_mul]
  rw [rowsLeft_zero hd hg hS (h2.2 hc), hp, Polynomial.eval_zero, add_zero] at q5
  beta_reduce
  generalize r * w.delta + _ + w.alpha = a at q5 ⊢
  generalize s * w.delta + _ + w.beta = b at q5 ⊢
  have hk : w.delta⁻¹ • ((a * b - w.alpha * w.beta) • g1 - w.gamma • ((SP * w.gamma⁻¹) • g1)) = k • g1 := by
    rw [smul_smul, ← sub_smul, smul_smul, mul_comm w.gamma, mul_assoc, inv_mul_cancel₀ hw.1, mul_one,
      (inv_mul_eq_iff_eq_mul₀ hw.2 : _ ↔ _ = w.delta * k).2 (by linear_combination q5)]
  unfold simulate
  rw [q4, ok_bind, hk]
  rfl

/-- **C88, different preimages.** Two preimages of the same hashes give the same proofs, each for some randomness: the map between the
random choices is a bijection, so the proofs cannot tell which preimages were used. -/
theorem C88_indistinguishable (g1 : G1) (g2 : G2) (d : Domain Fq) (hd : d.Good) (hs : 2465 ≤ d.size) (g : Fq) (hg : d.Coset g) (w : Secrets Fq)
    (hw : w.Usable) (c₀ : R1cs.PreimageCircuit) (x x' y : Vector Fq 7) (hx : PreimageRelation x y) (hx' : PreimageRelation x' y) (debug : Bool) :
    ∃ pk, setup d g1 g2 w c₀ = .ok pk ∧ ∃ f : Fq × Fq → Fq × Fq, Function.Bijective f ∧ ∀ r s,
      ∃ p, prove debug d g pk r s ⟨x, y⟩ = .ok p ∧ prove debug d g pk (f (r, s)).1 (f (r, s)).2 ⟨x', y⟩ = .ok p := by
  obtain ⟨pk, h1, fa, fb, ha, hb, h2⟩ := C88_zero_knowledge g1 g2 d hd hs g hg w hw c₀ ⟨x, y⟩ hx debug
  obtain ⟨pk', h1', fa', fb', ha', hb', h2'⟩ := C88_zero_knowledge g1 g2 d hd hs g hg w hw c₀ ⟨x', y⟩ hx' debug
  rw [h1] at h1'
  cases h1'
  let ea := (Equiv.ofBijective fa ha).trans (Equiv.ofBijective fa' ha').symm
  let eb := (Equiv.ofBijective fb hb).trans (Equiv.ofBijective fb' hb').symm
  refine ⟨pk, h1, fun rs => (ea rs.1, eb rs.2), (Equiv.prodCongr ea eb).bijective, fun r s => ?_⟩
  obtain ⟨p, p1, p2⟩ := h2 r s
  obtain ⟨p', p1', p2'⟩ := h2' (ea r) (eb s)
  have e1 : fa' (ea r) = fa r := Equiv.apply_symm_apply (Equiv.ofBijective fa' ha') _
  have e2 : fb' (eb s) = fb s := Equiv.apply_symm_apply (Equiv.ofBijective fb' hb') _
  rw [e1, e2] at p2'
  rw [p2'] at p2
  cases p2
  exact ⟨p, p1, p1'⟩

/-- **C88, the secrets of the key.** Whoever knows them can prove every claim, true or false: a key must come from someone who
threw them away. -/
theorem C88_forge [DecidableEq GT] (e : G1 →ₗ[Fq] G2 →ₗ[Fq] GT) (g1 : G1) (g2 : G2) (d : Domain Fq) (hd : d.Good)
    (hs : 2465 ≤ d.size) (w : Secrets Fq) (hw : w.Usable) (c₀ : R1cs.PreimageCircuit) (y : Vector Fq 7) (a b : Fq) :
    ∃ pk p, setup d g1 g2 w c₀ = .ok pk ∧ simulate g1 g2 w pk.vk y.toList a b = .ok p ∧ verify e pk.vk y.toList p = .ok true := by
  obtain ⟨M, cons, hI, hM⟩ := the_matrices
  have hl : (theKey d g1 g2 w M 8 2457).vk.gammaAbcG1.length = 8 := by simp [theKey, keyOf]
  have hp : ∃ prep, prepareInputs (theKey d g1 g2 w M 8 2457).vk y.toList = .ok prep := by
    unfold prepareInputs
    rw [hl, if_neg (by simp), lget_lt _ (by omega)]
    exact ⟨_, rfl⟩
  obtain ⟨prep, hp⟩ := hp
  refine ⟨_, _, setup_eq hI hM hd hs g1 g2 hw c₀, by unfold simulate; rw [hp, ok_bind]; rfl, ?_⟩
  unfold verify
  rw [hp, ok_bind]
  show Except.ok _ = _
  congr 1
  rw [decide_eq_true_iff]
  show e (a • g1) (b • g2) + e prep (-(w.gamma • g2)) + e (w.delta⁻¹ • ((a * b - w.alpha * w.beta) • g1 - w.gamma • prep)) (-(w.delta • g2)) =
    e (w.alpha • g1) (w.beta • g2)
  simp only [map_neg, map_smul, map_sub, LinearMap.smul_apply, LinearMap.sub_apply, smul_sub, smul_smul]
  rw [mul_inv_cancel_left₀ hw.2, mul_inv_cancel_left₀ hw.2]
  module

/-- **C88, proofs can be changed.** From an accepted proof anyone makes other accepted proofs of the same claim, without secrets or
preimages: a proof does not identify who made it, and is not unique. -/
theorem C88_malleable [DecidableEq GT] (e : G1 →ₗ[Fq] G2 →ₗ[Fq] GT) (vk : VerifyingKey G1 G2) (y : List Fq) (p : Groth16.Proof G1 G2)
    (hp : verify e vk y p = .ok true) (x : Fq) (hx : x ≠ 0) : verify e vk y ⟨x • p.a, x⁻¹ • p.b, p.c⟩ = .ok true := by
  rw [← hp]
  unfold verify
  congr 1
  funext prepared
  dsimp only
  rw [map_smul, map_smul, LinearMap.smul_apply, smul_smul, inv_mul_cancel₀ hx, one_smul]

/-! ### The hypotheses are met -/

/-- A true claim, a key, and its proofs. -/
example (x : Vector Fq 7) (w : Secrets Fq) (hw : w.Usable) : ∃ y, PreimageRelation x y ∧ ∃ pk, setup domain4096 (1 : Fq) (1 : Fq) w ⟨x, y⟩ = .ok pk ∧
    ∃ fa fb : Fq → Fq, Function.Bijective fa ∧ Function.Bijective fb ∧ ∀ r s, ∃ p, prove true domain4096 (22 : Nat) pk r s ⟨x, y⟩ = .ok p ∧
      simulate (1 : Fq) (1 : Fq) w pk.vk y.toList (fa r) (fb s) = .ok p := by
  obtain ⟨y, -, hy⟩ := testOutputs_relation x
  exact ⟨y, hy, C88_zero_knowledge 1 1 domain4096 domain4096_good (by decide) _ coset22 w hw ⟨x, y⟩ ⟨x, y⟩ hy true⟩

/-- A proof that is accepted. -/
example : ∃ (vk : VerifyingKey Fq Fq) (p : Groth16.Proof Fq Fq), verify (LinearMap.mul Fq Fq) vk [5] p = .ok true :=
  ⟨⟨1, 1, 1, 1, [1, 2]⟩, ⟨3, 4, 0⟩, by decide +kernel⟩

end Poseidon
