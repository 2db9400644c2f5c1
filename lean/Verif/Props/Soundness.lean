import Verif.Props.Groth16
import Verif.Proofs.Groth16Strategy

/-!
# Property C89: a proof that is accepted comes from someone who knows preimages

A prover that does not follow the algorithm sees the points of the key and makes its proof out of them: a combination of the points of the
first group, one of the second, one of the first, with coefficients of its choice (`Strategy`).  It does not know the secrets, so
the same strategy meets every key.
-/

namespace Poseidon

open Poseidon.Groth16

variable {G1 G2 GT : Type} [AddCommGroup G1] [Module Fq G1] [AddCommGroup G2] [Module Fq G2] [AddCommGroup GT] [Module Fq GT]

/-- The secrets with whose key a strategy convinces the verifier of the public inputs `y`. -/
def Accepts [DecidableEq GT] (e : G1 →ₗ[Fq] G2 →ₗ[Fq] GT) (g1 : G1) (g2 : G2) (d : Domain Fq) (k : Strategy Fq) (y : Vector Fq 7) :
    Set (Secrets Fq) :=
  {w | w.Usable ∧ ∃ c₀ pk, setup d g1 g2 w c₀ = .ok pk ∧ verify e pk.vk y.toList (k.proof g1 g2 pk) = .ok true}

/-- **C89, knowledge soundness.** A strategy that convinces the verifier of `y` with more than `(3 * size - 2) * q ^ 4` of the at most `q ^ 5`
secrets contains preimages of `y`: the first seven of the coefficients for the points of `l_query` in the third part of the proof. -/
theorem C89_knowledge [DecidableEq GT] (e : G1 →ₗ[Fq] G2 →ₗ[Fq] GT) (g1 : G1) (g2 : G2) (he : e g1 g2 ≠ 0) (d : Domain Fq) (hd : d.Good)
    (hs : 2465 ≤ d.size) (k : Strategy Fq) (y : Vector Fq 7)
    (h : (((3 * d.size - 2) * q ^ 4 : Nat) : ENat) < (Accepts e g1 g2 d k y).encard) :
    PreimageRelation (Vector.ofFn fun i : Fin 7 => k.c.l.getD i 0) y := by
  obtain ⟨M, cons, hI, hM⟩ := the_matrices
  have hS := hI.shape hs
  by_contra hn
  refine absurd h (not_lt.2 ?_)
  have hne : ((formS d M 8 (1 :: y.toList)).U + (form1 d M 8 2457 k.c).lU) * ((formS d M 8 (1 :: y.toList)).V + (form1 d M 8 2457 k.c).lV) ≠
      (formS d M 8 (1 :: y.toList)).W + (form1 d M 8 2457 k.c).h := by
    intro h0
    have hsat := strategy_satisfied hd hS k (x := y.toList) (by simp) h0
    obtain ⟨cs, M', h1, -⟩ := C85_preimage_matrices ⟨y, y⟩ true
    have := C85_preimage_extract _ _ cs M h1 (hM _ _ _ h1).1 _ rfl hsat
    refine hn ?_
    convert this using 1
    · refine Vector.ext fun i hi => ?_
      simp only [Vector.getElem_ofFn, Strategy.assignment]
      rw [List.getD_append_right _ _ _ _ (by simp)]
      have : i < 2457 := by omega
      simp [this]
    · refine Vector.ext fun i hi => ?_
      simp only [Vector.getElem_ofFn, Strategy.assignment]
      rw [List.getD_append _ _ _ _ (by simp; omega), List.getD_cons_succ, List.getD_eq_getElem _ _ (by simpa using hi)]
      simp
  refine equation_few' (ZMod.card q) (by omega) (form1_small hd (by omega) M 8 2457 k.a) (form2_small hd M 8 2457 k.b)
    (form1_small hd (by omega) M 8 2457 k.c) (formS_small hd M 8 (1 :: y.toList)) hne ?_
  rintro w ⟨hw, c₀, pk, h1, h2⟩
  rw [setup_eq hI hM hd hs g1 g2 hw c₀] at h1
  cases h1
  rw [strategy_verify e he hd hS hw k (by simp)] at h2
  exact of_decide_eq_true (Except.ok.inj h2)

/-- **C89, soundness.** A strategy that does not contain preimages of `y`, and so every strategy when `y` are not the hashes of any
preimages, convinces the verifier with at most `(3 * size - 2) * q ^ 4` secrets: a share of `(3 * size - 2) / q`, less than `2 ^ -238`
for the 4096 points of the library. -/
theorem C89_sound [DecidableEq GT] (e : G1 →ₗ[Fq] G2 →ₗ[Fq] GT) (g1 : G1) (g2 : G2) (he : e g1 g2 ≠ 0) (d : Domain Fq) (hd : d.Good)
    (hs : 2465 ≤ d.size) (k : Strategy Fq) (y : Vector Fq 7) (hy : ¬ PreimageRelation (Vector.ofFn fun i : Fin 7 => k.c.l.getD i 0) y) :
    (Accepts e g1 g2 d k y).encard ≤ ((3 * d.size - 2) * q ^ 4 : Nat) := by
  by_contra h
  exact hy (C89_knowledge e g1 g2 he d hd hs k y (not_le.1 h))

/-- The usable secrets are `q ^ 3 * (q - 1) ^ 2`. -/
theorem usable_encard : {w : Secrets Fq | w.Usable}.encard = (q ^ 3 * (q - 1) ^ 2 : Nat) := by
  let f : Fq × Fq × Fq × Fqˣ × Fqˣ → Secrets Fq := fun x => ⟨x.1, x.2.1, x.2.2.2.1, x.2.2.2.2, x.2.2.1⟩
  have hf : Function.Injective f := by
    rintro ⟨a, b, c, d, e⟩ ⟨a', b', c', d', e'⟩ h
    simp only [f, Secrets.mk.injEq, Units.val_inj] at h
    obtain ⟨rfl, rfl, rfl, rfl, rfl⟩ := h
    rfl
  have hr : {w : Secrets Fq | w.Usable} = f '' Set.univ := by
    ext w
    refine ⟨fun h => ⟨(w.alpha, w.beta, w.tau, Units.mk0 _ h.1, Units.mk0 _ h.2), trivial, rfl⟩, ?_⟩
    rintro ⟨x, -, rfl⟩
    exact ⟨x.2.2.2.1.ne_zero, x.2.2.2.2.ne_zero⟩
  rw [hr, hf.encard_image, Set.encard_univ, ENat.card_eq_coe_fintype_card]
  simp only [Fintype.card_prod, Fintype.card_units, ZMod.card]
  congr 1

/-- **C89, the algorithm is a strategy.** What the prover of the library does, for a true claim and any randomness, is a strategy that
convinces the verifier with all secrets; its coefficients contain the preimages. -/
theorem C89_honest [DecidableEq GT] (e : G1 →ₗ[Fq] G2 →ₗ[Fq] GT) (g1 : G1) (g2 : G2) (he : e g1 g2 ≠ 0) (d : Domain Fq) (hd : d.Good)
    (hs : 2465 ≤ d.size) (g : Fq) (hg : d.Coset g) (c : R1cs.PreimageCircuit) (hc : PreimageRelation c.preimages c.hashOutputs) (r s : Fq) :
    ∃ k : Strategy Fq, Accepts e g1 g2 d k c.hashOutputs = {w | w.Usable} ∧
      ∀ (w : Secrets Fq) (c₀ : R1cs.PreimageCircuit) (debug : Bool) (pk : ProvingKey G1 G2), setup d g1 g2 w c₀ = .ok pk →
        prove debug d g pk r s c = .ok (k.proof g1 g2 pk) := by
  obtain ⟨M, cons, hI, hM⟩ := the_matrices
  have hS := hI.shape hs
  obtain ⟨aux, h1, h2, h3⟩ := prove_unfold (G1 := G1) (G2 := G2) hI hM c
  have hv : d.vanishing g ≠ 0 := by rw [hd.vanishing_eq]; exact sub_ne_zero.2 hg.2
  have hl : (1 :: c.hashOutputs.toList ++ aux).length = 8 + 2457 := by simp [h1]
  obtain ⟨h, h4, -⟩ := witnessMap_eq (ni := 8) (M := M) (z := 1 :: c.hashOutputs.toList ++ aux) hv (hl ▸ hS.a) (hl ▸ hS.b) (hl ▸ hS.c)
  have key : ∀ (w : Secrets Fq) (c₀ : R1cs.PreimageCircuit) (debug : Bool) (pk : ProvingKey G1 G2), setup d g1 g2 w c₀ = .ok pk →
      prove debug d g pk r s c = .ok ((honest r s h c.hashOutputs.toList aux).proof g1 g2 pk) := by
    intro w c₀ debug pk hpk
    have hw : w.Usable := by
      by_contra hw
      rw [C87_setup_fails d hd hs g1 g2 w c₀ hw] at hpk
      cases hpk
    rw [setup_eq hI hM hd hs g1 g2 hw c₀] at hpk
    cases hpk
    rw [(h3 debug d g _ r s).2 fun _ => hc, h4, ok_bind]
    refine createProof_honest ?_ ?_ ?_ r s h _ aux
    all_goals
      intro h0
      have := congrArg List.length h0
      simp [theKey, keyOf] at this
  refine ⟨honest r s h c.hashOutputs.toList aux, Set.ext fun w => ⟨fun h => h.1, fun hw => ⟨hw, c, ?_⟩⟩, key⟩
  obtain ⟨pk, p, k1, k2, k3⟩ := C87_complete e g1 g2 he d hd hs g hg w hw c c hc true r s
  rw [key w c true pk k1] at k2
  cases k2
  exact ⟨pk, k1, k3⟩

/-! ### The hypotheses are met -/

theorem bound_lt (m n : Nat) (h : n * m < (m - 1) ^ 2) (hm : 0 < m) : n * m ^ 4 < m ^ 3 * (m - 1) ^ 2 := by
  have : n * m ^ 4 = m ^ 3 * (n * m) := by ring
  rw [this]
  exact Nat.mul_lt_mul_of_pos_left h (Nat.pow_pos hm)

/-- The prover is a strategy that meets the hypothesis of `C89_knowledge`. -/
example (x : Vector Fq 7) : ∃ y k, PreimageRelation x y ∧
    (((3 * domain4096.size - 2) * q ^ 4 : Nat) : ENat) < (Accepts (LinearMap.mul Fq Fq) 1 1 domain4096 k y).encard := by
  obtain ⟨y, -, hy⟩ := testOutputs_relation x
  obtain ⟨k, hk, -⟩ := C89_honest (LinearMap.mul Fq Fq) 1 1 (by simp) domain4096 domain4096_good (by decide) _ coset22 ⟨x, y⟩ hy 17 19
  refine ⟨y, k, hy, ?_⟩
  rw [hk, usable_encard, Nat.cast_lt]
  exact bound_lt q (3 * domain4096.size - 2) (by decide +kernel) (by decide +kernel)

/-- A strategy that does not know preimages. -/
example : ∃ y, ∀ a b, ¬ PreimageRelation (Vector.ofFn fun i : Fin 7 => (⟨a, b, ⟨0, 1, 2, 3, [4], [5], [6], [], [7]⟩⟩ : Strategy Fq).c.l.getD i 0) y := by
  obtain ⟨y, h1, h2⟩ := testOutputs_relation (Vector.replicate 7 0)
  refine ⟨Vector.replicate 7 (y[0] + 1), fun a b h => ?_⟩
  have e : (Vector.ofFn fun i : Fin 7 => (⟨a, b, ⟨0, 1, 2, 3, [4], [5], [6], [], [7]⟩⟩ : Strategy Fq).c.l.getD i 0) = Vector.replicate 7 0 := by
    ext i hi
    simp
  rw [e] at h
  have := h2.1.symm.trans h.1
  simp at this

end Poseidon
