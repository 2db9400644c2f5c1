import Verif.Proofs.Groth16Preimage

/-!
# A proving key and a verifying key of different runs

The verifier's equation for a proof that was made with another key.
-/

namespace Poseidon.Groth16

open Poseidon.Sym (Matrices)

variable {G1 G2 GT : Type} [AddCommGroup G1] [Module Fq G1] [AddCommGroup G2] [Module Fq G2] [AddCommGroup GT] [Module Fq GT]

/-- A proof of a true claim made with the key of `w`, under the key of `w'`. -/
theorem prove_other [DecidableEq GT] (e : G1 →ₗ[Fq] G2 →ₗ[Fq] GT) {g1 : G1} {g2 : G2} (he : e g1 g2 ≠ 0) {M : Matrices Fq} {cons}
    (hI : IsMatrices M cons)
    (hM : ∀ (c : R1cs.PreimageCircuit) (s : Bool) (cs : Sym.CS Fq), Sym.generateConstraints c (Sym.CS.new Fq s) = .ok cs →
      cs.toMatrices = .ok M ∧ cs.numInstance = 8 ∧ cs.numWitness = 2457) {d : Domain Fq} (hd : d.Good) (hs : 2465 ≤ d.size) {g : Fq}
    (hg : d.Coset g) (c : R1cs.PreimageCircuit) (hc : PreimageRelation c.preimages c.hashOutputs) {w w' : Secrets Fq} (hw : w.Usable)
    (hw' : w'.Usable) :
    ∃ A B SP SP' : Fq,
      prepareInputs (theKey d g1 g2 w M 8 2457).vk c.hashOutputs.toList = .ok ((SP * w.gamma⁻¹) • g1) ∧
      prepareInputs (theKey d g1 g2 w' M 8 2457).vk c.hashOutputs.toList = .ok ((SP' * w'.gamma⁻¹) • g1) ∧
      ∀ (debug : Bool) (r s : Fq), ∃ p, prove debug d g (theKey d g1 g2 w M 8 2457) r s c = .ok p ∧
        verify e (theKey d g1 g2 w' M 8 2457).vk c.hashOutputs.toList p =
          .ok (decide ((w.delta - w'.delta) * ((r * w.delta + A) * (s * w.delta + B)) =
            w.delta * (SP' + w'.alpha * w'.beta) - w'.delta * (SP + w.alpha * w.beta))) := by
  obtain ⟨aux, h3, h4, h5⟩ := prove_unfold (G1 := G1) (G2 := G2) hI hM c
  have hS := hI.shape hs
  have lx : c.hashOutputs.toList.length + 1 = 8 := by simp
  obtain ⟨_, _, _, _, q3⟩ := prove_eq g1 g2 hd hg hS hw 0 0 lx h3
  obtain ⟨SP, p1, -⟩ := q3 c.hashOutputs.toList rfl
  obtain ⟨_, _, _, _, q3'⟩ := prove_eq g1 g2 hd hg hS hw' 0 0 lx h3
  obtain ⟨SP', p1', -⟩ := q3' c.hashOutputs.toList rfl
  refine ⟨(rowPolyA d M.a 8 (1 :: c.hashOutputs.toList ++ aux)).eval w.tau + w.alpha,
    (rowPoly d M.b (1 :: c.hashOutputs.toList ++ aux)).eval w.tau + w.beta, SP, SP', p1, p1', fun debug r s => ?_⟩
  obtain ⟨h, w1, k, w2, w3⟩ := prove_eq g1 g2 hd hg hS hw r s lx h3
  obtain ⟨SP₂, v1, v2⟩ := w3 c.hashOutputs.toList rfl
  have hg1 : g1 ≠ 0 := by
    rintro rfl
    rw [map_zero, LinearMap.zero_apply] at he
    exact he rfl
  have e1 : SP₂ = SP := by
    rw [p1] at v1
    have := smul_left_injective Fq hg1 (Except.ok.inj v1)
    exact (mul_right_cancel₀ (inv_ne_zero hw.1) this).symm
  subst e1
  have hz : (rowsLeft d g M 8 (1 :: c.hashOutputs.toList ++ aux)).eval w.tau +
      (publicLeft d M 8 w.alpha w.beta (1 :: c.hashOutputs.toList ++ aux) (1 :: c.hashOutputs.toList)).eval w.tau = 0 := by
    rw [rowsLeft_zero hd hg hS (h4.2 hc), Polynomial.eval_zero, zero_add]
    have : publicLeft d M 8 w.alpha w.beta (1 :: c.hashOutputs.toList ++ aux) (1 :: c.hashOutputs.toList) = 0 := by
      refine Finset.sum_eq_zero fun j hj => ?_
      rw [List.getD_append _ _ _ _ (by rw [List.length_cons, lx]; exact Finset.mem_range.1 hj), sub_self, Polynomial.C_0, zero_mul]
    rw [this, Polynomial.eval_zero]
  rw [hz] at v2
  have hp := (h5 debug d g (theKey d g1 g2 w M 8 2457) r s).2 fun _ => hc
  rw [w1, ok_bind, w2] at hp
  refine ⟨_, hp, ?_⟩
  · rw [verify_iff e g1 g2 he hw'.1 (w := w') rfl rfl rfl rfl p1']
    refine congrArg Except.ok (decide_eq_decide.2 ?_)
    generalize (rowPolyA d M.a 8 (1 :: c.hashOutputs.toList ++ aux)).eval w.tau = A at v2
    generalize (rowPoly d M.b (1 :: c.hashOutputs.toList ++ aux)).eval w.tau = B at v2
    constructor
    · intro h0
      linear_combination w.delta * h0 - w'.delta * v2
    · intro h0
      refine mul_left_cancel₀ hw.2 ?_
      linear_combination h0 + w'.delta * v2

end Poseidon.Groth16
