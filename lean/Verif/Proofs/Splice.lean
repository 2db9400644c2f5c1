import Verif.Proofs.Mismatch
import Verif.Proofs.Race

/-!
# Files with parts of several runs, and with gaps

The verifier's equation for a proving key whose first part is from another run, and files that begin with zeros.
-/

namespace Poseidon.Groth16

open Poseidon.Sym (Matrices)

section
variable {F : Type} [Field F] [DecidableEq F]
variable {G1 G2 GT : Type} [AddCommGroup G1] [Module F G1] [AddCommGroup G2] [Module F G2] [AddCommGroup GT] [Module F GT]

/-- What changes in a proof if the first part of the key is exchanged. -/
theorem createProof_splice {pk : ProvingKey G1 G2} (vk : VerifyingKey G1 G2) {r s : F} {h x y : List F} {p : Proof G1 G2}
    (hp : createProof pk r s h x y = .ok p) :
    createProof { pk with vk := vk } r s h x y =
      .ok ⟨p.a + (vk.alphaG1 - pk.vk.alphaG1), p.b + (vk.betaG2 - pk.vk.betaG2) + s • (vk.deltaG2 - pk.vk.deltaG2),
        p.c + s • (vk.alphaG1 - pk.vk.alphaG1)⟩ := by
  unfold createProof calculateCoeff at hp ⊢
  dsimp only at hp ⊢
  cases h1 : lget pk.aQuery 0 with
  | error e => rw [h1] at hp; cases hp
  | ok a0 =>
    cases h2 : lget pk.bG1Query 0 with
    | error e =>
      cases h3 : lget pk.bG2Query 0 with
      | error e => by_cases hr : r = 0 <;> simp [h1, h2, h3, hr, bind, Except.bind, pure, Except.pure] at hp
      | ok c0 =>
        by_cases hr : r = 0
        · simp only [h1, h3, hr, if_true, bind, Except.bind, pure, Except.pure, Except.ok.injEq] at hp ⊢
          rw [← hp, Proof.mk.injEq]
          dsimp only
          refine ⟨?_, ?_, ?_⟩
          · abel
          · rw [smul_sub]; abel
          · simp only [smul_sub, smul_add]; abel
        · simp [h1, h2, hr, bind, Except.bind, pure, Except.pure] at hp
    | ok b0 =>
      cases h3 : lget pk.bG2Query 0 with
      | error e => by_cases hr : r = 0 <;> simp [h1, h2, h3, hr, bind, Except.bind, pure, Except.pure] at hp
      | ok c0 =>
        by_cases hr : r = 0
        · simp only [h1, h3, hr, if_true, bind, Except.bind, pure, Except.pure, Except.ok.injEq] at hp ⊢
          rw [← hp, Proof.mk.injEq]
          dsimp only
          refine ⟨?_, ?_, ?_⟩
          · abel
          · rw [smul_sub]; abel
          · simp only [smul_sub, smul_add]; abel
        · simp only [h1, h2, h3, hr, if_false, bind, Except.bind, pure, Except.pure, Except.ok.injEq] at hp ⊢
          rw [← hp, Proof.mk.injEq]
          dsimp only
          refine ⟨?_, ?_, ?_⟩
          · abel
          · rw [smul_sub]; abel
          · simp only [smul_sub, smul_add]; abel

end

variable {G1 G2 GT : Type} [AddCommGroup G1] [Module Fq G1] [AddCommGroup G2] [Module Fq G2] [AddCommGroup GT] [Module Fq GT]

/-- A proof of a true claim made with the key of `w` whose first part is that of `w'`, under the key of `w'`. -/
theorem prove_splice [DecidableEq GT] (e : G1 →ₗ[Fq] G2 →ₗ[Fq] GT) {g1 : G1} {g2 : G2} (he : e g1 g2 ≠ 0) {M : Matrices Fq} {cons}
    (hI : IsMatrices M cons)
    (hM : ∀ (c : R1cs.PreimageCircuit) (s : Bool) (cs : Sym.CS Fq), Sym.generateConstraints c (Sym.CS.new Fq s) = .ok cs →
      cs.toMatrices = .ok M ∧ cs.numInstance = 8 ∧ cs.numWitness = 2457) {d : Domain Fq} (hd : d.Good) (hs : 2465 ≤ d.size) {g : Fq}
    (hg : d.Coset g) (c : R1cs.PreimageCircuit) (hc : PreimageRelation c.preimages c.hashOutputs) {w : Secrets Fq} (hw : w.Usable) :
    ∃ B : Fq, ∀ w' : Secrets Fq, w'.Usable → ∃ C : Fq, ∀ (debug : Bool) (r s : Fq),
      ∃ p, prove debug d g { theKey d g1 g2 w M 8 2457 with vk := (theKey d g1 g2 w' M 8 2457).vk } r s c = .ok p ∧
        verify e (theKey d g1 g2 w' M 8 2457).vk c.hashOutputs.toList p =
          .ok (decide (r * (w.delta * (B + w'.beta) - w'.delta * (B + w.beta)) = C)) := by
  obtain ⟨aux, h3, h4, h5⟩ := prove_unfold (G1 := G1) (G2 := G2) hI hM c
  have hS := hI.shape hs
  have lx : c.hashOutputs.toList.length + 1 = 8 := by simp
  have hg1 : g1 ≠ 0 := by
    rintro rfl
    rw [map_zero, LinearMap.zero_apply] at he
    exact he rfl
  obtain ⟨_, _, _, _, q3⟩ := prove_eq g1 g2 hd hg hS hw 0 0 lx h3
  obtain ⟨SP, p1, -⟩ := q3 c.hashOutputs.toList rfl
  refine ⟨(rowPoly d M.b (1 :: c.hashOutputs.toList ++ aux)).eval w.tau, fun w' hw' => ?_⟩
  obtain ⟨_, _, _, _, q3'⟩ := prove_eq g1 g2 hd hg hS hw' 0 0 lx h3
  obtain ⟨SP', p1', -⟩ := q3' c.hashOutputs.toList rfl
  refine ⟨w'.alpha * w'.beta + SP' + w.delta⁻¹ * w'.delta * (((rowPolyA d M.a 8 (1 :: c.hashOutputs.toList ++ aux)).eval w.tau + w.alpha) *
      ((rowPoly d M.b (1 :: c.hashOutputs.toList ++ aux)).eval w.tau + w.beta) - w.alpha * w.beta - SP) -
      ((rowPolyA d M.a 8 (1 :: c.hashOutputs.toList ++ aux)).eval w.tau + w'.alpha) *
      ((rowPoly d M.b (1 :: c.hashOutputs.toList ++ aux)).eval w.tau + w'.beta), fun debug r s => ?_⟩
  obtain ⟨h, w1, k, w2, w3⟩ := prove_eq g1 g2 hd hg hS hw r s lx h3
  obtain ⟨SP₂, v1, v2⟩ := w3 c.hashOutputs.toList rfl
  have e1 : SP₂ = SP := by
    rw [p1] at v1
    have := smul_left_injective Fq hg1 (Except.ok.inj v1)
    exact (mul_right_cancel₀ (inv_ne_zero hw.1) this).symm
  subst e1
  have hz : (rowsLeft d g M 8 (1 :: c.hashOutputs.toList ++ aux)).eval w.tau +
      (publicLeft d M 8 w.alpha w.beta (1 :: c.hashOutputs.toList ++ aux) (1 :: c.hashOutputs.toList)).eval w.tau = 0 := by
    rw [rowsLeft_zero hd hg hS (h4.2 hc), Polynomial.eval_zero, zero_add]
    have : publicLeft d M 8 w.alpha w.beta (1 :: c.hashOutputs.toList ++ aux) (1 :: c.hashOutputs.toList) = 0 := by
      refine Finset.sum_eq_zero fun j hj => ?_
      rw [List.getD_append _ _ _ _ (by rw [List.length_cons, lx]; exact Finset.mem_range.1 hj), sub_self, Polynomial.C_0, zero_mul]
    rw [this, Polynomial.eval_zero]
  rw [hz] at v2
  have hp := (h5 debug d g { theKey d g1 g2 w M 8 2457 with vk := (theKey d g1 g2 w' M 8 2457).vk } r s).2 fun _ => hc
  rw [w1, ok_bind, createProof_splice _ w2] at hp
  refine ⟨_, hp, ?_⟩
  generalize (rowPolyA d M.a 8 (1 :: c.hashOutputs.toList ++ aux)).eval w.tau = A at v2
  generalize (rowPoly d M.b (1 :: c.hashOutputs.toList ++ aux)).eval w.tau = B at v2
  have ea : (r * w.delta + A + w.alpha) • g1 + ((theKey d g1 g2 w' M 8 2457).vk.alphaG1 - (theKey d g1 g2 w M 8 2457).vk.alphaG1) =
      (r * w.delta + A + w.alpha + (w'.alpha - w.alpha)) • g1 := by
    show (r * w.delta + A + w.alpha) • g1 + (w'.alpha • g1 - w.alpha • g1) = _
    rw [← sub_smul, ← add_smul]
  have eb : (s * w.delta + B + w.beta) • g2 + ((theKey d g1 g2 w' M 8 2457).vk.betaG2 - (theKey d g1 g2 w M 8 2457).vk.betaG2) +
      s • ((theKey d g1 g2 w' M 8 2457).vk.deltaG2 - (theKey d g1 g2 w M 8 2457).vk.deltaG2) =
      (s * w.delta + B + w.beta + (w'.beta - w.beta) + s * (w'.delta - w.delta)) • g2 := by
    show (s * w.delta + B + w.beta) • g2 + (w'.beta • g2 - w.beta • g2) + s • (w'.delta • g2 - w.delta • g2) = _
    rw [← sub_smul, ← add_smul, ← sub_smul, smul_smul, ← add_smul]
  have ec : k • g1 + s • ((theKey d g1 g2 w' M 8 2457).vk.alphaG1 - (theKey d g1 g2 w M 8 2457).vk.alphaG1) =
      (k + s * (w'.alpha - w.alpha)) • g1 := by
    show k • g1 + s • (w'.alpha • g1 - w.alpha • g1) = _
    rw [← sub_smul, smul_smul, ← add_smul]
  dsimp only
  rw [ea, eb, ec, verify_iff e g1 g2 he hw'.1 (w := w') rfl rfl rfl rfl p1']
  refine congrArg Except.ok (decide_eq_decide.2 ?_)
  have hδ := hw.2
  have hk : k = w.delta⁻¹ * ((r * w.delta + A + w.alpha) * (s * w.delta + B + w.beta) - SP₂ - w.alpha * w.beta) := by
    field_simp
    linear_combination -v2
  have hi : w.delta⁻¹ * w.delta = 1 := inv_mul_cancel₀ hδ
  rw [hk]
  generalize w.delta⁻¹ = D at hi
  constructor
  · intro h0
    linear_combination h0 + (w'.delta * (r * (s * w.delta + B + w.beta) + s * (A + w.alpha))) * hi
  · intro h0
    linear_combination h0 - (w'.delta * (r * (s * w.delta + B + w.beta) + s * (A + w.alpha))) * hi

variable {ι : Type} [DecidableEq ι]

theorem writeAt_writeAt (f w : List UInt8) (o n : Nat) (ho : o + (n + 1) ≤ w.length) :
    writeAt (writeAt f o ((w.drop o).take (n + 1))) (o + (n + 1)) (w.drop (o + (n + 1))) = writeAt f o (w.drop o) := by
  have hb : ((w.drop o).take (n + 1)).length = n + 1 := by rw [List.length_take, List.length_drop]; omega
  have hd : (w.drop o).length = w.length - o := List.length_drop
  have hd' : (w.drop (o + (n + 1))).length = w.length - (o + (n + 1)) := List.length_drop
  refine List.ext_getElem? fun i => ?_
  rw [writeAt_getElem?, writeAt_getElem?, writeAt_getElem?, writeAt_length, hb, hd, hd']
  by_cases h1 : i < o
  · rw [if_pos (by omega), if_pos (by omega), if_pos h1, if_pos h1]
  · by_cases h2 : i < o + (n + 1)
    · rw [if_pos h2, if_pos (by omega), if_neg h1, if_pos h2, if_neg h1, if_pos (by omega), List.getElem?_take_of_lt (by omega)]
    · rw [if_neg h2, if_neg h1]
      by_cases h3 : i < w.length
      · rw [if_pos (by omega), if_neg h1, if_pos (by omega), List.getElem?_drop, List.getElem?_drop]
        congr 1
        omega
      · rw [if_neg (by omega), if_neg h1, if_neg h2, if_neg (by omega)]

/-- Calls that write the rest of the proving key into any file. -/
theorem rest_any {pk vk : ι → List UInt8} (i : ι) (n : Nat) : ∀ (r o : Nat) (m : Machine ι) (f : List UInt8), (pk i).length - o = r →
    o ≤ (pk i).length → m.stage i = .writingPk o → m.files.pk = some f →
    ∃ k, Machine.run pk vk (List.replicate k (i, n)) m = ⟨Function.update m.stage i (.writingPk (pk i).length),
      { m.files with pk := some (if o < (pk i).length then writeAt f o ((pk i).drop o) else f) }⟩ := by
  intro r
  induction r using Nat.strong_induction_on with
  | _ r ih =>
    intro o m f hr ho hs hf
    by_cases hlt : o < (pk i).length
    · rw [if_pos hlt]
      have hb : (((pk i).drop o).take (n + 1)).length = min (n + 1) ((pk i).length - o) := by rw [List.length_take, List.length_drop]
      have hc : call (pk i) (vk i) n (m.stage i) m.files = (.writingPk (o + (((pk i).drop o).take (n + 1)).length),
          { m.files with pk := some (writeAt f o (((pk i).drop o).take (n + 1))) }) := by
        rw [hs]
        unfold call
        dsimp only
        rw [if_pos hlt, hf]
        rfl
      by_cases hend : o + (n + 1) < (pk i).length
      · have hb' : (((pk i).drop o).take (n + 1)).length = n + 1 := by omega
        rw [hb'] at hc
        obtain ⟨k, hk⟩ := ih _ (by omega) (o + (n + 1)) ⟨Function.update m.stage i (.writingPk (o + (n + 1))),
            { m.files with pk := some (writeAt f o (((pk i).drop o).take (n + 1))) }⟩ _ rfl hend.le (Function.update_self ..) rfl
        refine ⟨k + 1, ?_⟩
        rw [List.replicate_succ]
        show Machine.run pk vk (List.replicate k (i, n)) ⟨Function.update m.stage i (call (pk i) (vk i) n (m.stage i) m.files).1,
          (call (pk i) (vk i) n (m.stage i) m.files).2⟩ = _
        rw [hc]
        dsimp only
        rw [hk]
        dsimp only
        rw [Function.update_idem, if_pos hend, writeAt_writeAt f (pk i) o n hend.le]
      · refine ⟨1, ?_⟩
        show Machine.mk (Function.update m.stage i (call (pk i) (vk i) n (m.stage i) m.files).1)
          (call (pk i) (vk i) n (m.stage i) m.files).2 = _
        rw [hc, List.take_of_length_le (by rw [List.length_drop]; omega)]
        dsimp only
        rw [List.length_drop, Nat.add_sub_cancel' ho]
    · have ho' : o = (pk i).length := by omega
      refine ⟨0, ?_⟩
      rw [if_neg hlt]
      show m = _
      rw [← ho', ← hs, Function.update_eq_self, ← hf]

end Poseidon.Groth16
