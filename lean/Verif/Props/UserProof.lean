import Verif.Proofs.UserProof
import Verif.Props.Soundness
import Verif.Props.ZeroKnowledge

/-!
# Property C96: proofs for circuits built from the circuit hashes

What C87, C88 and C89 say of the circuit of the test-suite, for every circuit that is built with the circuit hashes
(`UserCircuit`, as in C95).  `setupUser` and `proveUser` are `circuit_specific_setup` and `prove` for such a circuit.

`d` is the evaluation domain; it needs as many points as there are constraints and public columns.  `c₀.blank = c.blank` says that
the two programs differ in their private and public values only: the key is made with `c₀`, the proof with `c`.
-/

namespace Poseidon

open Poseidon.Groth16
open R1cs (UserCircuit)

variable {G1 G2 GT : Type} [AddCommGroup G1] [Module Fq G1] [AddCommGroup G2] [Module Fq G2] [AddCommGroup GT] [Module Fq GT]

/-- The domain has enough points for the circuit. -/
def Fits (d : Domain Fq) (c : UserCircuit 0) : Prop := c.constraints #v[] + 1 + c.publicValues.length ≤ d.size

/-- **C96, matrices.** With or without values, for the key and for the proof, the same matrices come out: one row for each constraint,
and their solutions are the values that the native computation accepts. -/
theorem C96_matrices (c : UserCircuit 0) (hn : c.NoConstantHash #v[]) :
    ∃ M, (M.a.length = c.constraints #v[] ∧ M.b.length = c.constraints #v[] ∧ M.c.length = c.constraints #v[]) ∧
      (∀ (c' : UserCircuit 0) (s : Bool), c'.blank = c.blank → ∃ cs, c'.synthesize #v[] (Sym.CS.new Fq s) = .ok cs ∧
        cs.toMatrices = .ok M ∧ cs.numInstance = 1 + c.publicValues.length ∧ cs.numWitness = c.witnesses #v[]) ∧
      (c.NoConstantEqual #v[] → ∀ w y : List Fq, (∃ z : Nat → Fq, z 0 = 1 ∧ M.Satisfied z ∧
        ((c.privateAt #v[] 0).map fun j => z (1 + c.publicValues.length + j)) = w ∧
        ((List.range c.publicValues.length).map fun j => z (1 + j)) = y) ↔ c.Accepts #v[] w y) := by
  obtain ⟨M, hM⟩ := user_matrices c hn
  refine ⟨M, ⟨hM.la, hM.lb, hM.lc⟩, fun c' s hb => ?_, fun hne w y => ⟨?_, fun ha => ?_⟩⟩
  · obtain ⟨cs, h1, -, h2⟩ := hM.runs c' s hb
    exact ⟨cs, h1, h2⟩
  · rintro ⟨z, h0, hz, rfl, rfl⟩
    exact hM.extract hne z h0 hz
  · obtain ⟨cs, h1, hs, h2, h3, h4⟩ := hM.runs c true rfl
    obtain ⟨-, hl⟩ := Sym.user_low h1
    obtain ⟨-, lw, -, -, -, -, -, l8, -⟩ := link_new hl
    simp only [map_nil] at l8
    obtain ⟨τ, t1, t2, t3, t4⟩ := l8 (fun _ => 1) w y ⟨rfl, fun _ hc => absurd hc List.not_mem_nil⟩ ha
    have t0 : τ (.input 0) = 1 := (t2 (.input 0) Nat.zero_lt_one).symm
    let z : Nat → Fq := fun j => if j < 1 + c.publicValues.length then τ (.input j) else τ (.witness (j - (1 + c.publicValues.length)))
    have z0 : z 0 = 1 := by simp only [z]; rw [if_pos (by omega)]; exact t0
    have zw : ∀ j, z (1 + c.publicValues.length + j) = τ (.witness j) := by
      intro j
      simp only [z]
      rw [if_neg (by omega), Nat.add_sub_cancel_left]
    have hsat : R1cs.Satisfies (Sym.ofColumns cs.numInstance z) cs.lower := by
      refine t1.agree lw fun v hv => ?_
      cases v with
      | one => exact t1.1.trans z0.symm
      | input i =>
        have hi : i < cs.numInstance := hv
        rw [h3] at hi
        exact (if_pos hi).symm
      | witness i => rw [h3]; exact (zw i).symm
    refine ⟨z, z0, (matrices_satisfies hs h2 z0).2 hsat, ?_, ?_⟩
    · rw [← t3]
      exact List.map_congr_left fun j _ => zw j
    · rw [← t4]
      refine List.map_congr_left fun j hj => ?_
      have := List.mem_range.1 hj
      exact if_pos (by omega)

/-- **C96, keys.** Key generation succeeds, and the key does not depend on the values in the circuit it was made with. -/
theorem C96_setup (d : Domain Fq) (hd : d.Good) (g1 : G1) (g2 : G2) (w : Secrets Fq) (hw : w.Usable) (c : UserCircuit 0)
    (hn : c.NoConstantHash #v[]) (hs : Fits d c) :
    ∃ pk, ∀ c₀ : UserCircuit 0, c₀.blank = c.blank → setupUser d g1 g2 w c₀ = .ok pk := by
  obtain ⟨M, hM⟩ := user_matrices c hn
  exact ⟨_, fun c₀ hb => setupUser_eq hM hd hs g1 g2 hw hb⟩

/-- **C96, no key.** It panics if a hash gets constants only, or if a secret that it inverts is zero. -/
theorem C96_setup_fails (d : Domain Fq) (hd : d.Good) (g1 : G1) (g2 : G2) (w : Secrets Fq) (c : UserCircuit 0) (hs : Fits d c)
    (hc : ¬ (c.NoConstantHash #v[] ∧ w.Usable)) : ∃ p, setupUser d g1 g2 w c = .error p := by
  by_cases hn : c.NoConstantHash #v[]
  · have hw : ¬ w.Usable := fun hw => hc ⟨hn, hw⟩
    obtain ⟨M, hM⟩ := user_matrices c hn
    obtain ⟨cs, h1, -, k1, k2, k3⟩ := hM.runs c true rfl
    have hS := hM.shape hs
    refine ⟨.unwrapNone, ?_⟩
    unfold setupUser generateParameters
    rw [h1, ok_bind, k1, ok_bind, k2, k3, instanceMap_eq hd hS.a hS.b hS.c hS.lb hS.lc hS.fits w.tau, ok_bind]
    by_cases hγ : w.gamma = 0
    · rw [if_pos hγ]; rfl
    · rw [if_neg hγ, if_pos (by by_contra hδ; exact hw ⟨hγ, hδ⟩)]; rfl
  · cases h : c.synthesize #v[] (Sym.CS.new Fq true) with
    | error p => exact ⟨p, by unfold setupUser; rw [h]; rfl⟩
    | ok cs => exact absurd ((C95_runs c true).1 ⟨_, (Sym.user_low h).2⟩) hn

/-- **C96, completeness.** If the native computation accepts the values of the circuit then the proof is made and accepted. -/
theorem C96_complete [DecidableEq GT] (e : G1 →ₗ[Fq] G2 →ₗ[Fq] GT) (g1 : G1) (g2 : G2) (he : e g1 g2 ≠ 0) (d : Domain Fq) (hd : d.Good)
    (g : Fq) (hg : d.Coset g) (w : Secrets Fq) (hw : w.Usable) (c₀ c : UserCircuit 0) (hb : c₀.blank = c.blank)
    (hn : c.NoConstantHash #v[]) (hne : c.NoConstantEqual #v[]) (hs : Fits d c)
    (hc : c.Accepts #v[] c.privateValues c.publicValues) (debug : Bool) (r s : Fq) :
    ∃ pk p, setupUser d g1 g2 w c₀ = .ok pk ∧ proveUser debug d g pk r s c = .ok p ∧ verify e pk.vk c.publicValues p = .ok true := by
  obtain ⟨M, hM⟩ := user_matrices c hn
  obtain ⟨z, h1, h2, h3⟩ := proveUser_run e he hM hne hd hs hg
  obtain ⟨p, h4, h5⟩ := (h3 debug (theKey d g1 g2 w M _ _) r s).2 (fun _ => hc) w hw rfl
  refine ⟨_, p, setupUser_eq hM hd hs g1 g2 hw hb, h4, ?_⟩
  rw [h5 c.publicValues rfl, rowsLeft_zero hd hg (hM.shape hs) (h1.2 hc), Polynomial.eval_zero, zero_add]
  have : publicLeft d M (1 + c.publicValues.length) w.alpha w.beta z (1 :: c.publicValues) = 0 := by
    refine Finset.sum_eq_zero fun j hj => ?_
    rw [h2 j (Finset.mem_range.1 hj), sub_self, Polynomial.C_0, zero_mul]
  rw [this, Polynomial.eval_zero, decide_eq_true rfl]

/-- **C96, debug assertions.** With them the prover panics if the native computation rejects the values of the circuit. -/
theorem C96_debug (d : Domain Fq) (g : Fq) (pk : ProvingKey G1 G2) (r s : Fq) (c : UserCircuit 0) (hn : c.NoConstantHash #v[])
    (hne : c.NoConstantEqual #v[]) (hc : ¬ c.Accepts #v[] c.privateValues c.publicValues) :
    proveUser true d g pk r s c = .error .assertFailed := by
  obtain ⟨M, hM⟩ := user_matrices c hn
  obtain ⟨aux, -, -, -, h⟩ := proveUser_unfold (G1 := G1) (G2 := G2) hM hne
  exact (h true d g pk r s).1 rfl hc

/-- **C96, what a verdict means.** Run the prover on any values and verify against any public values `y`.  Unless the native computation
accepts and `y` are the public values of the circuit the proof is rejected, for all but `2 * size - 2` values of the secret point `tau`;
they are fixed by the circuit, `y`, `alpha` and `beta`. -/
theorem C96_rejects [DecidableEq GT] (e : G1 →ₗ[Fq] G2 →ₗ[Fq] GT) (g1 : G1) (g2 : G2) (he : e g1 g2 ≠ 0) (d : Domain Fq) (hd : d.Good)
    (h1d : 1 < d.size) (g : Fq) (hg : d.Coset g) (alpha beta : Fq) (hβ : beta ≠ 0) (c : UserCircuit 0)
    (hn : c.NoConstantHash #v[]) (hne : c.NoConstantEqual #v[]) (hs : Fits d c) (y : List Fq) (hy : y.length = c.publicValues.length)
    (hc : ¬ (c.Accepts #v[] c.privateValues c.publicValues ∧ y = c.publicValues)) :
    ∃ bad : Finset Fq, bad.card ≤ 2 * d.size - 2 ∧
      ∀ w : Secrets Fq, w.Usable → w.alpha = alpha → w.beta = beta → w.tau ∉ bad → ∀ (c₀ : UserCircuit 0) (r s : Fq),
        c₀.blank = c.blank →
        ∃ pk p, setupUser d g1 g2 w c₀ = .ok pk ∧ proveUser false d g pk r s c = .ok p ∧ verify e pk.vk y p = .ok false := by
  obtain ⟨M, hM⟩ := user_matrices c hn
  obtain ⟨z, h1, h2, h3⟩ := proveUser_run e he hM hne hd hs hg
  have hS := hM.shape hs
  have la := hM.la
  unfold Fits at hs
  have hne : rowsLeft d g M (1 + c.publicValues.length) z + publicLeft d M (1 + c.publicValues.length) alpha beta z (1 :: y) ≠ 0 := by
    intro h0
    by_cases hy' : y = c.publicValues
    · have hp : publicLeft d M (1 + c.publicValues.length) alpha beta z (1 :: y) = 0 := by
        refine Finset.sum_eq_zero fun j hj => ?_
        rw [h2 j (Finset.mem_range.1 hj), hy', sub_self, Polynomial.C_0, zero_mul]
      rw [hp, add_zero] at h0
      refine hc ⟨h1.1 ((satisfied_iff hS _).2 fun m hm => ?_), hy'⟩
      have := rowsLeft_at hd g hS z (m := m) (by omega)
      rw [h0, Polynomial.eval_zero, dif_pos hm] at this
      exact sub_eq_zero.1 this.symm
    · refine hy' (List.ext_getElem hy fun i hi hi' => ?_)
      have hd4 : M.a.length + (i + 1) < d.size := by omega
      have := congrArg (Polynomial.eval (d.gen ^ (M.a.length + (i + 1)))) h0
      rw [Polynomial.eval_add, rowsLeft_at hd g hS z hd4, dif_neg (by omega), zero_add, publicLeft_at hd hS _ _ _ _ (by omega),
        Polynomial.eval_zero, h2 _ (by omega)] at this
      have := sub_eq_zero.1 ((mul_eq_zero.1 this).resolve_right hβ)
      rw [List.getD_cons_succ, List.getD_cons_succ, List.getD_eq_getElem _ _ hi, List.getD_eq_getElem _ _ hi'] at this
      exact this.symm
  obtain ⟨bad, b1, b2⟩ := few_roots hne (n := 2 * d.size - 2) ((Polynomial.natDegree_add_le _ _).trans (max_le
    (rowsLeft_natDegree hd g M _ z h1d) ((natDegree_le_of hd.pos (lt_of_sub (publicLeft_mem _ _ _ _ _ _ _))).trans (by omega))))
  refine ⟨bad, b1, fun w hw hα hβ' hτ c₀ r s hb => ?_⟩
  obtain ⟨p, h4, h5⟩ := (h3 false (theKey d g1 g2 w M _ _) r s).2 (fun h => by cases h) w hw rfl
  refine ⟨_, p, setupUser_eq hM hd hs g1 g2 hw hb, h4, ?_⟩
  rw [h5 y hy, hα, hβ', ← Polynomial.eval_add, decide_eq_false (b2 _ hτ)]

/-- **C96, number of public values.** The verifier returns an error unless there are as many as the circuit has. -/
theorem C96_arity [DecidableEq GT] (e : G1 →ₗ[Fq] G2 →ₗ[Fq] GT) (g1 : G1) (g2 : G2) (d : Domain Fq) (hd : d.Good)
    (w : Secrets Fq) (hw : w.Usable) (c : UserCircuit 0) (hn : c.NoConstantHash #v[]) (hs : Fits d c) (p : Groth16.Proof G1 G2) (y : List Fq) :
    ∃ pk, setupUser d g1 g2 w c = .ok pk ∧ ((∃ b, verify e pk.vk y p = .ok b) ↔ y.length = c.publicValues.length) ∧
      (y.length ≠ c.publicValues.length → verify e pk.vk y p = .error .unwrapNone) := by
  obtain ⟨M, hM⟩ := user_matrices c hn
  have hl : (theKey d g1 g2 w M (1 + c.publicValues.length) (c.witnesses #v[])).vk.gammaAbcG1.length = 1 + c.publicValues.length := by
    simp [theKey, keyOf]
  have hf : y.length ≠ c.publicValues.length →
      verify e (theKey d g1 g2 w M (1 + c.publicValues.length) (c.witnesses #v[])).vk y p = .error .unwrapNone := by
    intro h
    unfold verify prepareInputs
    rw [hl, if_pos (by omega)]
    rfl
  refine ⟨_, setupUser_eq hM hd hs g1 g2 hw rfl, ⟨?_, fun h => ?_⟩, hf⟩
  · rintro ⟨b, hb⟩
    by_contra h
    rw [hf h] at hb
    cases hb
  · unfold verify prepareInputs
    rw [hl, if_neg (by omega), lget_lt _ (by omega)]
    exact ⟨_, rfl⟩

/-- **C96, zero knowledge.** With `r` and `s` uniform, the proof is distributed as what `simulate` writes down from the public values
and two uniform numbers. -/
theorem C96_zero_knowledge (g1 : G1) (g2 : G2) (d : Domain Fq) (hd : d.Good) (g : Fq) (hg : d.Coset g) (w : Secrets Fq)
    (hw : w.Usable) (c₀ c : UserCircuit 0) (hb : c₀.blank = c.blank) (hn : c.NoConstantHash #v[]) (hne : c.NoConstantEqual #v[])
    (hs : Fits d c) (hc : c.Accepts #v[] c.privateValues c.publicValues) (debug : Bool) :
    ∃ pk, setupUser d g1 g2 w c₀ = .ok pk ∧ ∃ fa fb : Fq → Fq, Function.Bijective fa ∧ Function.Bijective fb ∧ ∀ r s,
      ∃ p, proveUser debug d g pk r s c = .ok p ∧ simulate g1 g2 w pk.vk c.publicValues (fa r) (fb s) = .ok p := by
  obtain ⟨M, hM⟩ := user_matrices c hn
  obtain ⟨aux, h1, -, h2, h3⟩ := proveUser_unfold (G1 := G1) (G2 := G2) hM hne
  have hS := hM.shape hs
  have hbij : ∀ x y : Fq, Function.Bijective fun r : Fq => r * w.delta + x + y := fun x y =>
    Function.bijective_iff_has_inverse.2 ⟨fun a => (a - y - x) * w.delta⁻¹,
      fun r => by simp [hw.2], fun a => by simp [hw.2]⟩
  refine ⟨_, setupUser_eq hM hd hs g1 g2 hw hb,
    fun r => r * w.delta + (rowPolyA d M.a (1 + c.publicValues.length) (1 :: c.publicValues ++ aux)).eval w.tau + w.alpha,
    fun s => s * w.delta + (rowPoly d M.b (1 :: c.publicValues ++ aux)).eval w.tau + w.beta, hbij _ _, hbij _ _, fun r s => ?_⟩
  obtain ⟨h, q1, k, q2, q3⟩ := prove_eq g1 g2 hd hg hS hw r s (x := c.publicValues) (y := aux) (by omega) h1
  obtain ⟨SP, q4, q5⟩ := q3 c.publicValues rfl
  refine ⟨_, by rw [(h3 debug d g _ r s).2 (fun _ => hc), q1, ok_bind, q2], ?_⟩
  have hp : publicLeft d M (1 + c.publicValues.length) w.alpha w.beta (1 :: c.publicValues ++ aux) (1 :: c.publicValues) = 0 := by
    refine Finset.sum_eq_zero fun j hj => ?_
    have := Finset.mem_range.1 hj
    rw [List.getD_append _ _ _ _ (by rw [List.length_cons]; omega), sub_self, Polynomial.C_0, zero_mul]
  rw [rowsLeft_zero hd hg hS (h2.2 hc), hp, Polynomial.eval_zero, add_zero] at q5
  beta_reduce
  generalize r * w.delta + _ + w.alpha = a at q5 ⊢
  generalize s * w.delta + _ + w.beta = b at q5 ⊢
  have hk : w.delta⁻¹ • ((a * b - w.alpha * w.beta) • g1 - w.gamma • ((SP * w.gamma⁻¹) • g1)) = k • g1 := by
    rw [smul_smul, ← sub_smul, smul_smul, mul_comm w.gamma, mul_assoc, inv_mul_cancel₀ hw.1, mul_one,
      (inv_mul_eq_iff_eq_mul₀ hw.2 : _ ↔ _ = w.delta * k).2 (by linear_combination q5)]
  unfold simulate
  rw [q4, ok_bind, hk]
  rfl

/-- **C96, different private values.** Two accepted circuits with the same public values give the same proofs, each for some randomness,
by a bijection of the random choices. -/
theorem C96_indistinguishable (g1 : G1) (g2 : G2) (d : Domain Fq) (hd : d.Good) (g : Fq) (hg : d.Coset g) (w : Secrets Fq)
    (hw : w.Usable) (c₀ c c' : UserCircuit 0) (hb : c₀.blank = c.blank) (hb' : c₀.blank = c'.blank) (hn : c.NoConstantHash #v[])
    (hne : c.NoConstantEqual #v[]) (hs : Fits d c) (hp : c'.publicValues = c.publicValues)
    (hc : c.Accepts #v[] c.privateValues c.publicValues) (hc' : c'.Accepts #v[] c'.privateValues c'.publicValues) (debug : Bool) :
    ∃ pk, setupUser d g1 g2 w c₀ = .ok pk ∧ ∃ f : Fq × Fq → Fq × Fq, Function.Bijective f ∧ ∀ r s,
      ∃ p, proveUser debug d g pk r s c = .ok p ∧ proveUser debug d g pk (f (r, s)).1 (f (r, s)).2 c' = .ok p := by
  have e : c'.blank = c.blank := hb'.symm.trans hb
  obtain ⟨pk, h1, fa, fb, ha, hb, h2⟩ := C96_zero_knowledge g1 g2 d hd g hg w hw c₀ c hb hn hne hs hc debug
  obtain ⟨pk', h1', fa', fb', ha', hb', h2'⟩ := C96_zero_knowledge g1 g2 d hd g hg w hw c₀ c' hb'
    (by rw [← UserCircuit.noConstantHash_blank, e, UserCircuit.noConstantHash_blank]; exact hn)
    (by rw [← UserCircuit.noConstantEqual_blank, e, UserCircuit.noConstantEqual_blank]; exact hne)
    (by unfold Fits; rw [← UserCircuit.constraints_blank, e, UserCircuit.constraints_blank, hp]; exact hs) hc' debug
  rw [h1] at h1'
  cases h1'
  let ea := (Equiv.ofBijective fa ha).trans (Equiv.ofBijective fa' ha').symm
  let eb := (Equiv.ofBijective fb hb).trans (Equiv.ofBijective fb' hb').symm
  refine ⟨pk, h1, fun rs => (ea rs.1, eb rs.2), (Equiv.prodCongr ea eb).bijective, fun r s => ?_⟩
  obtain ⟨p, p1, p2⟩ := h2 r s
  obtain ⟨p', p1', p2'⟩ := h2' (ea r) (eb s)
  have e1 : fa' (ea r) = fa r := Equiv.apply_symm_apply (Equiv.ofBijective fa' ha') _
  have e2 : fb' (eb s) = fb s := Equiv.apply_symm_apply (Equiv.ofBijective fb' hb') _
  rw [e1, e2, hp] at p2'
  rw [p2'] at p2
  cases p2
  exact ⟨p, p1, p1'⟩

/-- The secrets with whose key for `c` a strategy convinces the verifier of the public values `y`. -/
def AcceptsUser [DecidableEq GT] (e : G1 →ₗ[Fq] G2 →ₗ[Fq] GT) (g1 : G1) (g2 : G2) (d : Domain Fq) (c : UserCircuit 0) (k : Strategy Fq)
    (y : List Fq) : Set (Secrets Fq) :=
  {w | w.Usable ∧ ∃ pk, setupUser d g1 g2 w c = .ok pk ∧ verify e pk.vk y (k.proof g1 g2 pk) = .ok true}

/-- **C96, knowledge soundness.** A strategy that convinces the verifier of `y` with more than `(3 * size - 2) * q ^ 4` of the at most `q ^ 5`
secrets contains private values with which the native computation accepts `y`: they are coefficients for points of `l_query` in the
third part of the proof. -/
theorem C96_knowledge [DecidableEq GT] (e : G1 →ₗ[Fq] G2 →ₗ[Fq] GT) (g1 : G1) (g2 : G2) (he : e g1 g2 ≠ 0) (d : Domain Fq) (hd : d.Good)
    (h4 : 4 ≤ d.size) (c : UserCircuit 0) (hn : c.NoConstantHash #v[]) (hne : c.NoConstantEqual #v[]) (hs : Fits d c) (k : Strategy Fq)
    (y : List Fq) (h : (((3 * d.size - 2) * q ^ 4 : Nat) : ENat) < (AcceptsUser e g1 g2 d c k y).encard) :
    c.Accepts #v[] ((c.privateAt #v[] 0).map fun j => k.c.l.getD j 0) y := by
  obtain ⟨M, hM⟩ := user_matrices c hn
  have hS := hM.shape hs
  by_contra hno
  refine absurd h (not_lt.2 ?_)
  by_cases hy : y.length = c.publicValues.length
  swap
  · have : AcceptsUser e g1 g2 d c k y = ∅ := by
      rw [Set.eq_empty_iff_forall_notMem]
      rintro w ⟨hw, pk, h1, h2⟩
      obtain ⟨pk', h1', -, h3⟩ := C96_arity e g1 g2 d hd w hw c hn hs (k.proof g1 g2 pk) y
      rw [h1] at h1'
      cases h1'
      rw [h3 hy] at h2
      cases h2
    rw [this, Set.encard_empty]
    exact bot_le
  have hneq : ((formS d M (1 + c.publicValues.length) (1 :: y)).U + (form1 d M (1 + c.publicValues.length) (c.witnesses #v[]) k.c).lU) *
      ((formS d M (1 + c.publicValues.length) (1 :: y)).V + (form1 d M (1 + c.publicValues.length) (c.witnesses #v[]) k.c).lV) ≠
      (formS d M (1 + c.publicValues.length) (1 :: y)).W + (form1 d M (1 + c.publicValues.length) (c.witnesses #v[]) k.c).h := by
    intro h0
    have hsat := strategy_satisfied hd hS k (x := y) (by omega) h0
    have := hM.extract hne _ rfl hsat
    refine hno ?_
    convert this using 1
    · refine List.map_congr_left fun j hj => ?_
      have hj := UserCircuit.privateAt_lt c _ _ j hj
      rw [Nat.zero_add] at hj
      unfold Strategy.assignment
      rw [List.getD_append_right _ _ _ _ (by simp; omega), List.length_cons, hy, Nat.add_comm 1, Nat.add_sub_cancel_left]
      exact (List.getD_eq_getElem ((List.range _).map fun j => k.c.l.getD j 0) 0 (by simpa using hj)).trans (by simp) |>.symm
    · refine List.ext_getElem (by simp [hy]) fun i hi hi' => ?_
      rw [List.getElem_map, List.getElem_range]
      unfold Strategy.assignment
      rw [List.getD_append _ _ _ _ (by simp; omega), Nat.add_comm 1, List.getD_cons_succ, List.getD_eq_getElem _ _ hi]
  refine equation_few' (ZMod.card q) h4 (form1_small hd (by omega) M (1 + c.publicValues.length) (c.witnesses #v[]) k.a)
    (form2_small hd M (1 + c.publicValues.length) (c.witnesses #v[]) k.b) (form1_small hd (by omega) M _ _ k.c)
    (formS_small hd M _ (1 :: y)) hneq ?_
  rintro w ⟨hw, pk, h1, h2⟩
  rw [setupUser_eq hM hd hs g1 g2 hw rfl] at h1
  cases h1
  rw [strategy_verify e he hd hS hw k (by omega)] at h2
  exact of_decide_eq_true (Except.ok.inj h2)

/-- **C96, soundness.** If the native computation rejects the public values `y` for all private values, then every strategy convinces the
verifier with at most `(3 * size - 2) * q ^ 4` secrets. -/
theorem C96_sound [DecidableEq GT] (e : G1 →ₗ[Fq] G2 →ₗ[Fq] GT) (g1 : G1) (g2 : G2) (he : e g1 g2 ≠ 0) (d : Domain Fq) (hd : d.Good)
    (h4 : 4 ≤ d.size) (c : UserCircuit 0) (hn : c.NoConstantHash #v[]) (hne : c.NoConstantEqual #v[]) (hs : Fits d c) (k : Strategy Fq)
    (y : List Fq) (hy : ∀ w, ¬ c.Accepts #v[] w y) :
    (AcceptsUser e g1 g2 d c k y).encard ≤ ((3 * d.size - 2) * q ^ 4 : Nat) := by
  by_contra h
  exact hy _ (C96_knowledge e g1 g2 he d hd h4 c hn hne hs k y (not_le.1 h))

/-- **C96, the algorithm is a strategy.** What the prover does is a strategy that convinces the verifier with all secrets; it contains
the private values of the circuit. -/
theorem C96_honest [DecidableEq GT] (e : G1 →ₗ[Fq] G2 →ₗ[Fq] GT) (g1 : G1) (g2 : G2) (he : e g1 g2 ≠ 0) (d : Domain Fq) (hd : d.Good)
    (g : Fq) (hg : d.Coset g) (c : UserCircuit 0) (hn : c.NoConstantHash #v[]) (hne : c.NoConstantEqual #v[]) (hs : Fits d c)
    (hc : c.Accepts #v[] c.privateValues c.publicValues) (r s : Fq) :
    ∃ k : Strategy Fq, AcceptsUser e g1 g2 d c k c.publicValues = {w | w.Usable} ∧
      ((c.privateAt #v[] 0).map fun j => k.c.l.getD j 0) = c.privateValues ∧
      ∀ (w : Secrets Fq) (c₀ : UserCircuit 0) (debug : Bool) (pk : ProvingKey G1 G2), c₀.blank = c.blank →
        setupUser d g1 g2 w c₀ = .ok pk → proveUser debug d g pk r s c = .ok (k.proof g1 g2 pk) := by
  obtain ⟨M, hM⟩ := user_matrices c hn
  have hS := hM.shape hs
  obtain ⟨aux, h1, h1', h2, h3⟩ := proveUser_unfold (G1 := G1) (G2 := G2) hM hne
  have hv : d.vanishing g ≠ 0 := by rw [hd.vanishing_eq]; exact sub_ne_zero.2 hg.2
  have hl : (1 :: c.publicValues ++ aux).length = 1 + c.publicValues.length + c.witnesses #v[] := by simp [h1]; omega
  obtain ⟨h, h4, -⟩ := witnessMap_eq (ni := 1 + c.publicValues.length) (M := M) (z := 1 :: c.publicValues ++ aux) hv (hl ▸ hS.a) (hl ▸ hS.b)
    (hl ▸ hS.c)
  have key : ∀ (w : Secrets Fq) (c₀ : UserCircuit 0) (debug : Bool) (pk : ProvingKey G1 G2), c₀.blank = c.blank →
      setupUser d g1 g2 w c₀ = .ok pk →
      proveUser debug d g pk r s c = .ok ((honest r s h c.publicValues aux).proof g1 g2 pk) := by
    intro w c₀ debug pk hb hpk
    have hw : w.Usable := by
      by_contra hw
      obtain ⟨p, hp⟩ := C96_setup_fails d hd g1 g2 w c₀ (by
        unfold Fits
        rw [← UserCircuit.constraints_blank, ← UserCircuit.publics_blank, hb, UserCircuit.constraints_blank, UserCircuit.publics_blank]
        exact hs) fun h => hw h.2
      rw [hp] at hpk
      cases hpk
    rw [setupUser_eq hM hd hs g1 g2 hw hb] at hpk
    cases hpk
    rw [(h3 debug d g _ r s).2 fun _ => hc, h4, ok_bind]
    refine createProof_honest ?_ ?_ ?_ r s h _ aux
    all_goals
      intro h0
      have := congrArg List.length h0
      simp [theKey, keyOf] at this
  refine ⟨honest r s h c.publicValues aux, Set.ext fun w => ⟨fun h => h.1, fun hw => ⟨hw, ?_⟩⟩, h1', key⟩
  obtain ⟨pk, p, k1, k2, k3⟩ := C96_complete e g1 g2 he d hd g hg w hw c c rfl hn hne hs hc true r s
  rw [key w c true pk rfl k1] at k2
  cases k2
  exact ⟨pk, k1, k3⟩

/-- **C96, the circuit of the test-suite.** For it, these are the key generation and the prover of C87, C88 and C89. -/
theorem C96_preimage (d : Domain Fq) (g1 : G1) (g2 : G2) (w : Secrets Fq) (c : R1cs.PreimageCircuit) :
    setupUser d g1 g2 w (preimageUser c) = setup d g1 g2 w c ∧
    ∀ (debug : Bool) (g : Fq) (pk : ProvingKey G1 G2) (r s : Fq),
      proveUser debug d g pk r s (preimageUser c) = prove debug d g pk r s c := by
  have key : ∀ s, ∃ cs cs', Sym.generateConstraints c (Sym.CS.new Fq s) = .ok cs ∧
      (preimageUser c).synthesize #v[] (Sym.CS.new Fq s) = .ok cs' ∧ cs'.toMatrices = cs.toMatrices ∧ cs'.lower = cs.lower := by
    intro s
    obtain ⟨cs, M, h1, -⟩ := C85_preimage_matrices c s
    obtain ⟨hs, h2⟩ := preimage_low h1
    rw [← C95_preimage] at h2
    obtain ⟨cs', h3, hs', h4⟩ := Sym.user_run h2
    refine ⟨cs, cs', h1, h3, matrices_same hs' hs (by rw [h4]) (congrArg (·.numInstance) h4) (congrArg (·.numWitness) h4), h4⟩
  constructor
  · obtain ⟨cs, cs', h1, h2, h3, h4⟩ := key true
    have e1 : cs'.numInstance = cs.numInstance := congrArg (·.numInstance) h4
    have e2 : cs'.numWitness = cs.numWitness := congrArg (·.numWitness) h4
    unfold setupUser setup
    rw [h1, h2, ok_bind, ok_bind, h3, e1, e2]
  · intro debug g pk r s
    obtain ⟨cs, cs', h1, h2, h3, h4⟩ := key false
    have e1 : cs'.numInstance = cs.numInstance := congrArg (·.numInstance) h4
    have e2 : cs'.instanceAssignment = cs.instanceAssignment := congrArg (·.instanceAssignment) h4
    have e3 : cs'.witnessAssignment = cs.witnessAssignment := congrArg (·.witnessAssignment) h4
    unfold proveUser prove
    rw [h1, h2, ok_bind, ok_bind, h3, e1, e2, e3]

/-! ### Two examples: chains of hashes and paths in a tree -/

theorem chainFrom_blank (y : Fq) (k : Nat) : ∀ {n : Nat} (d last : Fin n), (chainFrom y k d last).blank = chainFrom 0 k d last := by
  induction k with
  | zero => intro n d last; rfl
  | succ k ih => intro n d last; rw [chainFrom, UserCircuit.blank, ih]; rfl

theorem chainFrom_privateAt (y : Fq) (k : Nat) : ∀ {n : Nat} (d last : Fin n) (b : Vector Bool n) (s : Nat),
    (chainFrom y k d last).privateAt b s = [] := by
  induction k with
  | zero => intro n d last b s; rfl
  | succ k ih => intro n d last b s; exact ih _ _ _ _

theorem chainFrom_privateValues (y : Fq) (k : Nat) : ∀ {n : Nat} (d last : Fin n), (chainFrom y k d last).privateValues = [] := by
  induction k with
  | zero => intro n d last; rfl
  | succ k ih => intro n d last; exact ih _ _

theorem chainFrom_constraints (y : Fq) (k : Nat) : ∀ {n : Nat} (d last : Fin n) (b : Vector Bool n), b[d] = false → b[last] = true →
    (chainFrom y k d last).constraints b = 230 * k + 1 := by
  induction k with
  | zero =>
    intro n d last b hd hl
    have : (b.push true)[Fin.last n] = true := Vector.getElem_push_eq
    rw [chainFrom, UserCircuit.constraints, UserCircuit.constraints, this]
    rfl
  | succ k ih =>
    intro n d last b hd hl
    rw [chainFrom, UserCircuit.constraints, ih]
    · have : UserCircuit.hashCost 0 #v[d, last] b = 230 := by
        have h : (#v[d, last] : Vector (Fin n) 2).toList.countP (fun j => b[j]) = 1 := by
          simp only [Vector.toList_mk, List.countP_cons, List.countP_nil, hd, hl]
          rfl
        unfold UserCircuit.hashCost
        rw [h]
        rfl
      rw [this]
      ring
    · show (b.push true)[d.val] = false
      rw [Vector.getElem_push_lt d.isLt]; exact hd
    · exact Vector.getElem_push_eq

theorem chain_accepts (k : Nat) (ds x y : Fq) (v z : List Fq) :
    (chain k ds x y).Accepts #v[] v z ↔ ∃ a b, v = [a] ∧ z = [b] ∧ hashTimes ds k a = .ok b := by
  show (∃ x w', v = x :: w' ∧ (chainFrom y k 0 1).Accepts (((#v[] : Vector Fq 0).push ds).push x) w' z) ↔ _
  constructor
  · rintro ⟨a, w', rfl, ha⟩
    obtain ⟨b, rfl, rfl, h⟩ := (chainFrom_accepts y ds k _ _ _ _ _ rfl).1 ha
    exact ⟨a, b, rfl, rfl, h⟩
  · rintro ⟨a, b, rfl, rfl, h⟩
    exact ⟨a, [], rfl, (chainFrom_accepts y ds k _ _ _ _ _ rfl).2 ⟨b, rfl, rfl, h⟩⟩

theorem chain_fits {k : Nat} {d : Domain Fq} (h : 230 * k + 3 ≤ d.size) (ds x y : Fq) : Fits d (chain k ds x y) := by
  have e1 : (chain k ds x y).publicValues = [y] := chainFrom_publics y k _ _
  have e2 : (chain k ds x y).constraints #v[] = 230 * k + 1 := chainFrom_constraints y k _ _ _ rfl rfl
  unfold Fits
  rw [e1, e2]
  exact h

/-- **C96, chains.** Proofs of knowledge of an `x` whose `k`-fold hash is `y`, for every length `k`: the key depends on `k` and the domain separator
only; the proof for the `k`-fold hash of `x` is accepted; a strategy that convinces the verifier of `y` with too many secrets contains such
an `x`, as its first coefficient for `l_query`. -/
theorem C96_chain [DecidableEq GT] (e : G1 →ₗ[Fq] G2 →ₗ[Fq] GT) (g1 : G1) (g2 : G2) (he : e g1 g2 ≠ 0) (d : Domain Fq) (hd : d.Good)
    (k : Nat) (hs : 230 * k + 3 ≤ d.size) (h4 : 4 ≤ d.size) (g : Fq) (hg : d.Coset g) (ds : Fq) :
    (∀ w : Secrets Fq, w.Usable → ∃ pk, (∀ x₀ y₀, setupUser d g1 g2 w (chain k ds x₀ y₀) = .ok pk) ∧
      ∀ x y, hashTimes ds k x = .ok y → ∀ r s, ∃ p, proveUser true d g pk r s (chain k ds x y) = .ok p ∧ verify e pk.vk [y] p = .ok true) ∧
    ∀ (S : Strategy Fq) (x₀ y₀ y : Fq), (((3 * d.size - 2) * q ^ 4 : Nat) : ENat) < (AcceptsUser e g1 g2 d (chain k ds x₀ y₀) S [y]).encard →
      hashTimes ds k (S.c.l.getD 0 0) = .ok y := by
  have hn : ∀ x y, (chain k ds x y).NoConstantHash #v[] := fun x y => chainFrom_noHash y k _ _ _ rfl
  have hne : ∀ x y, (chain k ds x y).NoConstantEqual #v[] := fun x y => chainFrom_noEqual y k _ _ _
  have hb : ∀ x y x' y', (chain k ds x y).blank = (chain k ds x' y').blank := by
    intro x y x' y'
    simp only [chain, UserCircuit.blank, chainFrom_blank]
  have hpub : ∀ x y, (chain k ds x y).publicValues = [y] := fun x y => chainFrom_publics y k _ _
  constructor
  · intro w hw
    obtain ⟨pk, hpk⟩ := C96_setup d hd g1 g2 w hw _ (hn 0 0) (chain_fits hs _ _ _)
    refine ⟨pk, fun x₀ y₀ => hpk _ (hb ..), fun x y hxy r s => ?_⟩
    have hpriv : (chain k ds x y).privateValues = [x] := congrArg (x :: ·) (chainFrom_privateValues y k _ _)
    have hacc : (chain k ds x y).Accepts #v[] (chain k ds x y).privateValues (chain k ds x y).publicValues := by
      rw [hpriv, hpub]
      exact (chain_accepts k ds x y _ _).2 ⟨x, y, rfl, rfl, hxy⟩
    obtain ⟨pk', p, h1, h2, h3⟩ := C96_complete e g1 g2 he d hd g hg w hw (chain k ds 0 0) _ (hb 0 0 x y) (hn x y) (hne x y)
      (chain_fits hs _ _ _) hacc true r s
    rw [hpk _ (hb ..)] at h1
    cases h1
    rw [hpub] at h3
    exact ⟨p, h2, h3⟩
  · intro S x₀ y₀ y h
    have := C96_knowledge e g1 g2 he d hd h4 _ (hn x₀ y₀) (hne x₀ y₀) (chain_fits hs _ _ _) S [y] h
    have e1 : (chain k ds x₀ y₀).privateAt #v[] 0 = [0] := congrArg (0 :: ·) (chainFrom_privateAt y₀ k _ _ _ _)
    rw [e1, chain_accepts] at this
    obtain ⟨a, b, h1, h2, h3⟩ := this
    cases h1
    cases h2
    exact h3

theorem pathFrom_blank (y : Fq) (l : TreePath) : ∀ (y' : Fq) (l' : TreePath), l'.map Prod.fst = l.map Prod.fst → ∀ {n : Nat} (d node : Fin n),
    (pathFrom y l d node).blank = (pathFrom y' l' d node).blank := by
  induction l with
  | nil =>
    intro y' l' h n d node
    rw [List.map_nil, List.map_eq_nil_iff] at h
    subst h
    rfl
  | cons s l ih =>
    intro y' l' h n d node
    obtain ⟨p, a, b, c⟩ := s
    match l', h with
    | (p', a', b', c') :: l', h =>
      rw [List.map_cons, List.map_cons, List.cons.injEq] at h
      obtain ⟨h1, h2⟩ := h
      dsimp only at h1
      subst h1
      simp only [pathFrom, UserCircuit.blank]
      rw [ih y' l' h2]

theorem pathFrom_privateValues (y : Fq) (l : TreePath) : ∀ {n : Nat} (d node : Fin n),
    (pathFrom y l d node).privateValues = l.flatMap (fun s => [s.2.1, s.2.2.1, s.2.2.2]) := by
  induction l with
  | nil => intro n d node; rfl
  | cons s l ih =>
    intro n d node
    obtain ⟨p, a, b, c⟩ := s
    simp only [pathFrom, UserCircuit.privateValues, ih]
    rfl

theorem hashCost_place {n : Nat} (p : Fin 4) (d x a b c : Fin n) (k : Vector Bool n) (hd : k[d] = false) (hx : k[x] = true) (ha : k[a] = true)
    (hb : k[b] = true) (hc : k[c] = true) : UserCircuit.hashCost 3 (place p d x a b c) k = 350 := by
  have h : (place p d x a b c).toList.countP (fun j => k[j]) = 4 := by
    unfold place
    split <;> simp only [Vector.toList_mk, List.countP_cons, List.countP_nil, hd, hx, ha, hb, hc] <;> rfl
  unfold UserCircuit.hashCost
  rw [h]
  rfl

theorem pathFrom_constraints (y : Fq) (l : TreePath) : ∀ {n : Nat} (d node : Fin n) (b : Vector Bool n), b[d] = false → b[node] = true →
    (pathFrom y l d node).constraints b = 350 * l.length + 1 := by
  induction l with
  | nil =>
    intro n d node b hd hl
    have : (b.push true)[Fin.last n] = true := Vector.getElem_push_eq
    rw [pathFrom, UserCircuit.constraints, UserCircuit.constraints, this]
    rfl
  | cons s l ih =>
    intro n d node b hd hl
    obtain ⟨p, x1, x2, x3⟩ := s
    simp only [pathFrom, UserCircuit.constraints]
    have k0 : ∀ j : Fin n, (((b.push true).push true).push true)[j.castAdd 3] = b[j] := by
      intro j
      show (((b.push true).push true).push true)[j.val] = b[j.val]
      rw [Vector.getElem_push_lt (by omega), Vector.getElem_push_lt (by omega), Vector.getElem_push_lt (by omega)]
    have k1 : (((b.push true).push true).push true)[n] = true := by
      rw [Vector.getElem_push_lt (by omega), Vector.getElem_push_lt (by omega), Vector.getElem_push_eq]
    have k2 : (((b.push true).push true).push true)[n + 1] = true := by
      rw [Vector.getElem_push_lt (by omega), Vector.getElem_push_eq]
    have k3 : (((b.push true).push true).push true)[n + 2] = true := Vector.getElem_push_eq
    rw [hashCost_place _ _ _ _ _ _ _ ((k0 d).trans hd) ((k0 node).trans hl) k1 k2 k3, ih]
    · rw [List.length_cons]
      ring
    · show ((((b.push true).push true).push true).push true)[d.val] = false
      rw [Vector.getElem_push_lt (by omega)]
      exact (k0 d).trans hd
    · exact Vector.getElem_push_eq

theorem path_accepts (l : TreePath) (ds leaf y : Fq) (v z : List Fq) :
    (path l ds leaf y).Accepts #v[] v z ↔ ∃ (l' : TreePath) (a b : Fq), l'.map Prod.fst = l.map Prod.fst ∧
      v = a :: l'.flatMap (fun s => [s.2.1, s.2.2.1, s.2.2.2]) ∧ z = [b] ∧ rootAbove ds l' a = .ok b := by
  show (∃ x w', v = x :: w' ∧ (pathFrom y l 0 1).Accepts (((#v[] : Vector Fq 0).push ds).push x) w' z) ↔ _
  constructor
  · rintro ⟨a, w', rfl, ha⟩
    obtain ⟨l', b, e1, rfl, rfl, h⟩ := (pathFrom_accepts y ds l _ _ _ _ _ rfl).1 ha
    exact ⟨l', a, b, e1, rfl, rfl, h⟩
  · rintro ⟨l', a, b, e1, rfl, rfl, h⟩
    exact ⟨a, _, rfl, (pathFrom_accepts y ds l _ _ _ _ _ rfl).2 ⟨l', b, e1, rfl, rfl, h⟩⟩

theorem path_fits {l : TreePath} {d : Domain Fq} (h : 350 * l.length + 3 ≤ d.size) (ds x y : Fq) : Fits d (path l ds x y) := by
  have e1 : (path l ds x y).publicValues = [y] := pathFrom_publics y l _ _
  have e2 : (path l ds x y).constraints #v[] = 350 * l.length + 1 := pathFrom_constraints y l _ _ _ rfl rfl
  unfold Fits
  rw [e1, e2]
  exact h

/-- **C96, paths.** Proofs of membership in a tree of any depth: the key depends on the positions and the domain separator only; the proof for a leaf
and siblings is accepted for their root; a strategy that convinces the verifier of the root `y` with too many secrets contains a leaf (its
first coefficient for `l_query`) and siblings at these positions for this root. -/
theorem C96_path [DecidableEq GT] (e : G1 →ₗ[Fq] G2 →ₗ[Fq] GT) (g1 : G1) (g2 : G2) (he : e g1 g2 ≠ 0) (d : Domain Fq) (hd : d.Good)
    (positions : List (Fin 4)) (hs : 350 * positions.length + 3 ≤ d.size) (h4 : 4 ≤ d.size) (g : Fq) (hg : d.Coset g) (ds : Fq) :
    (∀ w : Secrets Fq, w.Usable → ∃ pk, (∀ l x₀ y₀, l.map Prod.fst = positions → setupUser d g1 g2 w (path l ds x₀ y₀) = .ok pk) ∧
      ∀ l leaf y, l.map Prod.fst = positions → rootAbove ds l leaf = .ok y → ∀ r s, ∃ p,
        proveUser true d g pk r s (path l ds leaf y) = .ok p ∧ verify e pk.vk [y] p = .ok true) ∧
    ∀ (S : Strategy Fq) (l₀ : TreePath) (x₀ y₀ y : Fq), l₀.map Prod.fst = positions →
      (((3 * d.size - 2) * q ^ 4 : Nat) : ENat) < (AcceptsUser e g1 g2 d (path l₀ ds x₀ y₀) S [y]).encard →
      ∃ l : TreePath, l.map Prod.fst = positions ∧ rootAbove ds l (S.c.l.getD 0 0) = .ok y ∧
        ∀ s ∈ l, s.2.1 ∈ 0 :: S.c.l ∧ s.2.2.1 ∈ 0 :: S.c.l ∧ s.2.2.2 ∈ 0 :: S.c.l := by
  have hn : ∀ l x y, (path l ds x y).NoConstantHash #v[] := fun l x y => pathFrom_noHash y l _ _ _
  have hne : ∀ l x y, (path l ds x y).NoConstantEqual #v[] := fun l x y => pathFrom_noEqual y l _ _ _
  have hb : ∀ l l' x y x' y', l.map Prod.fst = positions → l'.map Prod.fst = positions →
      (path l ds x y).blank = (path l' ds x' y').blank := by
    intro l l' x y x' y' h h'
    simp only [path, UserCircuit.blank]
    rw [pathFrom_blank y l y' l' (h'.trans h.symm)]
  have hpub : ∀ l x y, (path l ds x y).publicValues = [y] := fun l x y => pathFrom_publics y l _ _
  have hlen : ∀ l : TreePath, l.map Prod.fst = positions → 350 * l.length + 3 ≤ d.size := by
    intro l h
    rw [← h, List.length_map] at hs
    exact hs
  constructor
  · intro w hw
    have h0 : (positions.map fun p => (p, (0 : Fq), (0 : Fq), (0 : Fq))).map Prod.fst = positions := by
      rw [List.map_map]
      exact List.map_id' _
    obtain ⟨pk, hpk⟩ := C96_setup d hd g1 g2 w hw (path (positions.map fun p => (p, (0 : Fq), (0 : Fq), (0 : Fq))) ds 0 0) (hn _ 0 0)
      (path_fits (hlen _ h0) _ _ _)
    refine ⟨pk, fun l x₀ y₀ h => hpk _ (hb _ _ _ _ _ _ h h0), fun l x y hl hxy r s => ?_⟩
    have hpriv : (path l ds x y).privateValues = x :: l.flatMap (fun s => [s.2.1, s.2.2.1, s.2.2.2]) :=
      congrArg (x :: ·) (pathFrom_privateValues y l _ _)
    have hacc : (path l ds x y).Accepts #v[] (path l ds x y).privateValues (path l ds x y).publicValues := by
      rw [hpriv, hpub]
      exact (path_accepts l ds x y _ _).2 ⟨l, x, y, rfl, rfl, rfl, hxy⟩
    obtain ⟨pk', p, h1, h2, h3⟩ := C96_complete e g1 g2 he d hd g hg w hw _ _ (hb _ l 0 0 x y h0 hl) (hn l x y) (hne l x y)
      (path_fits (hlen l hl) _ _ _) hacc true r s
    rw [hpk _ rfl] at h1
    cases h1
    rw [hpub] at h3
    exact ⟨p, h2, h3⟩
  · intro S l₀ x₀ y₀ y hl h
    have := C96_knowledge e g1 g2 he d hd h4 _ (hn l₀ x₀ y₀) (hne l₀ x₀ y₀) (path_fits (hlen _ hl) _ _ _) S [y] h
    obtain ⟨l, a, b, h1, h2, h3, h5⟩ := (path_accepts l₀ ds x₀ y₀ _ _).1 this
    cases h3
    have e1 : (path l₀ ds x₀ y₀).privateAt #v[] 0 = 0 :: (pathFrom y₀ l₀ 0 1).privateAt #v[false, true] 1 := rfl
    rw [e1, List.map_cons, List.cons.injEq] at h2
    obtain ⟨rfl, h2⟩ := h2
    refine ⟨l, h1.trans hl, h5, fun s hs => ?_⟩
    have mem : ∀ x ∈ l.flatMap (fun s => [s.2.1, s.2.2.1, s.2.2.2]), x ∈ 0 :: S.c.l := by
      intro x hx
      rw [← h2] at hx
      obtain ⟨j, -, rfl⟩ := List.mem_map.1 hx
      by_cases hj : j < S.c.l.length
      · rw [List.getD_eq_getElem _ _ hj]
        exact List.mem_cons_of_mem _ (List.getElem_mem _)
      · rw [List.getD_eq_default _ _ (by omega)]
        exact List.mem_cons_self
    refine ⟨mem _ ?_, mem _ ?_, mem _ ?_⟩ <;> exact List.mem_flatMap.2 ⟨s, hs, by simp⟩

/-! ### The hypotheses are met -/

theorem hashTimes_total (ds : Fq) (k : Nat) : ∀ x, ∃ y, hashTimes ds k x = .ok y := by
  induction k with
  | zero => exact fun x => ⟨x, rfl⟩
  | succ k ih =>
    intro x
    obtain ⟨z, hz⟩ := C03_hash_1_total ds x
    obtain ⟨y, hy⟩ := ih z
    exact ⟨y, by rw [hashTimes, hz]; exact hy⟩

/-- Chains of 17 hashes with the domain of the library for 4096 points: a circuit, values, a key and a proof. -/
example (w : Secrets Fq) (hw : w.Usable) (ds x : Fq) : ∃ y pk p, hashTimes ds 17 x = .ok y ∧
    setupUser domain4096 (1 : Fq) (1 : Fq) w (chain 17 ds 0 0) = .ok pk ∧
    proveUser true domain4096 (22 : Nat) pk 17 19 (chain 17 ds x y) = .ok p ∧ verify (LinearMap.mul Fq Fq) pk.vk [y] p = .ok true := by
  obtain ⟨y, hy⟩ := hashTimes_total ds 17 x
  obtain ⟨pk, h1, h2⟩ := (C96_chain (LinearMap.mul Fq Fq) 1 1 (by simp) domain4096 domain4096_good 17 (by decide) (by decide) _ coset22 ds).1 w hw
  obtain ⟨p, h3, h4⟩ := h2 x y hy 17 19
  exact ⟨y, pk, p, hy, h1 0 0, h3, h4⟩

/-- A strategy that convinces the verifier with enough secrets. -/
example (ds x : Fq) : ∃ y S, hashTimes ds 17 x = .ok y ∧ (((3 * domain4096.size - 2) * q ^ 4 : Nat) : ENat) <
    (AcceptsUser (LinearMap.mul Fq Fq) 1 1 domain4096 (chain 17 ds x y) S [y]).encard := by
  obtain ⟨y, hy⟩ := hashTimes_total ds 17 x
  have e1 : (chain 17 ds x y).publicValues = [y] := chainFrom_publics y 17 _ _
  have e2 : (chain 17 ds x y).privateValues = [x] := congrArg (x :: ·) (chainFrom_privateValues y 17 _ _)
  obtain ⟨S, h1, -⟩ := C96_honest (LinearMap.mul Fq Fq) 1 1 (by simp) domain4096 domain4096_good _ coset22 (chain 17 ds x y)
    (chainFrom_noHash y 17 _ _ _ rfl) (chainFrom_noEqual y 17 _ _ _) (chain_fits (by decide) _ _ _)
    (by rw [e1, e2]; exact (chain_accepts 17 ds x y _ _).2 ⟨x, y, rfl, rfl, hy⟩) 17 19
  refine ⟨y, S, hy, ?_⟩
  rw [e1] at h1
  rw [h1, usable_encard, Nat.cast_lt]
  exact bound_lt q (3 * domain4096.size - 2) (by decide +kernel) (by decide +kernel)

/-- A leaf with two levels of siblings, its root, a key and a proof. -/
example (w : Secrets Fq) (hw : w.Usable) (ds leaf a b : Fq) : ∃ y pk p, rootAbove ds [(1, a, b, 3), (3, 4, a, b)] leaf = .ok y ∧
    setupUser domain4096 (1 : Fq) (1 : Fq) w (path [(1, 0, 0, 0), (3, 0, 0, 0)] ds 0 0) = .ok pk ∧
    proveUser true domain4096 (22 : Nat) pk 17 19 (path [(1, a, b, 3), (3, 4, a, b)] ds leaf y) = .ok p ∧
    verify (LinearMap.mul Fq Fq) pk.vk [y] p = .ok true := by
  obtain ⟨z, hz⟩ := C03_hash_4_total ds (a, leaf, b, 3)
  obtain ⟨y, hy⟩ := C03_hash_4_total ds (4, a, b, z)
  have hroot : rootAbove ds [(1, a, b, 3), (3, 4, a, b)] leaf = .ok y := by
    show (do let x ← hash4 ds (a, leaf, b, 3); (do let x ← hash4 ds (4, a, b, x); Except.ok x)) = _
    rw [hz, ok_bind, hy, ok_bind]
  obtain ⟨pk, h1, h2⟩ := (C96_path (LinearMap.mul Fq Fq) 1 1 (by simp) domain4096 domain4096_good [1, 3] (by decide) (by decide) _ coset22 ds).1
    w hw
  obtain ⟨p, h3, h4⟩ := h2 [(1, a, b, 3), (3, 4, a, b)] leaf y rfl hroot 17 19
  exact ⟨y, pk, p, hroot, h1 _ 0 0 rfl, h3, h4⟩

/-- A circuit whose values the native computation rejects, and one that cannot be synthesized. -/
example : ¬ (chain 0 5 1 2).Accepts #v[] (chain 0 5 1 2).privateValues (chain 0 5 1 2).publicValues := by
  rw [chain_accepts]
  rintro ⟨a, b, h1, h2, h3⟩
  cases h1
  cases h2
  exact absurd (Except.ok.inj h3) (by decide +kernel)

example : ¬ (UserCircuit.constant 1 (.hash 0 #v[0, 0] .done) : UserCircuit 0).NoConstantHash #v[] := by
  rintro ⟨⟨j, -, h⟩, -⟩
  fin_cases j
  cases h

end Poseidon
