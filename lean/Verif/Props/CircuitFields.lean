import Verif.Proofs.CircuitFields
import Verif.Props.CircuitState
import Verif.Props.RandomConstants

/-!
# C115: an `InstanceVar` with any parameters, and all of its fields changing

The theorems are about runs on one instance in the course of which words are changed, parameters and constraint-system reference
are replaced, and the permutation is called, in any order and number, for parameter sets of any size.
-/

namespace Poseidon

open R1cs

variable {t k nmds nhat rows nround npart : Nat}

theorem runInstance_cons {c : InstanceCall (FpVar Fq) t k nmds nhat rows t nround npart}
    {calls : List (InstanceCall (FpVar Fq) t k nmds nhat rows t nround npart)} {st r : InstanceVar t k nmds nhat rows t nround npart × CS Fq}
    (h : runInstance (c :: calls) st = .ok r) : ∃ st1, c.run st = .ok st1 ∧ runInstance calls st1 = .ok r := by
  unfold runInstance at h
  rw [forList] at h
  cases hc : c.run st with
  | error e => rw [hc] at h; cases h
  | ok st1 => rw [hc] at h; exact ⟨st1, rfl, h⟩

theorem run_words_ok {c : WordCall (FpVar Fq)} {I I' : InstanceVar t k nmds nhat rows t nround npart} {cs cs' : CS Fq}
    (h : (InstanceCall.words c).run (I, cs) = .ok (I', cs')) :
    c.run I.parameters (I.stateWords, cs) = .ok (I'.stateWords, cs') ∧ I'.parameters = I.parameters ∧ I'.cs = I.cs := by
  unfold InstanceCall.run at h
  dsimp only at h
  cases hr : c.run I.parameters (I.stateWords, cs) with
  | error e => rw [hr] at h; cases h
  | ok r => rw [hr] at h; cases h; exact ⟨rfl, rfl, rfl⟩

theorem run_words_eq {c : WordCall (FpVar Fq)} {I : InstanceVar t k nmds nhat rows t nround npart} {s : List (FpVar Fq)} {cs cs' : CS Fq}
    (h : c.run I.parameters (I.stateWords, cs) = .ok (s, cs')) :
    (InstanceCall.words c).run (I, cs) = .ok ({ I with stateWords := s }, cs') := by
  unfold InstanceCall.run
  dsimp only
  rw [h]
  rfl

theorem runInstance_grows : ∀ (calls : List (InstanceCall (FpVar Fq) t k nmds nhat rows t nround npart))
    (I I' : InstanceVar t k nmds nhat rows t nround npart) (cs cs' : CS Fq),
    runInstance calls (I, cs) = .ok (I', cs') → KnownAll cs I.stateWords → (∀ c ∈ calls, KnownAll cs c.args) →
    Grows cs cs' ∧ KnownAll cs' I'.stateWords := by
  intro calls
  induction calls with
  | nil => intro I I' cs cs' h hs _; cases h; exact ⟨.refl, hs⟩
  | cons c calls ih =>
    intro I I' cs cs' h hs hc
    obtain ⟨⟨I1, cs1⟩, h1, h2⟩ := runInstance_cons h
    obtain ⟨g1, g2⟩ : Grows cs cs1 ∧ KnownAll cs1 I1.stateWords := by
      cases c with
      | words c => exact step_growsIn I.parameters (run_words_ok h1).1 hs (hc (.words c) (by simp))
      | parameters q => cases h1; exact ⟨.refl, hs⟩
      | cs c => cases h1; exact ⟨.refl, hs⟩
    obtain ⟨g3, g4⟩ := ih I1 I' cs1 cs' h2 g2 fun c h => (hc c (by simp [h])).mono g1
    exact ⟨g1.trans g3, g4⟩

/-- The parameters after a step, sensible if those before it and those it brings are. -/
theorem step_sensible {c : InstanceCall (FpVar Fq) t k nmds nhat rows t nround npart} {I I' : InstanceVar t k nmds nhat rows t nround npart}
    {cs cs' : CS Fq} (h : c.run (I, cs) = .ok (I', cs')) {Q : Params Fq t k nmds nhat rows t nround npart → Prop} (hp : Q I.parameters)
    (hq : ∀ q ∈ c.newParams, Q q) : Q I'.parameters := by
  cases c with
  | words c => rw [(run_words_ok h).2.1]; exact hp
  | parameters q => cases h; exact hq q (by simp [InstanceCall.newParams])
  | cs c => cases h; exact hp

/-- **C115, soundness.** Whatever assignment satisfies the constraints, the words of the instance have the values that the same
steps give natively, each permutation being the native one, without optimizations, for the parameters of its time. -/
theorem C115_sound (ht : 2 ≤ t) (hm : nmds = t * t) (ha : nround = rows * t)
    (calls : List (InstanceCall (FpVar Fq) t k nmds nhat rows t nround npart)) (I I' : InstanceVar t k nmds nhat rows t nround npart)
    (cs cs' : CS Fq) (hp : Sensible I.parameters) (hq : ∀ c ∈ calls, ∀ q ∈ c.newParams, Sensible q)
    (hs : ∀ x ∈ I.stateWords, x.Known cs) (hc : ∀ c ∈ calls, ∀ x ∈ c.args, x.Known cs)
    (h : runInstance calls (I, cs) = .ok (I', cs')) (σ : R1cs.Variable → Fq) (hσ : Satisfies σ cs') :
    Satisfies σ cs ∧
    nativeInstance plainPermute (calls.map (InstanceCall.map (FpVar.eval σ))) (I.parameters, I.stateWords.map (FpVar.eval σ)) =
      .ok (I'.parameters, I'.stateWords.map (FpVar.eval σ)) := by
  refine ⟨(runInstance_grows calls I I' cs cs' h hs hc).1.satisfies hσ, ?_⟩
  induction calls generalizing I cs with
  | nil => cases h; rfl
  | cons c calls ih =>
    obtain ⟨⟨I1, cs1⟩, h1, h2⟩ := runInstance_cons h
    have h1' : runInstance [c] (I, cs) = .ok (I1, cs1) := by unfold runInstance; rw [forList, h1]; rfl
    obtain ⟨g1, g2⟩ := runInstance_grows [c] I I1 cs cs1 h1' hs fun c' h => by
      rw [List.mem_singleton] at h; subst h; exact hc c' (by simp)
    have hc' : ∀ c ∈ calls, ∀ x ∈ c.args, x.Known cs1 := fun c h x hx => (hc c (by simp [h]) x hx).mono g1
    have hσ1 := (runInstance_grows calls I1 I' cs1 cs' h2 g2 hc').1.satisfies hσ
    have hp1 := step_sensible h1 hp (hq c (by simp))
    have key : (c.map (FpVar.eval σ)).native plainPermute (I.parameters, I.stateWords.map (FpVar.eval σ)) =
        .ok (I1.parameters, I1.stateWords.map (FpVar.eval σ)) := by
      cases c with
      | words c =>
        obtain ⟨h3, h4, -⟩ := run_words_ok h1
        simp only [InstanceCall.map, InstanceCall.native]
        rw [step_soundIn hp ht hm ha h3 hσ1, h4]
        rfl
      | parameters q => cases h1; rfl
      | cs c => cases h1; rfl
    unfold nativeInstance
    rw [List.map_cons, forList, key, ok_bind]
    exact ih I1 cs1 hp1 (fun c h => hq c (by simp [h])) g2 hc' h2

theorem nativeInstance_congr {f g : Params Fq t k nmds nhat rows t nround npart → Vector Fq t → R (Vector Fq t)} :
    ∀ (calls : List (InstanceCall Fq t k nmds nhat rows t nround npart)) (p : Params Fq t k nmds nhat rows t nround npart) (w : List Fq),
    (∀ x, f p x = g p x) → (∀ c ∈ calls, ∀ q ∈ c.newParams, ∀ x, f q x = g q x) →
    nativeInstance f calls (p, w) = nativeInstance g calls (p, w) := by
  intro calls
  induction calls with
  | nil => intro p w _ _; rfl
  | cons c calls ih =>
    intro p w hp hq
    unfold nativeInstance
    rw [forList, forList]
    cases c with
    | words c =>
      have : f p = g p := funext hp
      simp only [InstanceCall.native]
      rw [this]
      cases c.nativeWith (g p) w with
      | error e => rfl
      | ok w1 => exact ih p w1 hp fun c h => hq c (by simp [h])
    | parameters q' => exact ih q' w (hq (.parameters q') (by simp) q' (by simp [InstanceCall.newParams])) fun c h => hq c (by simp [h])
    | cs c => exact ih p w hp fun c h => hq c (by simp [h])

/-- **C115, the optimized code.** If the two native hash functions agree for the parameter sets used, then the same with the
optimized one. -/
theorem C115_sound_optimized (ht : 2 ≤ t) (hm : nmds = t * t) (ha : nround = rows * t)
    (calls : List (InstanceCall (FpVar Fq) t k nmds nhat rows t nround npart)) (I I' : InstanceVar t k nmds nhat rows t nround npart)
    (cs cs' : CS Fq) (hp : Sensible I.parameters) (hq : ∀ c ∈ calls, ∀ q ∈ c.newParams, Sensible q)
    (hop : ∀ x, (Instance.new I.parameters).nTo1FixedHash x = (Instance.new I.parameters).unoptimizedNTo1FixedHash x)
    (hoq : ∀ c ∈ calls, ∀ q ∈ c.newParams, ∀ x, (Instance.new q).nTo1FixedHash x = (Instance.new q).unoptimizedNTo1FixedHash x)
    (hs : ∀ x ∈ I.stateWords, x.Known cs) (hc : ∀ c ∈ calls, ∀ x ∈ c.args, x.Known cs)
    (h : runInstance calls (I, cs) = .ok (I', cs')) (σ : R1cs.Variable → Fq) (hσ : Satisfies σ cs') :
    nativeInstance fastPermute (calls.map (InstanceCall.map (FpVar.eval σ))) (I.parameters, I.stateWords.map (FpVar.eval σ)) =
      .ok (I'.parameters, I'.stateWords.map (FpVar.eval σ)) := by
  rw [← (C115_sound ht hm ha calls I I' cs cs' hp hq hs hc h σ hσ).2]
  refine nativeInstance_congr _ _ _ (fun x => ?_) fun c hc' q hq' x => ?_
  · unfold fastPermute plainPermute
    rw [hop x]
  · obtain ⟨c', h1, rfl⟩ := List.mem_map.1 hc'
    have h2 : q ∈ c'.newParams := by cases c' <;> exact hq'
    unfold fastPermute plainPermute
    rw [hoq c' h1 q h2 x]

/-- **C115, which parameters.** The sets that `v1::generate` returns for a power S-box, also with any other table of round
constants in them, are such sets. -/
theorem C115_parameters {L : Libm} {debug : Bool} {nlimbs security : Nat} {allow : Bool}
    {P : Params Fq (k + 1) k nmds nhat rows (k + 1) nround npart} (g : GeneratedBy L debug nlimbs q security allow P)
    {e : Nat} (he : P.alpha = .exponent e) :
    (Sensible P ∧ ∀ x, (Instance.new P).nTo1FixedHash x = (Instance.new P).unoptimizedNTo1FixedHash x) ∧
    ∀ (debug' : Bool) (A : Matrix (Fin rows) (Fin (k + 1)) Fq), ∃ P', P.withConstants debug' g.nround_eq A = .ok P' ∧
      Sensible P' ∧ ∀ x, (Instance.new P').nTo1FixedHash x = (Instance.new P').unoptimizedNTo1FixedHash x := by
  have r := v1Generate_result g.accurate g.log2_two debug g.limbs g.bits g.nmds_eq g.nhat_eq g.nround_eq g.run
  have hr := alphaGenerate_range (he ▸ r.alpha)
  have hsens : ∀ P' : Params Fq (k + 1) k nmds nhat rows (k + 1) nround npart, P'.alpha = P.alpha → P'.rounds = P.rounds → Sensible P' := by
    intro P' h1 h2
    refine ⟨by rw [h2]; rcases r.full with h | h <;> omega, fun e' he' => ?_⟩
    rw [h1, he] at he'
    cases he'
    omega
  refine ⟨⟨hsens P rfl rfl, fun x => ?_⟩, fun debug' A => ?_⟩
  · obtain ⟨d, inst', h1, h2⟩ := generated_native g he x
    exact h1.trans h2.symm
  · obtain ⟨P', h1, h2⟩ := withConstants_run g he debug' A
    have h1' := h1
    rw [Params.withConstants] at h1'
    obtain ⟨oarc, ho, h3⟩ := bind_eq_ok h1'
    cases h3
    refine ⟨_, h1, hsens _ rfl rfl, fun x => ?_⟩
    obtain ⟨d, inst, h4, h5, h6⟩ := C114_unoptimized g he debug' A oarc (Vector.replicate _ 0) x
    have hx : Vector.ofFn (fun i : Fin (k + 1) => x[i]) = x := by ext; simp
    have h7 := h2 (Vector.replicate _ 0) fun i => x[i]
    rw [hx] at h7
    have hh := hashWith_eq g he debug' A fun i => x[i]
    have hw := wordsWith_eq g he debug' A fun i => x[i]
    rw [hx] at hh hw
    rw [h5] at hh
    rw [h6] at hw
    have hinst : inst.parameters = { P with arc := Mat.ofM g.nround_eq A, optimizedArc := oarc } := by
      rw [Instance.unoptimizedNTo1FixedHash, setState_eq, ok_bind] at h4
      obtain ⟨v, -, h8⟩ := bind_eq_ok h4
      obtain ⟨o, -, h9⟩ := bind_eq_ok h8
      cases h9
      rfl
    have hinst2 : inst.stateWords = Vector.ofFn (runE e (P.mds.toM g.nmds_eq) (fullRound P) A (fun i => x[i]) rows) := Except.ok.inj hw
    refine h7.trans (Eq.trans ?_ h4.symm)
    rw [← Except.ok.inj hh, ← hinst2, ← hinst]

/-- **C115, exactly one completion.** Every assignment that satisfies what was there before extends to one that satisfies
everything, and in only one way. -/
theorem C115_extend (calls : List (InstanceCall (FpVar Fq) t k nmds nhat rows t nround npart))
    (I I' : InstanceVar t k nmds nhat rows t nround npart) (cs cs' : CS Fq) (hw : WellFormed cs)
    (hs : ∀ x ∈ I.stateWords, x.Known cs) (hc : ∀ c ∈ calls, ∀ x ∈ c.args, x.Known cs)
    (h : runInstance calls (I, cs) = .ok (I', cs')) (σ : R1cs.Variable → Fq) (hσ : Satisfies σ cs) :
    ∃ τ, Satisfies τ cs' ∧ (∀ v : R1cs.Variable, v.Known cs → τ v = σ v) ∧
      ∀ τ', Satisfies τ' cs' → (∀ v : R1cs.Variable, v.Known cs → τ' v = σ v) → ∀ v : R1cs.Variable, v.Known cs' → τ' v = τ v := by
  obtain ⟨g, -⟩ := runInstance_grows calls I I' cs cs' h hs hc
  obtain ⟨τ, h1, h2⟩ := g.extend hw hσ
  have h3 : ∀ v : R1cs.Variable, v.Known cs → τ v = σ v := fun v hv => h2 v (Or.inl hv)
  exact ⟨τ, h1, h3, fun τ' h4 h5 => g.unique h4 h1 fun v hv => (h5 v hv).trans (h3 v hv).symm⟩

theorem allowedIn_of_ok (ht : 2 ≤ t) (hm : nmds = t * t) (ha : nround = rows * t) :
    ∀ (calls : List (InstanceCall (FpVar Fq) t k nmds nhat rows t nround npart)) (I I' : InstanceVar t k nmds nhat rows t nround npart)
    (cs cs' : CS Fq), Sensible I.parameters → (∀ c ∈ calls, ∀ q ∈ c.newParams, Sensible q) → runInstance calls (I, cs) = .ok (I', cs') →
    AllAllowedIn (calls.map (InstanceCall.map FpVar.isVar)) I.parameters (I.stateWords.map FpVar.isVar) ∧
    Adds (totalCostIn (calls.map (InstanceCall.map FpVar.isVar)) I.parameters (I.stateWords.map FpVar.isVar)) cs cs' := by
  intro calls
  induction calls with
  | nil => intro I I' cs cs' _ _ h; cases h; exact ⟨trivial, Adds.refl _⟩
  | cons c calls ih =>
    intro I I' cs cs' hp hq h
    obtain ⟨⟨I1, cs1⟩, h1, h2⟩ := runInstance_cons h
    have hp1 := step_sensible h1 hp (hq c (by simp))
    obtain ⟨g1, g2⟩ := ih I1 I' cs1 cs' hp1 (fun c h => hq c (by simp [h])) h2
    cases c with
    | words c =>
      obtain ⟨h3, h4, -⟩ := run_words_ok h1
      obtain ⟨f1, f2, f3, f4⟩ := step_flagsIn hp ht hm ha h3
      rw [f3, h4] at g1 g2
      exact ⟨⟨f1, f2, g1⟩, f4.trans g2⟩
    | parameters q => cases h1; exact ⟨g1, g2⟩
    | cs c => cases h1; exact ⟨g1, g2⟩

theorem ok_of_allowedIn (ht : 2 ≤ t) (hm : nmds = t * t) (hr : nround = rows * t) :
    ∀ (calls : List (InstanceCall (FpVar Fq) t k nmds nhat rows t nround npart)) (I : InstanceVar t k nmds nhat rows t nround npart)
    (cs : CS Fq), Sensible I.parameters → (∀ c ∈ calls, ∀ q ∈ c.newParams, Sensible q) →
    AllAllowedIn (calls.map (InstanceCall.map FpVar.isVar)) I.parameters (I.stateWords.map FpVar.isVar) →
    (cs.setup = false → Proving cs ∧ (∀ x ∈ I.stateWords, Valued cs x) ∧ ∀ c ∈ calls, ∀ x ∈ c.args, Valued cs x) →
    ∃ I' cs', runInstance calls (I, cs) = .ok (I', cs') ∧ (cs.setup = false → Ext cs cs' ∧ ∀ x ∈ I'.stateWords, Valued cs' x) := by
  intro calls
  induction calls with
  | nil => intro I cs _ _ _ hv; exact ⟨I, cs, rfl, fun hs => ⟨.refl (hv hs).1, (hv hs).2.1⟩⟩
  | cons c calls ih =>
    intro I cs hp hq ha hv
    have hq' : ∀ c ∈ calls, ∀ q ∈ c.newParams, Sensible q := fun c h => hq c (by simp [h])
    cases c with
    | words c =>
      obtain ⟨a1, a2, a3⟩ := ha
      obtain ⟨s1, cs1, h1, h2, h3⟩ := step_completeIn hp ht hm hr a1 a2
        fun hs => ⟨(hv hs).1, (hv hs).2.1, (hv hs).2.2 (.words c) (by simp)⟩
      rw [← (step_flagsIn hp ht hm hr h1).2.2.1] at a3
      obtain ⟨I', cs', h4, h5⟩ := ih { I with stateWords := s1 } cs1 hp hq' a3 fun hs => by
        have hs := h2.symm.trans hs
        exact ⟨(h3 hs).1.proving, (h3 hs).2, fun c hc x hx => ((hv hs).2.2 c (by simp [hc]) x hx).ext (h3 hs).1⟩
      refine ⟨I', cs', ?_, fun hs => ?_⟩
      · unfold runInstance
        rw [forList, run_words_eq h1]
        exact h4
      · obtain ⟨e, v⟩ := h5 (h2.trans hs)
        exact ⟨(h3 hs).1.trans e, v⟩
    | parameters q' =>
      exact ih { I with parameters := q' } cs (hq (.parameters q') (by simp) q' (by simp [InstanceCall.newParams])) hq' ha
        fun hs => ⟨(hv hs).1, (hv hs).2.1, fun c h => (hv hs).2.2 c (by simp [h])⟩
    | cs c =>
      exact ih { I with cs := c } cs hp hq' ha fun hs => ⟨(hv hs).1, (hv hs).2.1, fun c h => (hv hs).2.2 c (by simp [h])⟩

/-- **C115, panics.** In setup mode, and for a prover who knows the values, the steps run to the end exactly when each finds
the words it needs and each permutation has a power S-box, constants for all its rounds, and a word that is not a constant among
those it takes. -/
theorem C115_runs (ht : 2 ≤ t) (hm : nmds = t * t) (ha : nround = rows * t)
    (calls : List (InstanceCall (FpVar Fq) t k nmds nhat rows t nround npart)) (I : InstanceVar t k nmds nhat rows t nround npart)
    (cs : CS Fq) (hp : Sensible I.parameters) (hq : ∀ c ∈ calls, ∀ q ∈ c.newParams, Sensible q)
    (hv : cs.setup = false → Proving cs ∧ (∀ x ∈ I.stateWords, Valued cs x) ∧ ∀ c ∈ calls, ∀ x ∈ c.args, Valued cs x) :
    (∃ r, runInstance calls (I, cs) = .ok r) ↔
      AllAllowedIn (calls.map (InstanceCall.map FpVar.isVar)) I.parameters (I.stateWords.map FpVar.isVar) := by
  constructor
  · rintro ⟨⟨I', cs'⟩, h⟩
    exact (allowedIn_of_ok ht hm ha calls I I' cs cs' hp hq h).1
  · intro h
    obtain ⟨I', cs', h, -⟩ := ok_of_allowedIn ht hm ha calls I cs hp hq h hv
    exact ⟨_, h⟩

/-- **C115, the prover.** What a prover's run stores satisfies all the new constraints, and the words of the instance carry the
values that the same steps give natively. -/
theorem C115_prover (ht : 2 ≤ t) (hm : nmds = t * t) (ha : nround = rows * t)
    (calls : List (InstanceCall (FpVar Fq) t k nmds nhat rows t nround npart)) (I I' : InstanceVar t k nmds nhat rows t nround npart)
    (cs cs' : CS Fq) (hp : Sensible I.parameters) (hq : ∀ c ∈ calls, ∀ q ∈ c.newParams, Sensible q) (hpr : Proving cs)
    (hs : ∀ x ∈ I.stateWords, Valued cs x) (hc : ∀ c ∈ calls, ∀ x ∈ c.args, Valued cs x)
    (hk : ∀ x ∈ I.stateWords, x.Known cs) (hkc : ∀ c ∈ calls, ∀ x ∈ c.args, x.Known cs)
    (h : runInstance calls (I, cs) = .ok (I', cs')) :
    Proving cs' ∧ ∀ σ, Stored cs' σ → Stored cs σ ∧ (Satisfies σ cs → Satisfies σ cs' ∧
      ∃ w, nativeInstance plainPermute (calls.map (InstanceCall.map (FpVar.eval σ))) (I.parameters, I.stateWords.map (FpVar.eval σ)) =
          .ok (I'.parameters, w) ∧ I'.stateWords.length = w.length ∧
        ∀ j (hj : j < I'.stateWords.length) (hj' : j < w.length), Carries cs' I'.stateWords[j] w[j]) := by
  obtain ⟨I1, cs1, h1, h2⟩ := ok_of_allowedIn ht hm ha calls I cs hp hq (allowedIn_of_ok ht hm ha calls I I' cs cs' hp hq h).1
    fun _ => ⟨hpr, hs, hc⟩
  rw [h] at h1
  cases h1
  obtain ⟨e, v⟩ := h2 hpr.1
  refine ⟨e.proving, fun σ hσ => ⟨e.stored σ hσ, fun hsat => ?_⟩⟩
  have hsat' := e.sat σ hσ hsat
  refine ⟨hsat', _, (C115_sound ht hm ha calls I I' cs cs' hp hq hk hkc h σ hsat').2, by simp, fun j hj hj' => ?_⟩
  obtain ⟨a, ha⟩ := v _ (List.getElem_mem hj)
  rw [List.getElem_map, ha.eval hσ]
  exact ha

/-- **C115, size.** -/
theorem C115_size (ht : 2 ≤ t) (hm : nmds = t * t) (ha : nround = rows * t)
    (calls : List (InstanceCall (FpVar Fq) t k nmds nhat rows t nround npart)) (I I' : InstanceVar t k nmds nhat rows t nround npart)
    (cs cs' : CS Fq) (hp : Sensible I.parameters) (hq : ∀ c ∈ calls, ∀ q ∈ c.newParams, Sensible q)
    (h : runInstance calls (I, cs) = .ok (I', cs')) :
    cs'.constraints.length = cs.constraints.length +
      totalCostIn (calls.map (InstanceCall.map FpVar.isVar)) I.parameters (I.stateWords.map FpVar.isVar) ∧
    cs'.numWitness = cs.numWitness +
      totalCostIn (calls.map (InstanceCall.map FpVar.isVar)) I.parameters (I.stateWords.map FpVar.isVar) ∧
    cs'.numInstance = cs.numInstance :=
  (allowedIn_of_ok ht hm ha calls I I' cs cs' hp hq h).2

/-- The instance without the values that a prover stores. -/
def shapeOf (I : InstanceVar t k nmds nhat rows t nround npart) : InstanceVar t k nmds nhat rows t nround npart :=
  { I with stateWords := I.stateWords.map FpVar.shape }

theorem runInstance_shape : ∀ (calls : List (InstanceCall (FpVar Fq) t k nmds nhat rows t nround npart))
    (I I' : InstanceVar t k nmds nhat rows t nround npart) (cs cs' : CS Fq), runInstance calls (I, cs) = .ok (I', cs') →
    runInstance (calls.map (InstanceCall.map FpVar.shape)) (shapeOf I, cs.shape) = .ok (shapeOf I', cs'.shape) := by
  intro calls
  induction calls with
  | nil => intro I I' cs cs' h; cases h; rfl
  | cons c calls ih =>
    intro I I' cs cs' h
    obtain ⟨⟨I1, cs1⟩, h1, h2⟩ := runInstance_cons h
    have key : (c.map FpVar.shape).run (shapeOf I, cs.shape) = .ok (shapeOf I1, cs1.shape) := by
      cases c with
      | words c =>
        obtain ⟨h3, h4, h5⟩ := run_words_ok h1
        have := run_words_eq (I := shapeOf I) (step_shapeIn I.parameters h3)
        refine this.trans ?_
        obtain ⟨p1, c1, s1⟩ := I1
        dsimp only at h4 h5
        subst h4 h5
        rfl
      | parameters q => cases h1; rfl
      | cs c => cases h1; rfl
    unfold runInstance
    rw [List.map_cons, forList, key, ok_bind]
    exact ih I1 I' cs1 cs' h2

/-- **C115, one circuit.** The constraints do not depend on the values: runs that differ in values and mode only make the same. -/
theorem C115_same (calls₁ calls₂ : List (InstanceCall (FpVar Fq) t k nmds nhat rows t nround npart))
    (I₁ I₂ I₁' I₂' : InstanceVar t k nmds nhat rows t nround npart) (cs₁ cs₂ cs₁' cs₂' : CS Fq)
    (hc : calls₁.map (InstanceCall.map FpVar.shape) = calls₂.map (InstanceCall.map FpVar.shape)) (hI : shapeOf I₁ = shapeOf I₂)
    (hcs : cs₁.shape = cs₂.shape) (h₁ : runInstance calls₁ (I₁, cs₁) = .ok (I₁', cs₁'))
    (h₂ : runInstance calls₂ (I₂, cs₂) = .ok (I₂', cs₂')) : shapeOf I₁' = shapeOf I₂' ∧ cs₁'.shape = cs₂'.shape := by
  have e₁ := runInstance_shape _ _ _ _ _ h₁
  have e₂ := runInstance_shape _ _ _ _ _ h₂
  rw [hc, hI, hcs, e₂] at e₁
  have e := Except.ok.inj e₁
  exact ⟨(congrArg Prod.fst e).symm, (congrArg Prod.snd e).symm⟩

/-- **C115, the field `cs`.** What it refers to does not matter: with another value in it, and without the steps that assign to it,
the run gives the same words, parameters and constraints, or panics in the same way. -/
theorem C115_cs (c₀ : Nat) : ∀ (calls : List (InstanceCall (FpVar Fq) t k nmds nhat rows t nround npart))
    (I : InstanceVar t k nmds nhat rows t nround npart) (cs : CS Fq),
    (do let (I', cs') ← runInstance calls (I, cs); return (I'.parameters, I'.stateWords, cs')) =
    (do let (I', cs') ← runInstance (calls.filter fun c => match c with | .cs _ => false | _ => true) ({ I with cs := c₀ }, cs)
        return (I'.parameters, I'.stateWords, cs')) := by
  intro calls
  induction calls with
  | nil => intro I cs; rfl
  | cons c calls ih =>
    intro I cs
    cases c with
    | cs c =>
      rw [List.filter_cons_of_neg (by simp)]
      exact ih { I with cs := c } cs
    | parameters q =>
      rw [List.filter_cons_of_pos (by simp)]
      exact ih { I with parameters := q } cs
    | words c =>
      rw [List.filter_cons_of_pos (by simp)]
      unfold runInstance
      rw [forList, forList]
      have e1 : (InstanceCall.words c).run (I, cs) =
          (c.run I.parameters (I.stateWords, cs) >>= fun r => .ok ({ I with stateWords := r.1 }, r.2)) := rfl
      have e2 : (InstanceCall.words c).run ({ I with cs := c₀ }, cs) =
          (c.run I.parameters (I.stateWords, cs) >>= fun r => .ok ({ I with cs := c₀, stateWords := r.1 }, r.2)) := rfl
      rw [e1, e2]
      cases c.run I.parameters (I.stateWords, cs) with
      | error e => rfl
      | ok r => exact ih { I with stateWords := r.1 } r.2

/-- With no assignment to `parameters` and `cs` the runs are those of C113. -/
theorem C115_words : ∀ (calls : List (WordCall (FpVar Fq))) (I : InstanceVar t k nmds nhat rows t nround npart) (cs : CS Fq),
    runInstance (calls.map .words) (I, cs) = (do
      let (s, cs') ← runCalls I.parameters calls (I.stateWords, cs)
      return ({ I with stateWords := s }, cs')) := by
  intro calls
  induction calls with
  | nil => intro I cs; rfl
  | cons c calls ih =>
    intro I cs
    unfold runInstance runCalls
    rw [List.map_cons, forList, forList]
    have e1 : (InstanceCall.words c).run (I, cs) =
        (c.run I.parameters (I.stateWords, cs) >>= fun r => .ok ({ I with stateWords := r.1 }, r.2)) := rfl
    rw [e1]
    cases c.run I.parameters (I.stateWords, cs) with
    | error e => rfl
    | ok r => exact ih { I with stateWords := r.1 } r.2

/-! ### The hypotheses are met -/

theorem shipped_sensible (i : Fin 7) : Sensible (shippedParams i) :=
  (C115_parameters (shipped_generatedBy i) (shipped_alpha i)).1.1

/-- Other round constants are put into the instance between two permutations, and another constraint system: the run ends. -/
example (i : Fin 7) (A : Matrix (Fin 39) (Fin (i.val + 2)) Fq) (s : List (FpVar Fq)) (hs : s.length = i.val + 2)
    (hv : ∃ x ∈ s, x.isVar = true) : ∃ P', (shippedParams i).withConstants true (shipped_generatedBy i).nround_eq A = .ok P' ∧
    ∃ I' cs', runInstance [.words .permute, .parameters P', .cs 7, .words .permute] (⟨shippedParams i, 0, s⟩, (⟨true, 1, 2, [1], [], []⟩ : CS Fq)) =
      .ok (I', cs') ∧ I'.parameters = P' ∧ I'.cs = 7 ∧
      cs'.constraints.length = 5 * (numVar s + 7 * (i.val + 2) + 31) + 5 * (8 * (i.val + 2) + 31) := by
  obtain ⟨P', h1, h2, -⟩ := (C115_parameters (shipped_generatedBy i) (shipped_alpha i)).2 true A
  have h3 : P'.alpha = .exponent 17 ∧ P'.rounds = ⟨31, 8⟩ := by
    have h := h1
    rw [Params.withConstants] at h
    obtain ⟨oarc, -, h⟩ := bind_eq_ok h
    cases h
    exact ⟨shipped_alpha i, shipped_rounds i⟩
  refine ⟨P', h1, ?_⟩
  have hq : ∀ c ∈ ([.words .permute, .parameters P', .cs 7, .words .permute] :
      List (InstanceCall (FpVar Fq) (i.val + 2) (i.val + 1) _ _ 39 (i.val + 2) _ 31)), ∀ p ∈ c.newParams, Sensible p := by
    intro c hc p hp
    simp only [List.mem_cons, List.not_mem_nil, or_false] at hc
    rcases hc with rfl | rfl | rfl | rfl <;> simp only [InstanceCall.newParams, List.not_mem_nil, List.mem_singleton] at hp
    rw [hp]; exact h2
  have hsh : (shippedParams i).exponent? = some 17 := exponent?_eq (shipped_alpha i)
  have hP' : P'.exponent? = some 17 := exponent?_eq h3.1
  obtain ⟨⟨I', cs'⟩, h⟩ := (C115_runs (by omega) rfl rfl [.words .permute, .parameters P', .cs 7, .words .permute]
    ⟨shippedParams i, 0, s⟩ (⟨true, 1, 2, [1], [], []⟩ : CS Fq) (shipped_sensible i) hq nofun).2 (by
      simp only [List.map_cons, List.map_nil, InstanceCall.map, WordCall.map, AllAllowedIn, WordCall.Allowed, WordCall.flags,
        hsh, hP', h3.2, shipped_rounds]
      obtain ⟨x, hx, hxv⟩ := hv
      refine ⟨⟨by simp [hs], ?_⟩, fun _ => ⟨rfl, by norm_num⟩, ⟨by simp, ?_⟩, fun _ => ⟨rfl, by norm_num⟩, trivial⟩
      · rw [take_flags, List.take_of_length_le (by omega)]
        exact List.mem_map.2 ⟨x, hx, hxv⟩
      · rw [List.take_of_length_le (by simp)]
        exact List.mem_replicate.2 ⟨by omega, rfl⟩)
  have hf : I'.parameters = P' ∧ I'.cs = 7 := by
    obtain ⟨⟨I1, c1⟩, -, f1⟩ := runInstance_cons h
    obtain ⟨⟨I2, c2⟩, e2, f2⟩ := runInstance_cons f1
    obtain ⟨⟨I3, c3⟩, e3, f3⟩ := runInstance_cons f2
    obtain ⟨⟨I4, c4⟩, e4, f4⟩ := runInstance_cons f3
    cases e2
    cases e3
    cases f4
    exact (run_words_ok e4).2
  refine ⟨I', cs', h, hf.1, hf.2, ?_⟩
  · rw [(C115_size (by omega) rfl rfl _ _ _ _ _ (shipped_sensible i) hq h).1]
    simp only [List.map_cons, List.map_nil, InstanceCall.map, WordCall.map, totalCostIn, WordCall.costIn, WordCall.flags,
      hsh, hP', h3.2, shipped_rounds, Option.getD_some, sboxCost_17]
    rw [numVar_take, List.take_of_length_le (by omega), List.take_of_length_le (by simp), List.count_replicate_self]
    simp only [List.length_nil]
    omega

theorem newParams_two {p : Params Fq t k nmds nhat rows t nround npart} (hp : Sensible p) :
    ∀ c ∈ ([.parameters p, .words .permute] : List (InstanceCall (FpVar Fq) t k nmds nhat rows t nround npart)),
      ∀ p ∈ c.newParams, Sensible p := by
  intro c hc p' hp'
  simp only [List.mem_cons, List.not_mem_nil, or_false] at hc
  rcases hc with rfl | rfl <;> simp only [InstanceCall.newParams, List.not_mem_nil, List.mem_singleton] at hp'
  rw [hp']; exact hp

/-- A permutation with the inverse S-box panics, and one with too few constants for its rounds. -/
example (i : Fin 7) (cs : CS Fq) (hs : cs.setup = true) (s : List (FpVar Fq)) :
    (¬ ∃ r, runInstance [.parameters { shippedParams i with alpha := .inverse }, .words .permute] (⟨shippedParams i, 0, s⟩, cs) = .ok r) ∧
    ¬ ∃ r, runInstance [.parameters { shippedParams i with rounds := ⟨32, 8⟩ }, .words .permute] (⟨shippedParams i, 0, s⟩, cs) = .ok r := by
  have hv : ∀ {P : Prop}, cs.setup = false → P := fun h => by rw [hs] at h; cases h
  have hsens := shipped_sensible i
  constructor
  · rw [C115_runs (by omega) rfl rfl _ _ cs hsens (newParams_two (p := { shippedParams i with alpha := .inverse }) ⟨hsens.full, fun _ h => by cases h⟩) hv]
    rintro ⟨-, h, -⟩
    exact absurd (h rfl).1 (by simp [Params.exponent?])
  · rw [C115_runs (by omega) rfl rfl _ _ cs hsens (newParams_two (p := { shippedParams i with rounds := ⟨32, 8⟩ }) ⟨by norm_num, hsens.exponent⟩) hv]
    rintro ⟨-, h, -⟩
    have := (h rfl).2
    norm_num at this

end Poseidon
