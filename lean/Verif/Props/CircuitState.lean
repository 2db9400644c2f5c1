import Verif.Proofs.CircuitState

/-!
# Property C113: the circuit permutation as a public call

A user builds an `InstanceVar` by hand, permutes, changes words, permutes again.  `runCalls` (Model/CircuitState.lean) is any such
program; `nativeCalls`, `AllAllowed`, `totalCost` (Spec/CircuitState.lean) say what it computes, when it runs and what it costs.
-/

namespace Poseidon

open R1cs

theorem runCalls_nil (i : Fin 7) (st : List (FpVar Fq) × CS Fq) : runCalls (shippedParams i) [] st = .ok st := rfl

theorem runCalls_cons {i : Fin 7} {c : WordCall (FpVar Fq)} {calls : List (WordCall (FpVar Fq))} {st r : List (FpVar Fq) × CS Fq}
    (h : runCalls (shippedParams i) (c :: calls) st = .ok r) :
    ∃ st1, c.run (shippedParams i) st = .ok st1 ∧ runCalls (shippedParams i) calls st1 = .ok r := by
  unfold runCalls at h
  rw [forList] at h
  cases hc : c.run (shippedParams i) st with
  | error e => rw [hc] at h; cases h
  | ok st1 => rw [hc] at h; exact ⟨st1, rfl, h⟩

theorem runCalls_grows (i : Fin 7) : ∀ (calls : List (WordCall (FpVar Fq))) (s s' : List (FpVar Fq)) (cs cs' : CS Fq),
    runCalls (shippedParams i) calls (s, cs) = .ok (s', cs') → KnownAll cs s → (∀ c ∈ calls, KnownAll cs c.args) →
    Grows cs cs' ∧ KnownAll cs' s' := by
  intro calls
  induction calls with
  | nil => intro s s' cs cs' h hs _; cases h; exact ⟨.refl, hs⟩
  | cons c calls ih =>
    intro s s' cs cs' h hs hc
    obtain ⟨⟨s1, cs1⟩, h1, h2⟩ := runCalls_cons h
    obtain ⟨g1, g2⟩ := step_grows i h1 hs (hc c (by simp))
    obtain ⟨g3, g4⟩ := ih s1 s' cs1 cs' h2 g2 fun c h => (hc c (by simp [h])).mono g1
    exact ⟨g1.trans g3, g4⟩

/-- **C113, soundness.** Whatever assignment satisfies the constraints, the words of the instance have the values that the
same steps give natively. -/
theorem C113_sound (i : Fin 7) (calls : List (WordCall (FpVar Fq))) (s s' : List (FpVar Fq)) (cs cs' : CS Fq)
    (hs : ∀ x ∈ s, x.Known cs) (hc : ∀ c ∈ calls, ∀ x ∈ c.args, x.Known cs)
    (h : runCalls (shippedParams i) calls (s, cs) = .ok (s', cs')) (σ : R1cs.Variable → Fq) (hσ : Satisfies σ cs') :
    Satisfies σ cs ∧
    nativeCalls i (calls.map (WordCall.map (FpVar.eval σ))) (s.map (FpVar.eval σ)) = .ok (s'.map (FpVar.eval σ)) := by
  refine ⟨(runCalls_grows i calls s s' cs cs' h hs hc).1.satisfies hσ, ?_⟩
  induction calls generalizing s cs with
  | nil => cases h; rfl
  | cons c calls ih =>
    obtain ⟨⟨s1, cs1⟩, h1, h2⟩ := runCalls_cons h
    obtain ⟨g1, g2⟩ := step_grows i h1 hs (hc c (by simp))
    have hc' : ∀ c ∈ calls, ∀ x ∈ c.args, x.Known cs1 := fun c h x hx => (hc c (by simp [h]) x hx).mono g1
    have hσ1 := (runCalls_grows i calls s1 s' cs1 cs' h2 g2 hc').1.satisfies hσ
    unfold nativeCalls
    rw [List.map_cons, forList, step_sound i h1 hσ1, ok_bind]
    exact ih s1 cs1 g2 hc' h2

/-- **C113, exactly one completion.** Every assignment that satisfies what was there before extends to one that satisfies
everything, and in only one way. -/
theorem C113_extend (i : Fin 7) (calls : List (WordCall (FpVar Fq))) (s s' : List (FpVar Fq)) (cs cs' : CS Fq) (hw : WellFormed cs)
    (hs : ∀ x ∈ s, x.Known cs) (hc : ∀ c ∈ calls, ∀ x ∈ c.args, x.Known cs)
    (h : runCalls (shippedParams i) calls (s, cs) = .ok (s', cs')) (σ : R1cs.Variable → Fq) (hσ : Satisfies σ cs) :
    ∃ τ, Satisfies τ cs' ∧ (∀ v : R1cs.Variable, v.Known cs → τ v = σ v) ∧
      ∀ τ', Satisfies τ' cs' → (∀ v : R1cs.Variable, v.Known cs → τ' v = σ v) → ∀ v : R1cs.Variable, v.Known cs' → τ' v = τ v := by
  obtain ⟨g, -⟩ := runCalls_grows i calls s s' cs cs' h hs hc
  obtain ⟨τ, h1, h2⟩ := g.extend hw hσ
  have h3 : ∀ v : R1cs.Variable, v.Known cs → τ v = σ v := fun v hv => h2 v (Or.inl hv)
  exact ⟨τ, h1, h3, fun τ' h4 h5 => g.unique h4 h1 fun v hv => (h5 v hv).trans (h3 v hv).symm⟩

theorem allowed_of_ok (i : Fin 7) : ∀ (calls : List (WordCall (FpVar Fq))) (s s' : List (FpVar Fq)) (cs cs' : CS Fq),
    runCalls (shippedParams i) calls (s, cs) = .ok (s', cs') →
    AllAllowed (i.val + 2) (calls.map (WordCall.map FpVar.isVar)) (s.map FpVar.isVar) ∧
    Adds (totalCost (i.val + 2) (calls.map (WordCall.map FpVar.isVar)) (s.map FpVar.isVar)) cs cs' := by
  intro calls
  induction calls with
  | nil => intro s s' cs cs' h; cases h; exact ⟨trivial, Adds.refl _⟩
  | cons c calls ih =>
    intro s s' cs cs' h
    obtain ⟨⟨s1, cs1⟩, h1, h2⟩ := runCalls_cons h
    obtain ⟨f1, f2, f3⟩ := step_flags i h1
    obtain ⟨g1, g2⟩ := ih s1 s' cs1 cs' h2
    rw [f2] at g1 g2
    exact ⟨⟨f1, g1⟩, f3.trans g2⟩

theorem ok_of_allowed (i : Fin 7) : ∀ (calls : List (WordCall (FpVar Fq))) (s : List (FpVar Fq)) (cs : CS Fq),
    AllAllowed (i.val + 2) (calls.map (WordCall.map FpVar.isVar)) (s.map FpVar.isVar) →
    (cs.setup = false → Proving cs ∧ (∀ x ∈ s, Valued cs x) ∧ ∀ c ∈ calls, ∀ x ∈ c.args, Valued cs x) →
    ∃ s' cs', runCalls (shippedParams i) calls (s, cs) = .ok (s', cs') ∧
      (cs.setup = false → Ext cs cs' ∧ ∀ x ∈ s', Valued cs' x) := by
  intro calls
  induction calls with
  | nil => intro s cs _ hv; exact ⟨s, cs, rfl, fun hs => ⟨.refl (hv hs).1, (hv hs).2.1⟩⟩
  | cons c calls ih =>
    intro s cs ha hv
    obtain ⟨s1, cs1, h1, h2, h3⟩ := step_complete i ha.1 fun hs => ⟨(hv hs).1, (hv hs).2.1, (hv hs).2.2 c (by simp)⟩
    have ha2 := ha.2
    rw [← (step_flags i h1).2.1] at ha2
    obtain ⟨s', cs', h4, h5⟩ := ih s1 cs1 ha2 fun hs => by
      have hs := h2.symm.trans hs
      exact ⟨(h3 hs).1.proving, (h3 hs).2, fun c hc x hx => ((hv hs).2.2 c (by simp [hc]) x hx).ext (h3 hs).1⟩
    refine ⟨s', cs', ?_, fun hs => ?_⟩
    · unfold runCalls
      rw [forList, h1]
      exact h4
    · obtain ⟨e, v⟩ := h5 (h2.trans hs)
      exact ⟨(h3 hs).1.trans e, v⟩

/-- **C113, panics.** In setup mode, and for a prover who knows the values, the steps run to the end exactly when each finds
the words it needs and each permutation has a word that is not a constant among those it takes. -/
theorem C113_runs (i : Fin 7) (calls : List (WordCall (FpVar Fq))) (s : List (FpVar Fq)) (cs : CS Fq)
    (hv : cs.setup = false → Proving cs ∧ (∀ x ∈ s, Valued cs x) ∧ ∀ c ∈ calls, ∀ x ∈ c.args, Valued cs x) :
    (∃ r, runCalls (shippedParams i) calls (s, cs) = .ok r) ↔
      AllAllowed (i.val + 2) (calls.map (WordCall.map FpVar.isVar)) (s.map FpVar.isVar) := by
  constructor
  · rintro ⟨⟨s', cs'⟩, h⟩
    exact (allowed_of_ok i calls s s' cs cs' h).1
  · intro ha
    obtain ⟨s', cs', h, -⟩ := ok_of_allowed i calls s cs ha hv
    exact ⟨_, h⟩

/-- **C113, the prover.** What a prover's run stores satisfies all the new constraints, and the words of the instance carry the
values that the same steps give natively. -/
theorem C113_prover (i : Fin 7) (calls : List (WordCall (FpVar Fq))) (s s' : List (FpVar Fq)) (cs cs' : CS Fq) (hp : Proving cs)
    (hs : ∀ x ∈ s, Valued cs x) (hc : ∀ c ∈ calls, ∀ x ∈ c.args, Valued cs x)
    (hk : ∀ x ∈ s, x.Known cs) (hkc : ∀ c ∈ calls, ∀ x ∈ c.args, x.Known cs)
    (h : runCalls (shippedParams i) calls (s, cs) = .ok (s', cs')) :
    Proving cs' ∧ ∀ σ, Stored cs' σ → Stored cs σ ∧ (Satisfies σ cs → Satisfies σ cs' ∧
      ∃ w, nativeCalls i (calls.map (WordCall.map (FpVar.eval σ))) (s.map (FpVar.eval σ)) = .ok w ∧ s'.length = w.length ∧
        ∀ j (hj : j < s'.length) (hj' : j < w.length), Carries cs' s'[j] w[j]) := by
  obtain ⟨s1, cs1, h1, h2⟩ := ok_of_allowed i calls s cs (allowed_of_ok i calls s s' cs cs' h).1 fun _ => ⟨hp, hs, hc⟩
  rw [h] at h1
  cases h1
  obtain ⟨e, v⟩ := h2 hp.1
  refine ⟨e.proving, fun σ hσ => ⟨e.stored σ hσ, fun hsat => ?_⟩⟩
  have hsat' := e.sat σ hσ hsat
  refine ⟨hsat', _, (C113_sound i calls s s' cs cs' hk hkc h σ hsat').2, by simp, fun j hj hj' => ?_⟩
  obtain ⟨a, ha⟩ := v _ (List.getElem_mem hj)
  rw [List.getElem_map, ha.eval hσ]
  exact ha

/-- **C113, size.** -/
theorem C113_size (i : Fin 7) (calls : List (WordCall (FpVar Fq))) (s s' : List (FpVar Fq)) (cs cs' : CS Fq)
    (h : runCalls (shippedParams i) calls (s, cs) = .ok (s', cs')) :
    cs'.constraints.length = cs.constraints.length + totalCost (i.val + 2) (calls.map (WordCall.map FpVar.isVar)) (s.map FpVar.isVar) ∧
    cs'.numWitness = cs.numWitness + totalCost (i.val + 2) (calls.map (WordCall.map FpVar.isVar)) (s.map FpVar.isVar) ∧
    cs'.numInstance = cs.numInstance :=
  (allowed_of_ok i calls s s' cs cs' h).2

theorem runCalls_shape (i : Fin 7) : ∀ (calls : List (WordCall (FpVar Fq))) (s s' : List (FpVar Fq)) (cs cs' : CS Fq),
    runCalls (shippedParams i) calls (s, cs) = .ok (s', cs') →
    runCalls (shippedParams i) (calls.map (WordCall.map FpVar.shape)) (s.map FpVar.shape, cs.shape) = .ok (s'.map FpVar.shape, cs'.shape) := by
  intro calls
  induction calls with
  | nil => intro s s' cs cs' h; cases h; rfl
  | cons c calls ih =>
    intro s s' cs cs' h
    obtain ⟨⟨s1, cs1⟩, h1, h2⟩ := runCalls_cons h
    unfold runCalls
    rw [List.map_cons, forList, step_shape i h1, ok_bind]
    exact ih s1 s' cs1 cs' h2

/-- **C113, one circuit.** The constraints do not depend on the values: runs that differ in values and mode only make the same. -/
theorem C113_same (i : Fin 7) (calls₁ calls₂ : List (WordCall (FpVar Fq))) (s₁ s₂ s₁' s₂' : List (FpVar Fq)) (cs₁ cs₂ cs₁' cs₂' : CS Fq)
    (hc : calls₁.map (WordCall.map FpVar.shape) = calls₂.map (WordCall.map FpVar.shape)) (hs : s₁.map FpVar.shape = s₂.map FpVar.shape)
    (hcs : cs₁.shape = cs₂.shape) (h₁ : runCalls (shippedParams i) calls₁ (s₁, cs₁) = .ok (s₁', cs₁'))
    (h₂ : runCalls (shippedParams i) calls₂ (s₂, cs₂) = .ok (s₂', cs₂')) :
    s₁'.map FpVar.shape = s₂'.map FpVar.shape ∧ cs₁'.shape = cs₂'.shape := by
  have e₁ := runCalls_shape i _ _ _ _ _ h₁
  have e₂ := runCalls_shape i _ _ _ _ _ h₂
  rw [hc, hs, hcs, e₂] at e₁
  have e := Except.ok.inj e₁
  exact ⟨(congrArg Prod.fst e).symm, (congrArg Prod.snd e).symm⟩

/-- **C113.** Words beyond the state are ignored, and gone after the permutation. -/
theorem C113_extra_words (i : Fin 7) (s e : List (FpVar Fq)) (cs : CS Fq) (hs : s.length = i.val + 2) :
    R1cs.permute (shippedParams i) (s ++ e) cs = R1cs.permute (shippedParams i) s cs ∧
    ∀ r, R1cs.permute (shippedParams i) s cs = .ok r → r.1.length = i.val + 2 := by
  refine ⟨?_, fun r hr => ?_⟩
  · rw [permute_take i (s ++ e) cs (by simp; omega), List.take_append_of_le_length (by omega), List.take_of_length_le (by omega)]
  · have := congrArg List.length (permute_flagsAfter i s cs hs r hr)
    simpa using this

/-- **C113.** The circuit hash of the library is one permutation and a look at word 1. -/
theorem C113_hash (i : Fin 7) (inputs : Vector (FpVar Fq) (i.val + 2)) (cs : CS Fq) :
    R1cs.nTo1FixedHash (shippedParams i) inputs cs = do
      let (s, cs) ← runCalls (shippedParams i) [.permute] (inputs.toList, cs)
      let out ← lget s 1
      return (out, cs) := by
  unfold R1cs.nTo1FixedHash runCalls
  rw [forList]
  show (R1cs.permute (shippedParams i) inputs.toList cs >>= _) = ((R1cs.permute (shippedParams i) inputs.toList cs >>= _) >>= _)
  rw [bind_assoc]
  rfl

/-! ### A sponge in the circuit -/

/-- A sponge: it starts with zeros, adds each block of the message to the words from number 1 on and permutes. -/
def spongeCalls {α : Type} (zero : α) (t : Nat) (blocks : List (List α)) : List (WordCall α) :=
  .assign (List.replicate t zero) ::
    blocks.flatMap fun b => (b.zipIdx.map fun x => WordCall.arith .add (x.2 + 1) x.1) ++ [.permute]

theorem spongeCalls_map {α β : Type} (f : α → β) (zero : α) (t : Nat) (blocks : List (List α)) :
    (spongeCalls zero t blocks).map (WordCall.map f) = spongeCalls (f zero) t (blocks.map (List.map f)) := by
  unfold spongeCalls
  rw [List.map_cons, List.map_flatMap, List.flatMap_map]
  congr 1
  · simp [WordCall.map]
  · apply List.flatMap_congr
    intro b _
    rw [List.map_append, List.map_map, List.zipIdx_map, List.map_map]
    rfl

theorem absorb_allowed (t : Nat) (rest : List (WordCall Bool)) : ∀ (b : List Bool) (k : Nat) (l : List Bool), k + b.length < l.length →
    (∀ l', l'.length = l.length → (true ∈ l ∨ true ∈ b → true ∈ l') → AllAllowed t rest l') →
    AllAllowed t (((b.zipIdx k).map fun x => WordCall.arith .add (x.2 + 1) x.1) ++ rest) l := by
  intro b
  induction b with
  | nil => intro k l _ h; exact h l rfl fun h => h.resolve_right (by simp)
  | cons x b ih =>
    intro k l hk h
    rw [List.length_cons] at hk
    have hk1 : k + 1 < l.length := by omega
    refine ⟨hk1, ih (k + 1) _ ?_ fun l' h1 h2 => h l' ?_ fun h3 => h2 ?_⟩
    · show k + 1 + b.length < (l.set (k + 1) _).length
      rw [List.length_set]; omega
    · rw [h1]; simp [WordCall.flags]
    · have hset : ∀ y, y ∈ l.set (k + 1) (l.getD (k + 1) false || x) ↔ _ := fun y => List.mem_iff_getElem
      rcases h3 with h3 | h3
      · refine Or.inl ((hset true).2 ?_)
        obtain ⟨j, hj, e⟩ := List.mem_iff_getElem.1 h3
        refine ⟨j, by simpa using hj, ?_⟩
        rw [List.getElem_set]
        split
        · next hjk => subst hjk; simp [List.getD, hj, e]
        · exact e
      · rcases List.mem_cons.1 h3 with rfl | h3
        · refine Or.inl ((hset true).2 ⟨k + 1, by simpa using hk1, ?_⟩)
          rw [List.getElem_set_self]; simp
        · exact Or.inr h3

theorem blocks_allowed {t : Nat} (ht : 0 < t) : ∀ (blocks : List (List Bool)) (l : List Bool), l.length = t → (∀ b ∈ blocks, b.length < t) →
    (true ∈ l ∨ ∀ b ∈ blocks.head?, true ∈ b) →
    AllAllowed t (blocks.flatMap fun b => (b.zipIdx.map fun x => WordCall.arith .add (x.2 + 1) x.1) ++ [.permute]) l := by
  intro blocks
  induction blocks with
  | nil => intro l _ _ _; trivial
  | cons b blocks ih =>
    intro l hl hb hv
    rw [List.flatMap_cons, List.append_assoc]
    refine absorb_allowed t _ b 0 l (by have := hb b (by simp); omega) fun l' h1 h2 => ?_
    have hv' : true ∈ l' := h2 (hv.imp id fun h => h b (by simp))
    refine ⟨⟨by omega, by rwa [List.take_of_length_le (by omega)]⟩, ?_⟩
    refine ih _ (by simp [WordCall.flags]) (fun b h => hb b (by simp [h])) (Or.inl ?_)
    exact List.mem_replicate.2 ⟨by omega, rfl⟩

/-- **C113, sponges.** For every number of blocks, each shorter than the state, the first with a word that is not a constant, the
sponge is synthesized; in every satisfying assignment its words have the values of the native sponge, and every
assignment of the message can be completed. -/
theorem C113_sponge (i : Fin 7) (blocks : List (List (FpVar Fq))) (cs : CS Fq) (hw : WellFormed cs)
    (hk : ∀ b ∈ blocks, ∀ x ∈ b, x.Known cs) (hlen : ∀ b ∈ blocks, b.length ≤ i.val + 1)
    (hfirst : ∀ b ∈ blocks.head?, ∃ x ∈ b, x.isVar = true)
    (hv : cs.setup = false → Proving cs ∧ ∀ b ∈ blocks, ∀ x ∈ b, Valued cs x) :
    ∃ s' cs', runCalls (shippedParams i) (spongeCalls (.constant 0) (i.val + 2) blocks) ([], cs) = .ok (s', cs') ∧
      (∀ σ, Satisfies σ cs' → nativeCalls i (spongeCalls 0 (i.val + 2) (blocks.map (List.map (FpVar.eval σ)))) [] =
        .ok (s'.map (FpVar.eval σ))) ∧
      ∀ σ, Satisfies σ cs → ∃ τ, Satisfies τ cs' ∧ ∀ v : R1cs.Variable, v.Known cs → τ v = σ v := by
  have hargs : ∀ P : FpVar Fq → Prop, (∀ c, P (.constant c)) → (∀ b ∈ blocks, ∀ x ∈ b, P x) →
      ∀ c ∈ spongeCalls (.constant 0) (i.val + 2) blocks, ∀ x ∈ c.args, P x := by
    intro P h0 hP c hc x hx
    unfold spongeCalls at hc
    rcases List.mem_cons.1 hc with rfl | hc
    · rw [List.eq_of_mem_replicate hx]; exact h0 0
    · obtain ⟨b, hb, hc⟩ := List.mem_flatMap.1 hc
      rcases List.mem_append.1 hc with hc | hc
      · obtain ⟨y, hy, rfl⟩ := List.mem_map.1 hc
        have : x = y.1 := by simpa [WordCall.args] using hx
        rw [this]
        exact hP b hb _ (List.fst_mem_of_mem_zipIdx hy)
      · rw [List.mem_singleton.1 hc] at hx
        simp [WordCall.args] at hx
  have hallow : AllAllowed (i.val + 2) ((spongeCalls (.constant 0) (i.val + 2) blocks).map (WordCall.map FpVar.isVar))
      (([] : List (FpVar Fq)).map FpVar.isVar) := by
    rw [spongeCalls_map]
    refine ⟨trivial, blocks_allowed (by omega) _ _ (by simp [WordCall.flags]) ?_ (Or.inr ?_)⟩
    · intro b hb
      obtain ⟨b', hb', rfl⟩ := List.mem_map.1 hb
      have := hlen b' hb'
      rw [List.length_map]; omega
    · intro b hb
      rw [List.head?_map, Option.mem_def, Option.map_eq_some_iff] at hb
      obtain ⟨b', hb', rfl⟩ := hb
      obtain ⟨x, hx, hxv⟩ := hfirst b' hb'
      exact List.mem_map.2 ⟨x, hx, hxv⟩
  have hkn : ∀ c ∈ spongeCalls (.constant 0) (i.val + 2) blocks, ∀ x ∈ c.args, x.Known cs := hargs _ (fun _ => trivial) hk
  obtain ⟨⟨s', cs'⟩, h⟩ := (C113_runs i _ [] cs fun hs => ⟨(hv hs).1, fun x hx => by simp at hx,
    hargs _ (fun c => ⟨c, rfl⟩) (hv hs).2⟩).2 hallow
  refine ⟨s', cs', h, fun σ hσ => ?_, fun σ hσ => ?_⟩
  · have := (C113_sound i _ [] s' cs cs' (fun x hx => by simp at hx) hkn h σ hσ).2
    rw [spongeCalls_map] at this
    exact this
  · obtain ⟨τ, h1, h2, -⟩ := C113_extend i _ [] s' cs cs' hw (fun x hx => by simp at hx) hkn h σ hσ
    exact ⟨τ, h1, h2⟩

/-! ### The hypotheses are met -/

/-- Three blocks of two, one and no words in setup mode, rate 2: the run ends, and there are constraints. -/
example : ∃ s' cs', runCalls (shippedParams 1) (spongeCalls (.constant 0) 3
    [[.var ⟨none, [(1, .witness 0)]⟩, .constant 5], [.var ⟨none, [(1, .witness 1)]⟩], []]) ([], (⟨true, 1, 2, [1], [], []⟩ : CS Fq)) = .ok (s', cs') ∧
    cs'.constraints.length = 5 * (1 + 52) + 5 * (3 + 52) + 5 * (3 + 52) := by
  obtain ⟨s', cs', h, -, -⟩ := C113_sponge 1 [[.var ⟨none, [(1, .witness 0)]⟩, .constant 5], [.var ⟨none, [(1, .witness 1)]⟩], []]
    (⟨true, 1, 2, [1], [], []⟩ : CS Fq) (fun _ h => absurd h List.not_mem_nil)
    (by
      intro b hb x hx
      simp only [List.mem_cons, List.not_mem_nil, or_false] at hb
      rcases hb with rfl | rfl | rfl
      · simp only [List.mem_cons, List.not_mem_nil, or_false] at hx
        rcases hx with rfl | rfl
        · intro y hy; rw [List.mem_singleton] at hy; subst hy; exact Nat.zero_lt_two
        · trivial
      · rw [List.mem_singleton] at hx; subst hx
        intro y hy; rw [List.mem_singleton] at hy; subst hy; exact Nat.one_lt_two
      · cases hx)
    (by simp) (by simp [FpVar.isVar]) nofun
  refine ⟨s', cs', h, (C113_size 1 _ _ _ _ _ h).1.trans ?_⟩
  rw [spongeCalls_map]
  rfl

/-- A permutation of constants, and one of too few words, panics. -/
example (i : Fin 7) (cs : CS Fq) (hs : cs.setup = true) (c : Fq) (x : FpVar Fq) :
    (¬ ∃ r, runCalls (shippedParams i) [.assign (List.replicate 9 (.constant c)), .permute] ([], cs) = .ok r) ∧
    ¬ ∃ r, runCalls (shippedParams i) [.set 0 x, .permute] ([.constant c], cs) = .ok r := by
  have hv : ∀ {P : Prop}, cs.setup = false → P := fun h => by rw [hs] at h; cases h
  constructor
  · rw [C113_runs i _ _ cs hv]
    rintro ⟨-, ⟨-, h⟩, -⟩
    have h := List.mem_of_mem_take h
    simp [WordCall.flags, WordCall.map, FpVar.isVar] at h
  · rw [C113_runs i _ _ cs hv]
    rintro ⟨-, ⟨h, -⟩, -⟩
    simp [WordCall.flags, WordCall.map] at h

end Poseidon
