import Verif.Props.CircuitHash
import Verif.Proofs.R1csGrow

/-!
# Properties C60 and C61: the gadget as a part of a larger circuit

* C60: it only appends to the constraint system;
* C61: the witnesses it allocates are determined by what was there before (no free witness), and always exist.
-/

namespace Poseidon

open R1cs

variable {F : Type} [Field F] [DecidableEq F]
variable {t tm1 nmds nhat rows cols nround npart : Nat}

/-- **C60.** Hashing in a circuit leaves everything already in the constraint system in place: earlier constraints, assigned
witnesses and public inputs; it adds no public input, and what it adds and returns is about allocated variables only. -/
theorem C60_appends (p : Params F t tm1 nmds nhat rows cols nround npart) (inputs : Vector (FpVar F) t) (cs cs' : CS F)
    (out : FpVar F) (hin : ∀ i : Fin t, inputs[i].Known cs) (h : R1cs.nTo1FixedHash p inputs cs = .ok (out, cs')) :
    cs.constraints <+: cs'.constraints ∧ cs.witnessAssignment <+: cs'.witnessAssignment ∧
      cs'.instanceAssignment = cs.instanceAssignment ∧ cs'.numInstance = cs.numInstance ∧ cs'.setup = cs.setup ∧
      out.Known cs' ∧ (WellFormed cs → WellFormed cs') := by
  obtain ⟨h1, h2⟩ := nTo1FixedHash_grows p inputs cs hin _ h
  exact ⟨h1.constraints, h1.witnessAssignment, h1.instanceAssignment, h1.numInstance, h1.setup, h2, h1.wellFormed⟩

/-- **C60**, consequence: a satisfying assignment of the larger system satisfies the smaller one, so the gadget can be used
several times in one circuit. -/
theorem C60_restricts (p : Params F t tm1 nmds nhat rows cols nround npart) (inputs : Vector (FpVar F) t) (cs cs' : CS F)
    (out : FpVar F) (hin : ∀ i : Fin t, inputs[i].Known cs) (h : R1cs.nTo1FixedHash p inputs cs = .ok (out, cs'))
    (σ : R1cs.Variable → F) (hσ : Satisfies σ cs') : Satisfies σ cs :=
  (nTo1FixedHash_grows p inputs cs hin _ h).1.satisfies hσ

/-- **C61.** For every assignment satisfying the constraints so far there is exactly one choice of values for the witnesses
allocated by the hash that satisfies the new constraints too. -/
theorem C61_exactly_one (p : Params F t tm1 nmds nhat rows cols nround npart) (inputs : Vector (FpVar F) t) (cs cs' : CS F)
    (out : FpVar F) (hw : WellFormed cs) (hin : ∀ i : Fin t, inputs[i].Known cs)
    (h : R1cs.nTo1FixedHash p inputs cs = .ok (out, cs')) (σ : R1cs.Variable → F) (hσ : Satisfies σ cs) :
    ∃! τ : R1cs.Variable → F, Satisfies τ cs' ∧
      ∀ v, (∀ i, v = .witness i → i < cs.numWitness ∨ cs'.numWitness ≤ i) → τ v = σ v := by
  obtain ⟨h1, -⟩ := nTo1FixedHash_grows p inputs cs hin _ h
  have hold : ∀ v : R1cs.Variable, (∀ i, v = .witness i → i < cs.numWitness ∨ cs'.numWitness ≤ i) ↔
      (v.Known cs ∨ ¬ v.Known cs' ∨ ∃ i, v = .input i) := by
    intro v
    cases v with
    | one => exact ⟨fun _ => Or.inl trivial, fun _ i hi => by cases hi⟩
    | input i => exact ⟨fun _ => Or.inr (Or.inr ⟨i, rfl⟩), fun _ j hj => by cases hj⟩
    | witness i =>
      constructor
      · intro hv
        rcases hv i rfl with hv | hv
        · exact Or.inl hv
        · exact Or.inr (Or.inl (Nat.not_lt.2 hv))
      · rintro (hv | hv | ⟨j, hj⟩) k hk
        · cases hk; exact Or.inl hv
        · cases hk; exact Or.inr (Nat.not_lt.1 hv)
        · cases hj
  obtain ⟨τ, h2, h3⟩ := h1.extend hw hσ
  have h4 : ∀ v, (∀ i, v = .witness i → i < cs.numWitness ∨ cs'.numWitness ≤ i) → τ v = σ v := by
    intro v hv
    rcases (hold v).1 hv with hv | hv | ⟨i, rfl⟩
    · exact h3 v (Or.inl hv)
    · exact h3 v (Or.inr hv)
    · by_cases hi : i < cs.numInstance
      · exact h3 _ (Or.inl hi)
      · exact h3 _ (Or.inr fun hc => hi (lt_of_lt_of_eq hc h1.numInstance))
  refine ⟨τ, ⟨h2, h4⟩, ?_⟩
  rintro τ' ⟨h5, h6⟩
  have hag : AgreeOn cs τ' τ := by
    intro v hv
    have := (hold v).2 (Or.inl hv)
    rw [h6 v this, h4 v this]
  have hag' := h1.unique h5 h2 hag
  funext v
  by_cases hv : v.Known cs'
  · exact hag' v hv
  · have := (hold v).2 (Or.inr (Or.inl hv))
    rw [h6 v this, h4 v this]

/-- **C61**, consequence: two satisfying assignments that agree on the variables present before agree on all. -/
theorem C61_no_free_witness (p : Params F t tm1 nmds nhat rows cols nround npart) (inputs : Vector (FpVar F) t) (cs cs' : CS F)
    (out : FpVar F) (hin : ∀ i : Fin t, inputs[i].Known cs) (h : R1cs.nTo1FixedHash p inputs cs = .ok (out, cs'))
    (σ τ : R1cs.Variable → F) (hσ : Satisfies σ cs') (hτ : Satisfies τ cs')
    (hag : ∀ v : R1cs.Variable, v.Known cs → σ v = τ v) : ∀ v : R1cs.Variable, v.Known cs' → σ v = τ v :=
  (nTo1FixedHash_grows p inputs cs hin _ h).1.unique hσ hτ hag

/-- The hypotheses are met: `hash_2` of two allocated witnesses and a constant domain separator, in setup mode. -/
example : ∃ (cs cs' : CS Fq) (inputs : Vector (FpVar Fq) 3) (out : FpVar Fq), WellFormed cs ∧
    (∀ i : Fin 3, inputs[i].Known cs) ∧ R1cs.nTo1FixedHash rate2Params inputs cs = .ok (out, cs') := by
  obtain ⟨out, cs', h⟩ := C11_shipped_setup 1
    #v[.constant 5, .var ⟨none, [(1, .witness 0)]⟩, .var ⟨none, [(1, .witness 1)]⟩] ⟨true, 1, 2, [], [], []⟩ rfl ⟨1, rfl⟩
  refine ⟨_, cs', _, out, ?_, ?_, h⟩
  · intro con hc
    exact absurd hc List.not_mem_nil
  · intro i
    fin_cases i
    · trivial
    · intro x hx; rw [List.mem_singleton.1 hx]; exact Nat.zero_lt_two
    · intro x hx; rw [List.mem_singleton.1 hx]; exact Nat.one_lt_two

end Poseidon
