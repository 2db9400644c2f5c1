import Verif.Props.Circuit

/-!
# The size of the circuit with fewer than two full rounds (C12)

`C12_size` is for parameters with at least two full rounds.  With fewer there is no full round (the code halves the number), and the first partial round acts on
the domain separator.
-/

set_option linter.unusedSectionVars false

namespace Poseidon

open R1cs

variable {F : Type} [Field F] [DecidableEq F]
variable {t tm1 nmds nhat rows cols nround npart : Nat}

theorem loopN_round (p : Params F t tm1 nmds nhat rows cols nround npart) (full : Bool) : ∀ (n i j : Nat) (a : List (FpVar F) × Nat × CS F),
    loopN (fun _ st => R1cs.round p full st) n i a = loopN (fun _ st => R1cs.round p full st) n j a := by
  intro n
  induction n with
  | zero => intro i j a; rfl
  | succ n ih =>
    intro i j a
    rw [loopN, loopN]
    congr 1
    funext b
    exact ih _ _ b

/-- **C12, fewer than two full rounds.** -/
theorem C12_size_no_full (p : Params F t tm1 nmds nhat rows cols nround npart) {e : Nat}
    (ha : p.alpha = .exponent e) (he : e < 2 ^ 32) (h0 : 0 < e) (ht : 1 < t) (hm : nmds = t * t)
    (hf : p.rounds.rF < 2) (inputs : Vector (FpVar F) t) (cs cs' : CS F) (out : FpVar F)
    (h : R1cs.nTo1FixedHash p inputs cs = .ok (out, cs')) :
    let sboxes := if p.rounds.rP = 0 then 0 else (if inputs[0].isVar = true then 1 else 0) + (p.rounds.rP - 1)
    cs'.constraints.length = cs.constraints.length + sboxCost e * sboxes ∧
      cs'.numWitness = cs.numWitness + sboxCost e * sboxes ∧ cs'.numInstance = cs.numInstance := by
  have he' : e < 2 ^ 64 := lt_trans he (by norm_num)
  unfold R1cs.nTo1FixedHash at h
  cases hp : R1cs.permute p inputs.toList cs with
  | error e => rw [hp] at h; cases h
  | ok r =>
    obtain ⟨s, cs1⟩ := r
    rw [hp, ok_bind] at h
    dsimp only at h
    have hcs : cs1 = cs' := by
      cases hl : lget s 1 with
      | error e => rw [hl] at h; cases h
      | ok x => rw [hl] at h; cases h; rfl
    subst hcs
    dsimp only
    have hzero : p.rounds.rF / 2 = 0 := by omega
    unfold R1cs.permute at hp
    have hzero' : p.rounds.full / 2 = 0 := hzero
    simp only [hzero'] at hp
    have key : Ens (fun r : List (FpVar F) × CS F => Adds (sboxCost e * if p.rounds.rP = 0 then 0 else
        (if inputs[0].isVar = true then 1 else 0) + (p.rounds.rP - 1)) cs r.2) (do
          let st ← forRange 0 0 (inputs.toList, 0, cs) fun _ st => R1cs.round p true st
          let st ← forRange 0 p.rounds.partialRounds st fun _ st => R1cs.round p false st
          let st ← forRange 0 0 st fun _ st => R1cs.round p true st
          return (st.1, st.2.2)) := by
      refine Ens.bind (Q := fun r => r = (inputs.toList, 0, cs)) (Ens.ok rfl) ?_
      rintro _ rfl
      refine Ens.bind (Q := fun r => Adds (sboxCost e * if p.rounds.rP = 0 then 0 else
        (if inputs[0].isVar = true then 1 else 0) + (p.rounds.rP - 1)) cs r.2.2) ?_ fun r hr => Ens.bind (Q := fun r' => r' = r) (Ens.ok rfl) ?_
      swap
      · rintro _ rfl
        exact Ens.ok hr
      · show Ens _ (forRange 0 p.rounds.rP _ _)
        generalize p.rounds.rP = rp
        cases rp with
        | zero => exact Ens.ok (by simpa using Adds.refl cs)
        | succ n =>
          refine Ens.bind (round_count p ha he' (by omega) (by omega) hm false (inputs.toList, 0, cs) (by simp)) ?_
          rintro r ⟨h1, h2, h3⟩
          have hr := rounds_count p ha he' (by omega) (by omega) hm false n r h1 h2
          intro r' hr'
          obtain ⟨h4, h5, h6⟩ := hr r' (by rw [← hr']; exact loopN_round p false _ _ _ _)
          convert h3.trans h6 using 1
          have hv : R1cs.numVar (inputs.toList.take 1) = if inputs[0].isVar = true then 1 else 0 := by
            have : inputs.toList.take 1 = [inputs[0]] := by
              refine List.ext_getElem (by simp; omega) fun j h1 h2 => ?_
              have : j = 0 := by simpa using h2
              subst this
              simp
            rw [this, R1cs.numVar, List.countP_singleton]
          simp only [Bool.false_eq_true, if_false, hv, Nat.succ_ne_zero, Nat.add_sub_cancel]
          ring
    exact key _ hp

local instance : Fact (Nat.Prime 7) := ⟨by norm_num⟩

/-- Two partial rounds and one full round that is never made, with the exponent 5: the first S-box is on a constant, the second costs 3. -/
example : ∃ out cs', R1cs.nTo1FixedHash { toyParams with rounds := ⟨2, 1⟩ } #v[.constant 2, .var ⟨some 3, [(1, .witness 0)]⟩] toyCS = .ok (out, cs') ∧
    cs'.constraints.length = 3 := by
  obtain ⟨out, cs', h⟩ : ∃ out cs', R1cs.nTo1FixedHash { toyParams with rounds := ⟨2, 1⟩ }
      #v[.constant 2, .var ⟨some 3, [(1, .witness 0)]⟩] toyCS = .ok (out, cs') := ⟨_, _, rfl⟩
  refine ⟨out, cs', h, ?_⟩
  have h5 := (C12_size_no_full { toyParams with rounds := ⟨2, 1⟩ } (e := 5) rfl (by norm_num) (by norm_num) (by norm_num) rfl (by decide) _ _ _ _ h).1
  exact h5.trans (by decide)

end Poseidon
