import Verif.Spec.CircuitFields
import Verif.Proofs.CircuitState
import Verif.Props.Panics

/-!
# Lemmas about an `InstanceVar` all of whose fields change: one step
-/

namespace Poseidon

open R1cs

variable {t k nmds nhat rows nround npart : Nat}

theorem exponent?_eq {p : Params Fq t k nmds nhat rows t nround npart} {e : Nat} (h : p.alpha = .exponent e) : p.exponent? = some e := by
  unfold Params.exponent?
  rw [h]

theorem alpha_of_isSome {p : Params Fq t k nmds nhat rows t nround npart} (h : p.exponent?.isSome) : ∃ e, p.alpha = .exponent e := by
  unfold Params.exponent? at h
  cases ha : p.alpha with
  | exponent e => exact ⟨e, rfl⟩
  | inverse => rw [ha] at h; cases h

/-- Without the optimizations, for a state of two words or more. -/
theorem plainPermute_eq (p : Params Fq t k nmds nhat rows t nround npart) (ht : 2 ≤ t) (x : Vector Fq t) :
    plainPermute p x = unoptimizedPermute p x := by
  unfold plainPermute
  rw [Instance.unoptimizedNTo1FixedHash, setState_eq, ok_bind]
  show (unoptimizedPermute p x >>= _) >>= _ = _
  cases hp : unoptimizedPermute p x with
  | error e => rfl
  | ok v =>
    rw [ok_bind, aget_lt _ (by omega)]
    rfl

theorem half_succ {p : Params Fq t k nmds nhat rows t nround npart} (hp : Sensible p) : ∃ n, p.rounds.full / 2 = n + 1 :=
  ⟨p.rounds.rF / 2 - 1, by have := hp.full; simp only [RoundNumbers.full]; omega⟩

theorem permuteIn_first (p : Params Fq t k nmds nhat rows t nround npart) {n : Nat} (hn : p.rounds.full / 2 = n + 1)
    (s : List (FpVar Fq)) (cs : CS Fq) :
    R1cs.permute p s cs = R1cs.round p true (s, 0, cs) >>= fun st => do
      let st ← forRange 1 (n + 1) st fun _ st => R1cs.round p true st
      let st ← forRange 0 p.rounds.partialRounds st fun _ st => R1cs.round p false st
      let st ← forRange 0 (n + 1) st fun _ st => R1cs.round p true st
      return (st.1, st.2.2) := by
  unfold R1cs.permute
  rw [hn]
  show forRange 0 (n + 1) _ _ >>= _ = _
  rw [forRange_zero_succ, bind_assoc]

theorem permuteIn_take (p : Params Fq t k nmds nhat rows t nround npart) (hp : Sensible p) (ht : 0 < t) (hm : nmds = t * t)
    (s : List (FpVar Fq)) (cs : CS Fq) (hs : t ≤ s.length) : R1cs.permute p s cs = R1cs.permute p (s.take t) cs := by
  obtain ⟨n, hn⟩ := half_succ hp
  rw [permuteIn_first p hn, permuteIn_first p hn]
  congr 1
  have := round_append p ht hm true (s := s.take t) (s.drop t) 0 cs (by simp; omega)
  rwa [List.take_append_drop] at this

theorem permuteIn_short (p : Params Fq t k nmds nhat rows t nround npart) (hp : Sensible p)
    (s : List (FpVar Fq)) (cs : CS Fq) (hs : s.length < t) : Ens (fun _ => False) (R1cs.permute p s cs) := by
  obtain ⟨n, hn⟩ := half_succ hp
  rw [permuteIn_first p hn]
  exact Ens.bind (round_short p true 0 cs hs) fun _ h => h.elim

theorem permuteIn_const (p : Params Fq t k nmds nhat rows t nround npart) (hp : Sensible p) (ht : 0 < t) (hm : nmds = t * t)
    {e : Nat} (he : p.alpha = .exponent e) (s : List (FpVar Fq)) (cs : CS Fq) (hs : s.length = t) (hc : ∀ x ∈ s, x.isVar = false) :
    Ens (fun _ => False) (R1cs.permute p s cs) := by
  obtain ⟨n, hn⟩ := half_succ hp
  have := hp.exponent e he
  rw [permuteIn_first p hn]
  exact Ens.bind (round_const p he (by omega) this.1 ht hm true s 0 cs hs hc) fun _ h => h.elim

theorem permuteIn_inverse (p : Params Fq t k nmds nhat rows t nround npart) (hp : Sensible p) (he : p.alpha = .inverse)
    (s : List (FpVar Fq)) (cs : CS Fq) : Ens (fun _ => False) (R1cs.permute p s cs) := by
  obtain ⟨n, hn⟩ := half_succ hp
  rw [permuteIn_first p hn]
  refine Ens.bind (Q := fun _ => False) ?_ fun _ h => h.elim
  unfold R1cs.round
  refine Ens.bind (Q := fun _ => True) (fun _ _ => trivial) fun a _ => ?_
  refine Ens.bind (Q := fun _ => False) ?_ (fun _ h => h.elim)
  rw [he]
  exact Ens.error

theorem permuteIn_flagsAfter (p : Params Fq t k nmds nhat rows t nround npart) (hp : Sensible p) (ht : 0 < t) (hm : nmds = t * t)
    {e : Nat} (he : p.alpha = .exponent e) (s : List (FpVar Fq)) (cs : CS Fq) (hs : s.length = t) :
    Ens (fun r => r.1.map FpVar.isVar = List.replicate t true) (R1cs.permute p s cs) := by
  obtain ⟨n, hn⟩ := half_succ hp
  obtain ⟨e0, e1⟩ := hp.exponent e he
  have e2 : e < 2 ^ 64 := by omega
  have R := fun full n a => rounds_count p he e2 e0 ht hm full n a
  unfold R1cs.permute
  rw [hn]
  have h1 : Ens (fun r => r.1.length = t ∧ numVar r.1 = t) (forRange 0 (n + 1) (s, 0, cs) fun _ st => R1cs.round p true st) := by
    rw [forRange_succ (Nat.zero_le n)]
    refine Ens.bind (Q := fun r => r.1.length = t) ?_ fun r hr => ?_
    · refine Ens.forRange (Inv := fun _ (r : List (FpVar Fq) × Nat × CS Fq) => r.1.length = t) (Nat.zero_le _) hs ?_
      intro k r _ _ hr
      exact (round_count p he e2 e0 ht hm true r hr).mono fun _ h => h.1
    · exact (round_count p he e2 e0 ht hm true r hr).mono fun _ h => ⟨h.1, h.2.1⟩
  refine Ens.bind h1 fun r hr => ?_
  refine Ens.bind (R false _ r hr.1 hr.2) fun r hr => ?_
  refine Ens.bind (R true _ r hr.1 hr.2.1) fun r hr => ?_
  refine Ens.ok ?_
  have := all_of_numVar (s := r.1) (hr.2.1.trans hr.1.symm)
  rwa [hr.1] at this

theorem permuteIn_adds (p : Params Fq t k nmds nhat rows t nround npart) (hp : Sensible p) (ht : 0 < t) (hm : nmds = t * t)
    {e : Nat} (he : p.alpha = .exponent e) (s : List (FpVar Fq)) (cs : CS Fq) (hs : s.length = t) :
    Ens (fun r => Adds (sboxCost e * (numVar s + (2 * (p.rounds.rF / 2) - 1) * t + p.rounds.rP)) cs r.2) (R1cs.permute p s cs) := by
  obtain ⟨n, hn⟩ := half_succ hp
  obtain ⟨e0, e1⟩ := hp.exponent e he
  have h := permute_count p he (by omega) e0 ht hm hn s hs cs
  have : 2 * (p.rounds.rF / 2) - 1 = 2 * n + 1 := by simp only [RoundNumbers.full] at hn; omega
  rw [this]
  exact h

/-- What the circuit computes is what the native code without optimizations computes, and that runs. -/
theorem permuteIn_sound (p : Params Fq t k nmds nhat rows t nround npart) (hp : Sensible p) (ht : 2 ≤ t) (hm : nmds = t * t)
    {e : Nat} (he : p.alpha = .exponent e) {s s' : List (FpVar Fq)} {cs cs' : CS Fq} (hs : s.length = t)
    (h : R1cs.permute p s cs = .ok (s', cs')) (σ : R1cs.Variable → Fq) :
    ∃ b : Vector Fq t, plainPermute p (Vector.ofFn fun j : Fin t => (s[j.val]'(by omega)).eval σ) = .ok b ∧
      (Satisfies σ cs' → s'.map (FpVar.eval σ) = b.toList) := by
  obtain ⟨e0, e1⟩ := hp.exponent e he
  have h0 : Sound σ s cs (Vector.ofFn fun j : Fin t => (s[j.val]'(by omega)).eval σ) := by
    refine ⟨hs, fun _ j hj hj' => ?_⟩
    simp
  obtain ⟨b, hb, h1, h2⟩ := permute_sound σ p he (by omega) (by omega) hm h0 _ h
  dsimp only at h1 h2
  refine ⟨b, (plainPermute_eq p ht _).trans hb, fun hσ => ?_⟩
  apply List.ext_getElem
  · simp [h1]
  · intro j hj hj'
    rw [List.getElem_map, h2 hσ j (by simpa using hj) (by simpa using hj')]
    simp

/-- What is left of a step when the words cannot be permuted: it does not depend on the parameters. -/
theorem step_flagsIn {p : Params Fq t k nmds nhat rows t nround npart} (hp : Sensible p) (ht : 2 ≤ t) (hm : nmds = t * t)
    (ha : nround = rows * t) {c : WordCall (FpVar Fq)} {s s' : List (FpVar Fq)} {cs cs' : CS Fq} (h : c.run p (s, cs) = .ok (s', cs')) :
    (c.map FpVar.isVar).Allowed t (s.map FpVar.isVar) ∧
    (c.map FpVar.isVar = .permute → p.exponent?.isSome ∧ 2 * (p.rounds.rF / 2) + p.rounds.rP ≤ rows) ∧
    s'.map FpVar.isVar = (c.map FpVar.isVar).flags t (s.map FpVar.isVar) ∧
    Adds ((c.map FpVar.isVar).costIn p (s.map FpVar.isVar)) cs cs' := by
  cases c with
  | permute =>
    have h : R1cs.permute p s cs = .ok (s', cs') := h
    cases hal : p.alpha with
    | inverse => exact (permuteIn_inverse p hp hal s cs _ h).elim
    | exponent e =>
      by_cases hl : t ≤ s.length
      · rw [permuteIn_take p hp (by omega) hm s cs hl] at h
        have hl' : (s.take t).length = t := by simp; omega
        refine ⟨⟨by simpa using hl, ?_⟩, fun _ => ⟨by rw [exponent?_eq hal]; rfl, ?_⟩,
          permuteIn_flagsAfter p hp (by omega) hm hal _ cs hl' _ h, ?_⟩
        · rw [take_flags]
          by_contra hn
          refine permuteIn_const p hp (by omega) hm hal _ cs hl' (fun x hx => ?_) _ h
          by_contra hx'
          exact hn (List.mem_map.2 ⟨x, hx, by simpa using hx'⟩)
        · obtain ⟨b, hb, -⟩ := permuteIn_sound p hp ht hm hal hl' h fun _ => 0
          rw [plainPermute_eq p ht] at hb
          exact unoptimizedPermute_ens p (by omega) ha _ b hb
        · have := permuteIn_adds p hp (by omega) hm hal _ cs hl' _ h
          rw [← numVar_take] at this
          simp only [WordCall.map, WordCall.costIn]
          rw [exponent?_eq hal]
          exact this
      · exact (permuteIn_short p hp s cs (by omega) _ h).elim
  | assign l => exact (step_flags 0 (c := .assign l) (s := s) h).imp id fun x => ⟨nofun, x⟩
  | set k x => exact (step_flags 0 (c := .set k x) h).imp id fun x => ⟨nofun, x⟩
  | arith op k x => exact (step_flags 0 (c := .arith op k x) h).imp id fun x => ⟨nofun, x⟩
  | combine op k j => exact (step_flags 0 (c := .combine op k j) h).imp id fun x => ⟨nofun, x⟩

theorem step_growsIn (p : Params Fq t k nmds nhat rows t nround npart) {c : WordCall (FpVar Fq)} {s s' : List (FpVar Fq)} {cs cs' : CS Fq}
    (h : c.run p (s, cs) = .ok (s', cs')) (hs : KnownAll cs s) (hc : KnownAll cs c.args) : Grows cs cs' ∧ KnownAll cs' s' := by
  cases c with
  | permute => exact permute_grows p hs _ h
  | assign l => exact step_grows 0 (c := .assign l) (s := s) h hs hc
  | set k x => exact step_grows 0 (c := .set k x) h hs hc
  | arith op k x => exact step_grows 0 (c := .arith op k x) h hs hc
  | combine op k j => exact step_grows 0 (c := .combine op k j) h hs hc

theorem step_soundIn {p : Params Fq t k nmds nhat rows t nround npart} (hp : Sensible p) (ht : 2 ≤ t) (hm : nmds = t * t)
    (ha : nround = rows * t) {c : WordCall (FpVar Fq)} {s s' : List (FpVar Fq)} {cs cs' : CS Fq}
    (h : c.run p (s, cs) = .ok (s', cs')) {σ : R1cs.Variable → Fq} (hσ : Satisfies σ cs') :
    (c.map (FpVar.eval σ)).nativeWith (plainPermute p) (s.map (FpVar.eval σ)) = .ok (s'.map (FpVar.eval σ)) := by
  cases c with
  | permute =>
    obtain ⟨⟨hal, -⟩, h2, -⟩ := step_flagsIn hp ht hm ha h
    obtain ⟨e, he⟩ := alpha_of_isSome (h2 rfl).1
    have hal : t ≤ s.length := by simpa using hal
    have h : R1cs.permute p s cs = .ok (s', cs') := h
    rw [permuteIn_take p hp (by omega) hm s cs hal] at h
    have hl' : (s.take t).length = t := by simp; omega
    obtain ⟨b, hb, h1⟩ := permuteIn_sound p hp ht hm he hl' h σ
    simp only [WordCall.map, WordCall.nativeWith]
    rw [dif_pos (by simpa using hal)]
    have hv : (Vector.ofFn fun j : Fin t => (s.map (FpVar.eval σ))[j.val]'(by simp; omega)) =
        Vector.ofFn fun j : Fin t => ((s.take t)[j.val]'(by omega)).eval σ := by
      ext; simp
    rw [hv, hb, ok_bind, h1 hσ]
    rfl
  | assign l => exact step_sound 0 (c := .assign l) (s := s) h hσ
  | set k x => exact step_sound 0 (c := .set k x) h hσ
  | arith op k x => exact step_sound 0 (c := .arith op k x) h hσ
  | combine op k j => exact step_sound 0 (c := .combine op k j) h hσ

theorem step_shapeIn (p : Params Fq t k nmds nhat rows t nround npart) {c : WordCall (FpVar Fq)} {s s' : List (FpVar Fq)} {cs cs' : CS Fq}
    (h : c.run p (s, cs) = .ok (s', cs')) :
    (c.map FpVar.shape).run p (s.map FpVar.shape, cs.shape) = .ok (s'.map FpVar.shape, cs'.shape) := by
  cases c with
  | permute =>
    obtain ⟨r, h1, rfl⟩ := permute_shape p s cs _ h
    exact h1
  | assign l => exact step_shape 0 (c := .assign l) (s := s) h
  | set k x => exact step_shape 0 (c := .set k x) h
  | arith op k x => exact step_shape 0 (c := .arith op k x) h
  | combine op k j => exact step_shape 0 (c := .combine op k j) h

/-- An allowed step returns. -/
theorem step_completeIn {p : Params Fq t k nmds nhat rows t nround npart} (hp : Sensible p) (ht : 2 ≤ t) (hm : nmds = t * t)
    (hr : nround = rows * t) {c : WordCall (FpVar Fq)} {s : List (FpVar Fq)} {cs : CS Fq}
    (ha : (c.map FpVar.isVar).Allowed t (s.map FpVar.isVar))
    (hf : c.map FpVar.isVar = .permute → p.exponent?.isSome ∧ 2 * (p.rounds.rF / 2) + p.rounds.rP ≤ rows)
    (hv : cs.setup = false → Proving cs ∧ (∀ x ∈ s, Valued cs x) ∧ ∀ x ∈ c.args, Valued cs x) :
    ∃ s' cs', c.run p (s, cs) = .ok (s', cs') ∧ cs'.setup = cs.setup ∧
      (cs.setup = false → Ext cs cs' ∧ ∀ x ∈ s', Valued cs' x) := by
  cases c with
  | permute =>
    obtain ⟨hl, hvar⟩ := ha
    obtain ⟨hsome, hfit⟩ := hf rfl
    obtain ⟨e, he⟩ := alpha_of_isSome hsome
    obtain ⟨e0, e1⟩ := hp.exponent e he
    have hl : t ≤ s.length := by simpa using hl
    have hl' : (s.take t).length = t := by simp; omega
    rw [take_flags] at hvar
    obtain ⟨x, hx, hxv⟩ := List.mem_map.1 hvar
    obtain ⟨j, hj, rfl⟩ := List.getElem_of_mem hx
    obtain ⟨v, hcar⟩ : ∃ v : Vector Fq t, cs.setup = false → ∀ j (h : j < (s.take t).length) (h' : j < t),
        Carries cs (s.take t)[j] v[j] := by
      cases hset : cs.setup with
      | true => exact ⟨Vector.replicate _ 0, nofun⟩
      | false =>
        have hm := (hv hset).2.1
        have hval : ∀ j : Fin t, ∃ a, Carries cs ((s.take t)[j.val]'(by rw [hl']; exact j.isLt)) a :=
          fun j => hm _ (List.mem_of_mem_take (List.getElem_mem _))
        choose f hf using hval
        refine ⟨Vector.ofFn f, fun _ j h h' => ?_⟩
        have := hf ⟨j, h'⟩
        simpa using this
    have h0 : Comp cs v (s.take t) cs := ⟨hl', rfl, ⟨j, hj, hxv⟩, fun hs => ⟨.refl (hv hs).1, hcar hs⟩⟩
    obtain ⟨w, hw⟩ := tri_ok he (unoptimizedPermute_tri p (by omega) hm hr hfit v)
    obtain ⟨⟨s', cs'⟩, h1, h2⟩ := permute_complete p he (by omega) e0 (by omega) hm h0 _ hw
    refine ⟨s', cs', (permuteIn_take p hp (by omega) hm s cs hl).trans h1, h2.setup, fun hs => ?_⟩
    obtain ⟨e, hc⟩ := h2.carries (h2.setup.trans hs)
    refine ⟨e, fun x hx => ?_⟩
    obtain ⟨j, hj, rfl⟩ := List.getElem_of_mem hx
    exact ⟨_, hc j hj (by have := h2.len; dsimp only at this hj; omega)⟩
  | assign l => exact step_complete 0 (c := .assign l) (s := s) ha hv
  | set k x => exact step_complete 0 (c := .set k x) ha hv
  | arith op k x => exact step_complete 0 (c := .arith op k x) ha hv
  | combine op k j => exact step_complete 0 (c := .combine op k j) ha hv

end Poseidon
