import Verif.Props.KeyFile
import Verif.Proofs.WriteParams

/-!
# Property C91: errors and crashes while the keys are written

`write_params` (poseidon-tests/tests/poseidon377_r1cs.rs:247-266) empties two files and fills them through buffers.  `rs` are the
responses of the operating system, errors included; after the last of them the process is killed.  So the theorems hold at every point
of every run.  `l1` and `l2` are the pieces in which the two keys are handed to the buffers, of `capacity` bytes.
-/

namespace Poseidon

open Poseidon.Groth16

variable {E1 : Curve Fp} {E2 : Curve Fp2}

/-- The three states in which the files can be. -/
theorem run_states (capacity : Nat) (l1 l2 : List (List UInt8)) (old : Files) (rs : List Response) :
    (writeParamsRun capacity l1 l2 old rs).2 = old ∨ (writeParamsRun capacity l1 l2 old rs).2 = ⟨some [], old.vk⟩ ∨
    ∃ a b, (writeParamsRun capacity l1 l2 old rs).2 = ⟨some a, some b⟩ ∧ a <+: l1.flatten ∧ b <+: l2.flatten := by
  unfold writeParamsRun
  rcases createFile_cases rs old.pk with ⟨rs1, e1⟩ | ⟨rs1, e1⟩ | e1
  · rw [e1]
    dsimp only
    rcases createFile_cases rs1 old.vk with ⟨rs2, e2⟩ | ⟨rs2, e2⟩ | e2
    · rw [e2]
      dsimp only
      have h1 := writeFile_prefix capacity l1 rs2
      rcases e3 : writeFile capacity l1 [] rs2 with ⟨s, a, rs3⟩
      rw [e3] at h1
      cases s with
      | ok =>
        dsimp only
        have h2 := writeFile_prefix capacity l2 rs3
        rcases e4 : writeFile capacity l2 [] rs3 with ⟨s, b, rs4⟩
        rw [e4] at h2
        cases s <;> exact .inr (.inr ⟨a, b, rfl, h1, h2⟩)
      | error => exact .inr (.inr ⟨a, [], rfl, h1, List.nil_prefix⟩)
      | killed => exact .inr (.inr ⟨a, [], rfl, h1, List.nil_prefix⟩)
    · rw [e2]
      exact .inr (.inl rfl)
    · rw [e2]
      exact .inr (.inl rfl)
  · rw [e1]
    exact .inl rfl
  · rw [e1]
    exact .inl rfl

/-- **C91, at every point of every run.** Each file is the old one or a beginning of the new one, whatever fails and whenever the process is
killed. -/
theorem C91_prefix (capacity : Nat) (pk : ProvingKey (Affine Fp) (Affine Fp2)) (l1 l2 : List (List UInt8)) (h1 : l1.flatten = writePk pk)
    (h2 : l2.flatten = writeVk pk.vk) (old : Files) (rs : List Response) :
    ((writeParamsRun capacity l1 l2 old rs).2.pk = old.pk ∨ ∃ a, (writeParamsRun capacity l1 l2 old rs).2.pk = some a ∧ a <+: writePk pk) ∧
    ((writeParamsRun capacity l1 l2 old rs).2.vk = old.vk ∨ ∃ b, (writeParamsRun capacity l1 l2 old rs).2.vk = some b ∧ b <+: writeVk pk.vk) := by
  rcases run_states capacity l1 l2 old rs with h | h | ⟨a, b, h, ha, hb⟩
  · rw [h]
    exact ⟨.inl rfl, .inl rfl⟩
  · rw [h]
    exact ⟨.inr ⟨[], rfl, List.nil_prefix⟩, .inl rfl⟩
  · rw [h]
    exact ⟨.inr ⟨a, rfl, h1 ▸ ha⟩, .inr ⟨b, rfl, h2 ▸ hb⟩⟩

/-- A beginning of a file that can be read is the whole file. -/
theorem loaded_prefix {pk : ProvingKey (Affine Fp) (Affine Fp2)} (h : ValidPk E1 E2 pk) {a : List UInt8} (ha : a <+: writePk pk)
    {k : ProvingKey (Affine Fp) (Affine Fp2)} (hk : preimagePk E1 E2 a = .ok k) : a = writePk pk ∧ k = pk := by
  have e := List.prefix_iff_eq_take.1 ha
  by_cases hl : a.length < (writePk pk).length
  · have := (C90_cut pk h a.length).1 hl
    rw [show (writeParams pk pk.vk).1 = writePk pk from rfl, ← e, hk] at this
    cases this
  · have e' := ha.eq_of_length_le (Nat.le_of_not_lt hl)
    have hr := (C90_roundtrip pk h []).1
    rw [List.append_nil, show (writeParams pk pk.vk).1 = writePk pk from rfl, ← e', hk] at hr
    cases hr
    exact ⟨e', rfl⟩

theorem loaded_prefix_vk {pk : ProvingKey (Affine Fp) (Affine Fp2)} (h : ValidPk E1 E2 pk) {b : List UInt8} (hb : b <+: writeVk pk.vk)
    {v : VerifyingKey (Affine Fp) (Affine Fp2)} (hv : preimageVk E1 E2 b = .ok v) : b = writeVk pk.vk ∧ v = pk.vk := by
  have e := List.prefix_iff_eq_take.1 hb
  by_cases hl : b.length < (writeVk pk.vk).length
  · have := (C90_cut pk h b.length).2 hl
    rw [show (writeParams pk pk.vk).2 = writeVk pk.vk from rfl, ← e, hv] at this
    cases this
  · have e' := hb.eq_of_length_le (Nat.le_of_not_lt hl)
    have hr := (C90_roundtrip pk h []).2
    rw [List.append_nil, show (writeParams pk pk.vk).2 = writeVk pk.vk from rfl, ← e', hv] at hr
    exact ⟨e', Except.ok.inj hr⟩

/-- **C91, what can be read afterwards.** After any run, if both files can be read, then they are the two old files, or the two new keys
are read: never another key, and never a new key with an old one. -/
theorem C91_no_mixture (capacity : Nat) (pk : ProvingKey (Affine Fp) (Affine Fp2)) (h : ValidPk E1 E2 pk) (l1 l2 : List (List UInt8))
    (h1 : l1.flatten = writePk pk) (h2 : l2.flatten = writeVk pk.vk) (old : Files) (rs : List Response) (a b : List UInt8)
    (ha : (writeParamsRun capacity l1 l2 old rs).2.pk = some a) (hb : (writeParamsRun capacity l1 l2 old rs).2.vk = some b)
    (k : ProvingKey (Affine Fp) (Affine Fp2)) (v : VerifyingKey (Affine Fp) (Affine Fp2)) (hk : preimagePk E1 E2 a = .ok k)
    (hv : preimageVk E1 E2 b = .ok v) : old.pk = some a ∧ old.vk = some b ∨ k = pk ∧ v = pk.vk := by
  rcases run_states capacity l1 l2 old rs with e | e | ⟨a', b', e, ha', hb'⟩
  · rw [e] at ha hb
    exact .inl ⟨ha, hb⟩
  · rw [e] at ha
    cases ha
    cases hk
  · rw [e] at ha hb
    cases ha
    cases hb
    exact .inr ⟨(loaded_prefix h (h1 ▸ ha') hk).2, (loaded_prefix_vk h (h2 ▸ hb') hv).2⟩

/-- **C91, each file alone.** A file that can be read after a run is the old file, or the new key is read from it. -/
theorem C91_each (capacity : Nat) (pk : ProvingKey (Affine Fp) (Affine Fp2)) (h : ValidPk E1 E2 pk) (l1 l2 : List (List UInt8))
    (h1 : l1.flatten = writePk pk) (h2 : l2.flatten = writeVk pk.vk) (old : Files) (rs : List Response) :
    (∀ a k, (writeParamsRun capacity l1 l2 old rs).2.pk = some a → preimagePk E1 E2 a = .ok k → old.pk = some a ∨ k = pk) ∧
    (∀ b v, (writeParamsRun capacity l1 l2 old rs).2.vk = some b → preimageVk E1 E2 b = .ok v → old.vk = some b ∨ v = pk.vk) := by
  obtain ⟨p1, p2⟩ := C91_prefix capacity pk l1 l2 h1 h2 old rs
  refine ⟨fun a k ha hk => ?_, fun b v hb hv => ?_⟩
  · rcases p1 with e | ⟨a', e, hp⟩
    · exact .inl (e ▸ ha)
    · rw [e] at ha
      cases ha
      exact .inr (loaded_prefix h hp hk).2
  · rcases p2 with e | ⟨b', e, hp⟩
    · exact .inl (e ▸ hb)
    · rw [e] at hb
      cases hb
      exact .inr (loaded_prefix_vk h hp hv).2

theorem good_run (capacity : Nat) (l1 l2 : List (List UInt8)) (old : Files) (rs : List Response) (hrs : ∀ r ∈ rs, r.Good) :
    ((writeParamsRun capacity l1 l2 old rs).1 = .killed ∨
      (writeParamsRun capacity l1 l2 old rs).1 = .ok ∧ (writeParamsRun capacity l1 l2 old rs).2 = ⟨some l1.flatten, some l2.flatten⟩) ∧
    (2 + l1.flatten.length + l2.flatten.length ≤ effective rs → (writeParamsRun capacity l1 l2 old rs).1 ≠ .killed) := by
  unfold writeParamsRun
  rcases createFile_good rs old.pk hrs with ⟨rs1, e1, g1, c1⟩ | ⟨e1, c1⟩
  · rw [e1]
    dsimp only
    rcases createFile_good rs1 old.vk g1 with ⟨rs2, e2, g2, c2⟩ | ⟨e2, c2⟩
    · rw [e2]
      dsimp only
      obtain ⟨w1, w2, w3, w4, w5⟩ := writeFile_good capacity l1 g2
      rcases e3 : writeFile capacity l1 [] rs2 with ⟨s, a, rs3⟩
      rw [e3] at w1 w2 w3 w4 w5
      cases s with
      | ok =>
        dsimp only
        have w2' : a = l1.flatten := w2 rfl
        subst w2'
        obtain ⟨v1, v2, v3, v4, v5⟩ := writeFile_good capacity l2 w3
        rcases e4 : writeFile capacity l2 [] rs3 with ⟨s, b, rs4⟩
        rw [e4] at v1 v2 v3 v4 v5
        cases s with
        | ok =>
          have v2' : b = l2.flatten := v2 rfl
          subst v2'
          exact ⟨.inr ⟨rfl, rfl⟩, fun _ => by simp⟩
        | error => exact absurd rfl v1
        | killed =>
          refine ⟨.inl rfl, fun hle => ?_⟩
          have := v5 rfl
          dsimp only at w4 this
          omega
      | error => exact absurd rfl w1
      | killed =>
        refine ⟨.inl rfl, fun hle => ?_⟩
        have := w5 rfl
        omega
    · rw [e2]
      exact ⟨.inl rfl, fun hle => by omega⟩
  · rw [e1]
    exact ⟨.inl rfl, fun hle => by omega⟩

/-- **C91, runs without errors.** If no call fails, short writes and interrupted calls included, then `write_params` returns `Ok` and both files
are complete, or the process was killed; and it is not killed if it gets as many answers as it has bytes to write, and two. -/
theorem C91_complete (capacity : Nat) (pk : ProvingKey (Affine Fp) (Affine Fp2)) (l1 l2 : List (List UInt8)) (h1 : l1.flatten = writePk pk)
    (h2 : l2.flatten = writeVk pk.vk) (old : Files) (rs : List Response) (hrs : ∀ r ∈ rs, r.Good) :
    ((writeParamsRun capacity l1 l2 old rs).1 = .killed ∨
      (writeParamsRun capacity l1 l2 old rs).1 = .ok ∧ (writeParamsRun capacity l1 l2 old rs).2 = ⟨some (writePk pk), some (writeVk pk.vk)⟩) ∧
    (2 + (writePk pk).length + (writeVk pk.vk).length ≤ effective rs → (writeParamsRun capacity l1 l2 old rs).1 ≠ .killed) := by
  rw [← h1, ← h2]
  exact good_run capacity l1 l2 old rs hrs

/-- **C91, an error that is not noticed.** The last bytes of a file are written when its buffer is dropped, which ignores errors: for every
key there is a run in which `write_params` returns `Ok` although the end of the proving key is missing, and reading that file panics. -/
theorem C91_silent (capacity : Nat) (pk : ProvingKey (Affine Fp) (Affine Fp2)) (h : ValidPk E1 E2 pk) (l1 l2 : List (List UInt8))
    (h1 : l1.flatten = writePk pk) (h2 : l2.flatten = writeVk pk.vk) (hl : ∀ x ∈ l1, x.length < capacity) (old : Files) :
    ∃ rs a, writeParamsRun capacity l1 l2 old rs = (.ok, ⟨some a, some (writeVk pk.vk)⟩) ∧ a ≠ writePk pk ∧
      preimagePk E1 E2 a = .error .unwrapNone := by
  have hne : l1.flatten ≠ [] := by
    rw [h1]
    intro e
    have hz := (C90_sizes pk).1
    rw [show (writeParams pk pk.vk).1 = writePk pk from rfl, e, List.length_nil] at hz
    omega
  obtain ⟨k, a, p1, p2, p3⟩ := writeFile_silent hl hne
  have hg : ∀ r ∈ List.replicate l2.flatten.length (Response.done 1), r.Good := fun r hr => by
    rw [List.eq_of_mem_replicate hr]
    exact Nat.one_pos
  obtain ⟨v1, v2, v3, v4, v5⟩ := writeFile_good capacity l2 hg
  have hc : effective (List.replicate l2.flatten.length (Response.done 1)) = l2.flatten.length := by
    unfold effective
    rw [List.countP_replicate]
    simp
  rcases e4 : writeFile capacity l2 [] (List.replicate l2.flatten.length (Response.done 1)) with ⟨s, b, rs4⟩
  rw [e4] at v1 v2 v5
  have hs : s = .ok := by
    cases s with
    | ok => rfl
    | error => exact absurd rfl v1
    | killed => exact absurd (v5 rfl) (by rw [hc]; exact lt_irrefl _)
  subst hs
  have hb : b = l2.flatten := v2 rfl
  refine ⟨.done 1 :: .done 1 :: (List.replicate k (.done capacity) ++ .failed :: List.replicate l2.flatten.length (.done 1)), a, ?_, h1 ▸ p2, ?_⟩
  · unfold writeParamsRun
    simp only [createFile]
    rw [p3]
    dsimp only
    rw [e4, hb, h2]
  · rw [h1] at p1 p2
    have hlt : a.length < (writePk pk).length := by
      rcases Nat.lt_or_ge a.length (writePk pk).length with hlt | hge
      · exact hlt
      · exact absurd (p1.eq_of_length_le hge) p2
    have := (C90_cut pk h a.length).1 hlt
    rwa [show (writeParams pk pk.vk).1 = writePk pk from rfl, ← List.prefix_iff_eq_take.1 p1] at this

/-- **C91, what `Ok` means.** If `write_params` returns `Ok`, each file is a beginning of the new one, and what is missing at its end is not more
than the capacity of the buffer. -/
theorem C91_ok (capacity : Nat) (pk : ProvingKey (Affine Fp) (Affine Fp2)) (l1 l2 : List (List UInt8)) (h1 : l1.flatten = writePk pk)
    (h2 : l2.flatten = writeVk pk.vk) (old : Files) (rs : List Response) (h : (writeParamsRun capacity l1 l2 old rs).1 = .ok) :
    ∃ a b, (writeParamsRun capacity l1 l2 old rs).2 = ⟨some a, some b⟩ ∧ a <+: writePk pk ∧ (writePk pk).length ≤ a.length + capacity ∧
      b <+: writeVk pk.vk ∧ (writeVk pk.vk).length ≤ b.length + capacity := by
  rw [← h1, ← h2]
  unfold writeParamsRun at h ⊢
  rcases createFile_cases rs old.pk with ⟨rs1, e1⟩ | ⟨rs1, e1⟩ | e1
  · rw [e1] at h ⊢
    dsimp only at h ⊢
    rcases createFile_cases rs1 old.vk with ⟨rs2, e2⟩ | ⟨rs2, e2⟩ | e2
    · rw [e2] at h ⊢
      dsimp only at h ⊢
      have p1 := writeFile_prefix capacity l1 rs2
      have m1 := writeFile_missing (capacity := capacity) (l := l1) (rs := rs2)
      rcases e3 : writeFile capacity l1 [] rs2 with ⟨s, a, rs3⟩
      rw [e3] at h p1 m1
      cases s with
      | ok =>
        dsimp only at h ⊢
        have p2 := writeFile_prefix capacity l2 rs3
        have m2 := writeFile_missing (capacity := capacity) (l := l2) (rs := rs3)
        rcases e4 : writeFile capacity l2 [] rs3 with ⟨s, b, rs4⟩
        rw [e4] at h p2 m2
        cases s with
        | ok => exact ⟨a, b, rfl, p1, m1 rfl, p2, m2 rfl⟩
        | error => cases h
        | killed => cases h
      | error => cases h
      | killed => cases h
    · rw [e2] at h
      cases h
    · rw [e2] at h
      cases h
  · rw [e1] at h
    cases h
  · rw [e1] at h
    cases h

/-- **C91, errors that are noticed.** `write_params` returns an error or panics only if a call failed; if a file cannot be created it
returns an error, and the verifying key is still the old one. -/
theorem C91_reported (capacity : Nat) (l1 l2 : List (List UInt8)) (old : Files) (rs : List Response) :
    ((writeParamsRun capacity l1 l2 old rs).1 = .error ∨ (writeParamsRun capacity l1 l2 old rs).1 = .panicked → ∃ r ∈ rs, ¬ r.Good) ∧
    writeParamsRun capacity l1 l2 old (.failed :: rs) = (.error, old) ∧
    writeParamsRun capacity l1 l2 old (.done 1 :: .failed :: rs) = (.error, ⟨some [], old.vk⟩) := by
  refine ⟨fun h => ?_, rfl, rfl⟩
  by_contra hn
  push Not at hn
  have hc := (good_run capacity l1 l2 old rs hn).1
  rcases h with h | h <;> rw [h] at hc <;> simp at hc

/-! ### The hypotheses are met -/

/-- The pieces may be single bytes, and a buffer of 8192 bytes takes them.  The shipped key is valid for the test that accepts all points. -/
example : ∃ l : List (List UInt8), l.flatten = writePk shippedPk ∧ (∀ x ∈ l, x.length < 8192) ∧
    ValidPk (bls1 fun _ => true) (bls2 fun _ => true) shippedPk := by
  refine ⟨(writePk shippedPk).map fun b => [b], ?_, fun x hx => ?_, shippedPk_valid (fun _ _ _ => rfl) fun _ _ _ => rfl⟩
  · generalize writePk shippedPk = w
    induction w with
    | nil => rfl
    | cons b w ih => rw [List.map_cons, List.flatten_cons, ih]; rfl
  · obtain ⟨b, -, rfl⟩ := List.mem_map.1 hx
    exact (by norm_num : 1 < 8192)

/-- There are runs without errors of any length. -/
example (n : Nat) : ∃ rs : List Response, (∀ r ∈ rs, r.Good) ∧ n ≤ effective rs :=
  ⟨List.replicate n (.done 1), fun r hr => by rw [List.eq_of_mem_replicate hr]; exact Nat.one_pos, by
    unfold effective
    rw [List.countP_replicate]
    simp⟩

end Poseidon
