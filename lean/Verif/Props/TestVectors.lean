import Verif.Props.WriteParams
import Verif.Spec.TestVectors

/-!
# Property C97: the keys of the tests, over many runs of their generator

`generate_test_vectors` (poseidon-tests/tests/poseidon377_r1cs.rs:268-275) overwrites the files that the tests read.  A history is any
number of runs, each with its own secrets, errors, and end: it may panic, or be killed at any point.  `loadKeys` is `none` if the tests do not
compile, because a file is missing, and an error if they panic when they read a key.
-/

namespace Poseidon

open Poseidon.Groth16

variable {E1 : Curve Fp} {E2 : Curve Fp2}
variable {G1 G2 GT : Type} [AddCommGroup G1] [Module Fq G1] [AddCommGroup G2] [Module Fq G2] [AddCommGroup GT] [Module Fq GT]
variable {S : Setting G1 G2} {back1 : Affine Fp → G1} {back2 : Affine Fp2 → G2}

theorem loadKeys_ok {files : Files} {k : ProvingKey (Affine Fp) (Affine Fp2)} {v : VerifyingKey (Affine Fp) (Affine Fp2)} :
    loadKeys E1 E2 files = some (.ok (k, v)) ↔
      ∃ a b, files = ⟨some a, some b⟩ ∧ preimagePk E1 E2 a = .ok k ∧ preimageVk E1 E2 b = .ok v := by
  rcases files with ⟨_ | a, _ | b⟩
  · simp [loadKeys]
  · simp [loadKeys]
  · simp [loadKeys]
  · simp only [loadKeys, Files.mk.injEq, Option.some.injEq]
    cases h1 : preimagePk E1 E2 a with
    | error p =>
      constructor
      · intro h
        cases h
      · rintro ⟨a', b', ⟨rfl, rfl⟩, h2, -⟩
        rw [h1] at h2
        cases h2
    | ok k' =>
      rw [ok_bind]
      cases h2 : preimageVk E1 E2 b with
      | error p =>
        constructor
        · intro h
          cases h
        · rintro ⟨a', b', ⟨rfl, rfl⟩, -, h3⟩
          rw [h2] at h3
          cases h3
      | ok v' =>
        rw [ok_bind]
        constructor
        · intro h
          cases h
          exact ⟨a, b, ⟨rfl, rfl⟩, h1, h2⟩
        · rintro ⟨a', b', ⟨rfl, rfl⟩, h3, h4⟩
          rw [h1] at h3
          rw [h2] at h4
          cases h3
          cases h4
          rfl

/-- Keys from the generator are valid, and their files have the sizes of the shipped ones. -/
theorem made_valid (hS : S.Good E1 E2 back1 back2) (x : Run) (hx : x.secrets.Usable) :
    ∃ pk, setup S.domain S.g1 S.g2 x.secrets x.circuit = .ok pk ∧ ValidPk E1 E2 (pk.map S.coords1 S.coords2) ∧
      (pk.map S.coords1 S.coords2).map back1 back2 = pk ∧ (writePk (pk.map S.coords1 S.coords2)).length = 1577232 ∧
      (writeVk (pk.map S.coords1 S.coords2).vk).length = 1448 := by
  obtain ⟨pk, pk', vk', h0, h1, h2, -, -, l1, l2⟩ := C90_generated S.domain hS.domain hS.size S.g1 S.g2 x.secrets hx x.circuit S.coords1 back1 S.coords2
    back2 hS.coords1 hS.coords2
  obtain ⟨pk₂, h0', m1, m2, m3, m4, m5, m6⟩ := C86_lengths S.domain hS.domain hS.size S.g1 S.g2 x.secrets hx x.circuit
  rw [h0] at h0'
  cases h0'
  have hl1 : ∀ l : List G1, l.length ≤ 4095 → (l.map S.coords1).length < 2 ^ 64 ∧ ∀ P ∈ l.map S.coords1, ValidPoint E1 P := fun l hl =>
    ⟨by rw [List.length_map]; exact hl.trans_lt (by norm_num), fun P hP => by
      obtain ⟨x, -, rfl⟩ := List.mem_map.1 hP
      exact (hS.coords1 x).1⟩
  have hl2 : ∀ l : List G2, l.length ≤ 4095 → (l.map S.coords2).length < 2 ^ 64 ∧ ∀ P ∈ l.map S.coords2, ValidPoint E2 P := fun l hl =>
    ⟨by rw [List.length_map]; exact hl.trans_lt (by norm_num), fun P hP => by
      obtain ⟨x, -, rfl⟩ := List.mem_map.1 hP
      exact (hS.coords2 x).1⟩
  refine ⟨pk, h0, ?_, map_map (fun x => (hS.coords1 x).2) (fun x => (hS.coords2 x).2) pk, l1, l2⟩
  exact ⟨⟨(hS.coords1 _).1, (hS.coords2 _).1, (hS.coords2 _).1, (hS.coords2 _).1, hl1 _ (m1.trans_le (by decide))⟩, (hS.coords1 _).1, (hS.coords1 _).1,
    hl1 _ (m2.trans_le (by decide)), hl1 _ (m3.trans_le (by decide)), hl2 _ (m4.trans_le (by decide)), hl1 _ (m5.trans_le (by decide)),
    hl1 _ (m6.trans_le (by decide))⟩

/-- What a run does. -/
theorem generate_eq {x : Run} {pk : ProvingKey G1 G2} (h : setup S.domain S.g1 S.g2 x.secrets x.circuit = .ok pk) (old : Files) :
    (generateTestVectors S x old).2 = (writeParamsRun S.capacity (S.pieces (writePk (pk.map S.coords1 S.coords2)))
      (S.pieces (writeVk (pk.map S.coords1 S.coords2).vk)) old x.responses).2 := by
  unfold generateTestVectors
  rw [h]

/-- **C97, unusable secrets.** If a secret that has to be inverted is zero the run panics, and touches no file. -/
theorem C97_unusable (hS : S.Good E1 E2 back1 back2) (x : Run) (hx : ¬ x.secrets.Usable) (old : Files) :
    generateTestVectors S x old = (.panicked, old) := by
  unfold generateTestVectors
  rw [C87_setup_fails S.domain hS.domain (by rw [hS.size]; decide) S.g1 S.g2 x.secrets x.circuit hx]

/-- After one run. -/
theorem one_run (hS : S.Good E1 E2 back1 back2) (x : Run) (old : Files) {k : ProvingKey (Affine Fp) (Affine Fp2)}
    {v : VerifyingKey (Affine Fp) (Affine Fp2)} (h : loadKeys E1 E2 (generateTestVectors S x old).2 = some (.ok (k, v))) :
    (generateTestVectors S x old).2 = old ∨ MadeBy S x k v := by
  by_cases hx : x.secrets.Usable
  · obtain ⟨pk, h0, hv, -⟩ := made_valid hS x hx
    rw [generate_eq h0] at h ⊢
    rcases run_states S.capacity (S.pieces (writePk (pk.map S.coords1 S.coords2))) (S.pieces (writeVk (pk.map S.coords1 S.coords2).vk)) old x.responses
      with e | e | ⟨a, b, e, ha, hb⟩
    · exact .inl e
    · rw [e] at h
      obtain ⟨a, b, e1, h1, -⟩ := loadKeys_ok.1 h
      rw [Files.mk.injEq] at e1
      cases e1.1
      cases h1
    · rw [e] at h
      obtain ⟨a', b', e1, h1, h2⟩ := loadKeys_ok.1 h
      cases e1
      rw [hS.pieces] at ha hb
      exact .inr ⟨pk, h0, (loaded_prefix hv ha h1).2, (loaded_prefix_vk hv hb h2).2⟩
  · rw [C97_unusable hS x hx]
    exact .inl rfl

theorem history_append (l l' : List Run) (files : Files) : history S (l ++ l') files = history S l' (history S l files) := by
  induction l generalizing files with
  | nil => rfl
  | cons x l ih => exact ih _

/-- **C97, keys that belong together.** After any history, whatever failed and whatever was killed: if both keys can be read, then no run has
changed the files that were there at first, or both were made by the same run, and no later one has changed them. -/
theorem C97_together (hS : S.Good E1 E2 back1 back2) (l : List Run) (old : Files) (k : ProvingKey (Affine Fp) (Affine Fp2))
    (v : VerifyingKey (Affine Fp) (Affine Fp2)) (h : loadKeys E1 E2 (history S l old) = some (.ok (k, v))) :
    history S l old = old ∨ ∃ l₁ x l₂, l = l₁ ++ x :: l₂ ∧ MadeBy S x k v ∧ history S l old = history S (l₁ ++ [x]) old := by
  induction l using List.reverseRecOn with
  | nil => exact .inl rfl
  | append_singleton l x ih =>
    rw [history_append] at h ⊢
    rcases one_run hS x (history S l old) h with e | hm
    · have e' : history S [x] (history S l old) = history S l old := e
      rw [e'] at h ⊢
      rcases ih h with e2 | ⟨l₁, y, l₂, rfl, hm, e2⟩
      · exact .inl e2
      · exact .inr ⟨l₁, y, l₂ ++ [x], by simp, hm, e2⟩
    · exact .inr ⟨l, x, [], rfl, hm, by rw [history_append]⟩

/-- **C97, the tests.** Start without keys that can be read.  After any history, if the tests can read both keys, then the happy path
passes, for all preimages and all randomness. -/
theorem C97_happy_path [DecidableEq GT] (hS : S.Good E1 E2 back1 back2) (e : G1 →ₗ[Fq] G2 →ₗ[Fq] GT) (he : e S.g1 S.g2 ≠ 0) (g : Fq)
    (hg : S.domain.Coset g) (l : List Run) (old : Files) (hold : ∀ kv, loadKeys E1 E2 old ≠ some (.ok kv))
    (k : ProvingKey (Affine Fp) (Affine Fp2)) (v : VerifyingKey (Affine Fp) (Affine Fp2))
    (h : loadKeys E1 E2 (history S l old) = some (.ok (k, v))) (preimages : Vector Fq 7) (debug : Bool) (r s : Fq) :
    happyPath debug e S.domain g (k.map back1 back2) (v.map back1 back2) r s preimages = .ok () := by
  rcases C97_together hS l old k v h with e' | ⟨l₁, x, l₂, -, ⟨pk, h0, rfl, rfl⟩, -⟩
  · rw [e'] at h
    exact absurd h (hold _)
  · have hx : x.secrets.Usable := by
      by_contra hx
      rw [C87_setup_fails S.domain hS.domain (by rw [hS.size]; decide) S.g1 S.g2 x.secrets x.circuit hx] at h0
      cases h0
    obtain ⟨pk₂, h1, h2⟩ := C87_happy_path e S.g1 S.g2 he S.domain hS.domain (by rw [hS.size]; decide) g hg x.secrets hx x.circuit preimages debug r s
    rw [h0] at h1
    cases h1
    have hm := map_map (fun x => (hS.coords1 x).2) (fun x => (hS.coords2 x).2) pk
    have hm' : (pk.vk.map S.coords1 S.coords2).map back1 back2 = pk.vk := congrArg ProvingKey.vk hm
    rw [hm, hm']
    exact h2

/-- **C97, the other test.** For every preimage there are at most 4095 bad values for the secret point.  Start without keys that can be read.  After
any history without these values, if the tests can read both keys, then the unhappy path passes too. -/
theorem C97_unhappy_path [DecidableEq GT] (hS : S.Good E1 E2 back1 back2) (e : G1 →ₗ[Fq] G2 →ₗ[Fq] GT) (he : e S.g1 S.g2 ≠ 0) (g : Fq)
    (hg : S.domain.Coset g) (preimages : Vector Fq 7) :
    ∃ bad : Finset Fq, bad.card ≤ 4095 ∧ ∀ l : List Run, (∀ x ∈ l, x.secrets.beta ≠ 0 ∧ x.secrets.tau ∉ bad) →
      ∀ old : Files, (∀ kv, loadKeys E1 E2 old ≠ some (.ok kv)) → ∀ k v, loadKeys E1 E2 (history S l old) = some (.ok (k, v)) →
        ∀ (debug : Bool) (r s : Fq), unhappyPath debug e S.domain g (k.map back1 back2) (v.map back1 back2) r s preimages = .ok () := by
  obtain ⟨bad, b1, b2⟩ := C87_unhappy_path e S.g1 S.g2 he S.domain hS.domain (by rw [hS.size]; decide) preimages
  refine ⟨bad, b1.trans (by rw [hS.size]), fun l hl old hold k v h debug r s => ?_⟩
  rcases C97_together hS l old k v h with e' | ⟨l₁, x, l₂, rfl, ⟨pk, h0, rfl, rfl⟩, -⟩
  · rw [e'] at h
    exact absurd h (hold _)
  · have hx : x.secrets.Usable := by
      by_contra hx
      rw [C87_setup_fails S.domain hS.domain (by rw [hS.size]; decide) S.g1 S.g2 x.secrets x.circuit hx] at h0
      cases h0
    obtain ⟨x1, x2⟩ := hl x (by simp)
    obtain ⟨pk₂, h1, h2⟩ := b2 x.secrets hx x1 x2 g hg x.circuit debug r s
    rw [h0] at h1
    cases h1
    have hm := map_map (fun x => (hS.coords1 x).2) (fun x => (hS.coords2 x).2) pk
    have hm' : (pk.vk.map S.coords1 S.coords2).map back1 back2 = pk.vk := congrArg ProvingKey.vk hm
    rw [hm, hm']
    exact h2

/-- **C97, the last run decides.** After any history, a run with usable secrets and without errors ends well; then its keys are read. -/
theorem C97_last (hS : S.Good E1 E2 back1 back2) (l : List Run) (x : Run) (hx : x.secrets.Usable) (hr : x.Undisturbed) (old : Files) :
    (generateTestVectors S x (history S l old)).1 = .ok ∧
      ∃ k v, loadKeys E1 E2 (history S (l ++ [x]) old) = some (.ok (k, v)) ∧ MadeBy S x k v := by
  obtain ⟨pk, h0, hv, -, l1, l2⟩ := made_valid hS x hx
  have hc := C91_complete S.capacity (pk.map S.coords1 S.coords2) _ _ (hS.pieces (writePk (pk.map S.coords1 S.coords2)))
    (hS.pieces (writeVk (pk.map S.coords1 S.coords2).vk)) (history S l old) x.responses hr.1
  have hk := hc.2 (by rw [l1, l2]; exact hr.2)
  obtain ⟨c1, c2⟩ := hc.1.resolve_left hk
  refine ⟨?_, _, _, ?_, pk, h0, rfl, rfl⟩
  · unfold generateTestVectors
    rw [h0]
    dsimp only
    rw [c1]
    rfl
  · rw [history_append]
    show loadKeys E1 E2 (generateTestVectors S x (history S l old)).2 = _
    rw [generate_eq h0, c2, loadKeys_ok]
    have hr := C90_roundtrip _ hv []
    rw [List.append_nil, List.append_nil] at hr
    exact ⟨_, _, rfl, hr.1, hr.2⟩

/-- **C97, how a run ends.** Without errors a run does not panic. -/
theorem C97_ends (hS : S.Good E1 E2 back1 back2) (x : Run) (hx : x.secrets.Usable) (old : Files) :
    (generateTestVectors S x old).1 ≠ .error ∧
    ((generateTestVectors S x old).1 = .panicked → ∃ r ∈ x.responses, ¬ r.Good) ∧
    ((∀ r ∈ x.responses, r.Good) → (generateTestVectors S x old).1 = .ok →
      ∃ k v, loadKeys E1 E2 (generateTestVectors S x old).2 = some (.ok (k, v)) ∧ MadeBy S x k v) := by
  obtain ⟨pk, h0, hv, -, l1, l2⟩ := made_valid hS x hx
  have hr := C91_reported S.capacity (S.pieces (writePk (pk.map S.coords1 S.coords2))) (S.pieces (writeVk (pk.map S.coords1 S.coords2).vk)) old x.responses
  have hc := C91_complete S.capacity (pk.map S.coords1 S.coords2) _ _ (hS.pieces (writePk (pk.map S.coords1 S.coords2)))
    (hS.pieces (writeVk (pk.map S.coords1 S.coords2).vk)) old x.responses
  have e1 : (generateTestVectors S x old).1 = if (writeParamsRun S.capacity (S.pieces (writePk (pk.map S.coords1 S.coords2)))
      (S.pieces (writeVk (pk.map S.coords1 S.coords2).vk)) old x.responses).1 = .error then .panicked else (writeParamsRun S.capacity
      (S.pieces (writePk (pk.map S.coords1 S.coords2))) (S.pieces (writeVk (pk.map S.coords1 S.coords2).vk)) old x.responses).1 := by
    unfold generateTestVectors
    rw [h0]
  rw [e1, generate_eq h0]
  generalize writeParamsRun S.capacity (S.pieces (writePk (pk.map S.coords1 S.coords2))) (S.pieces (writeVk (pk.map S.coords1 S.coords2).vk)) old
    x.responses = o at hr hc
  refine ⟨?_, fun h => ?_, fun hg h => ?_⟩
  · split <;> simp_all
  · refine hr.1 ?_
    by_cases he : o.1 = .error
    · exact .inl he
    · rw [if_neg he] at h
      exact .inr h
  · obtain ⟨c1, -⟩ := hc hg
    rcases c1 with c1 | ⟨-, c2⟩
    · rw [c1] at h
      simp at h
    · refine ⟨_, _, ?_, pk, h0, rfl, rfl⟩
      rw [c2, loadKeys_ok]
      have hr := C90_roundtrip _ hv []
      rw [List.append_nil, List.append_nil] at hr
      exact ⟨_, _, rfl, hr.1, hr.2⟩

/-- **C97, the old keys are lost first.** Whatever keys there are, a run that is killed after its first call, or whose second call fails,
leaves files that cannot be read. -/
theorem C97_lost (hS : S.Good E1 E2 back1 back2) (w : Secrets Fq) (hw : w.Usable) (c : R1cs.PreimageCircuit) (old : Files) (rs : List Response)
    (hrs : rs = [.done 1] ∨ ∃ rs', rs = .done 1 :: .failed :: rs') (kv) :
    loadKeys E1 E2 (generateTestVectors S ⟨w, c, rs⟩ old).2 ≠ some (.ok kv) := by
  obtain ⟨pk, h0, -⟩ := made_valid hS ⟨w, c, rs⟩ hw
  rw [generate_eq h0]
  have e : (writeParamsRun S.capacity (S.pieces (writePk (pk.map S.coords1 S.coords2))) (S.pieces (writeVk (pk.map S.coords1 S.coords2).vk)) old
      rs).2 = ⟨some [], old.vk⟩ := by
    rcases hrs with rfl | ⟨rs', rfl⟩
    · rfl
    · rfl
  dsimp only
  rw [e]
  intro h
  rcases kv with ⟨k, v⟩
  obtain ⟨a, b, e1, h1, -⟩ := loadKeys_ok.1 h
  rw [Files.mk.injEq] at e1
  cases e1.1
  cases h1

/-! ### The hypotheses are met -/

/-- There is such a setting: the field with multiplication, and points of some curves; buffers of 8192 bytes that get single bytes. -/
theorem setting_exists : ∃ (E1 : Curve Fp) (E2 : Curve Fp2) (S : Setting Fq Fq) (back1 : Affine Fp → Fq) (back2 : Affine Fp2 → Fq),
    S.Good E1 E2 back1 back2 ∧ (LinearMap.mul Fq Fq) S.g1 S.g2 ≠ 0 ∧ S.domain.Coset (22 : Nat) := by
  obtain ⟨E1, E2, f, f', g, g', hf, hg, he, hd, hs⟩ := coordinates_exist
  refine ⟨E1, E2, ⟨8192, fun w => w.map fun b => [b], f, g, domain4096, 1, 1⟩, f', g', ⟨hd, hs, fun w => ?_, hf, hg⟩, he, coset22⟩
  show (w.map fun b => [b]).flatten = w
  induction w with
  | nil => rfl
  | cons b w ih => rw [List.map_cons, List.flatten_cons, ih]; rfl

/-- There are usable secrets, and runs without errors. -/
example : ∃ x : Run, x.secrets.Usable ∧ x.Undisturbed :=
  ⟨⟨⟨3, 5, 7, 11, 13⟩, ⟨Vector.replicate 7 0, Vector.replicate 7 0⟩, List.replicate (2 + 1577232 + 1448) (.done 1)⟩,
    ⟨by show (7 : Fq) ≠ 0; decide +kernel, by show (11 : Fq) ≠ 0; decide +kernel⟩,
    fun r hr => by rw [List.eq_of_mem_replicate hr]; exact Nat.one_pos, by
      show _ ≤ effective (List.replicate _ _)
      unfold effective
      rw [List.countP_replicate]
      exact le_rfl⟩

/-- At first there may be no keys. -/
example (kv) : loadKeys E1 E2 ⟨none, none⟩ ≠ some (.ok kv) := fun h => by cases h

end Poseidon
