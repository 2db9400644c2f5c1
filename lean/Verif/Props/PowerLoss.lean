import Verif.Model.PowerLoss
import Verif.Props.Race

/-!
# Property C103: a loss of power

Nothing brings the files with the keys to the disk.  After a loss of power they need not be as they were when the last run ended, and not both as
they were at the same moment.
-/

namespace Poseidon

open Poseidon.Groth16

variable {E1 : Curve Fp} {E2 : Curve Fp2}
variable {G1 G2 GT : Type} [AddCommGroup G1] [Module Fq G1] [AddCommGroup G2] [Module Fq G2] [AddCommGroup GT] [Module Fq GT]
variable {S : Setting G1 G2} {back1 : Affine Fp → G1} {back2 : Affine Fp2 → G2}

/-- One of the two files of one run: the old one or a beginning of the new one. -/
theorem generate_prefix (hS : S.Good E1 E2 back1 back2) (x : Run) (old : Files) :
    ((generateTestVectors S x old).2.pk = old.pk ∨ ∃ pk a, setup S.domain S.g1 S.g2 x.secrets x.circuit = .ok pk ∧
      (generateTestVectors S x old).2.pk = some a ∧ a <+: writePk (pk.map S.coords1 S.coords2)) ∧
    ((generateTestVectors S x old).2.vk = old.vk ∨ ∃ pk a, setup S.domain S.g1 S.g2 x.secrets x.circuit = .ok pk ∧
      (generateTestVectors S x old).2.vk = some a ∧ a <+: writeVk (pk.vk.map S.coords1 S.coords2)) := by
  cases h0 : setup S.domain S.g1 S.g2 x.secrets x.circuit with
  | error e =>
    have : (generateTestVectors S x old).2 = old := by unfold generateTestVectors; rw [h0]
    rw [this]
    exact ⟨.inl rfl, .inl rfl⟩
  | ok pk =>
    rw [generate_eq h0]
    obtain ⟨h1, h2⟩ := C91_prefix S.capacity (pk.map S.coords1 S.coords2) _ _ (hS.pieces (writePk (pk.map S.coords1 S.coords2)))
      (hS.pieces (writeVk (pk.map S.coords1 S.coords2).vk)) old x.responses
    exact ⟨h1.imp id fun ⟨a, e, hp⟩ => ⟨pk, a, rfl, e, hp⟩, h2.imp id fun ⟨a, e, hp⟩ => ⟨pk, a, rfl, e, hp⟩⟩

theorem history_prefix (hS : S.Good E1 E2 back1 back2) (l : List Run) (old : Files) :
    ((history S l old).pk = old.pk ∨ ∃ x ∈ l, ∃ pk a, setup S.domain S.g1 S.g2 x.secrets x.circuit = .ok pk ∧
      (history S l old).pk = some a ∧ a <+: writePk (pk.map S.coords1 S.coords2)) ∧
    ((history S l old).vk = old.vk ∨ ∃ x ∈ l, ∃ pk a, setup S.domain S.g1 S.g2 x.secrets x.circuit = .ok pk ∧
      (history S l old).vk = some a ∧ a <+: writeVk (pk.vk.map S.coords1 S.coords2)) := by
  induction l generalizing old with
  | nil => exact ⟨.inl rfl, .inl rfl⟩
  | cons x l ih =>
    obtain ⟨h1, h2⟩ := ih (generateTestVectors S x old).2
    obtain ⟨g1, g2⟩ := generate_prefix hS x old
    refine ⟨?_, ?_⟩
    · rcases h1 with h1 | ⟨y, hy, h1⟩
      · show (history S l (generateTestVectors S x old).2).pk = _ ∨ ∃ y ∈ x :: l, ∃ pk a, _ ∧ (history S l (generateTestVectors S x old).2).pk = _ ∧ _
        rw [h1]
        exact g1.imp id fun h => ⟨x, by simp, h⟩
      · exact .inr ⟨y, by simp [hy], h1⟩
    · rcases h2 with h2 | ⟨y, hy, h2⟩
      · show (history S l (generateTestVectors S x old).2).vk = _ ∨ ∃ y ∈ x :: l, ∃ pk a, _ ∧ (history S l (generateTestVectors S x old).2).vk = _ ∧ _
        rw [h2]
        exact g2.imp id fun h => ⟨x, by simp, h⟩
      · exact .inr ⟨y, by simp [hy], h2⟩

/-- The same at any moment. -/
theorem moment_prefix (hS : S.Good E1 E2 back1 back2) (l : List Run) (old m : Files) (hm : Moment S l old m) :
    (m.pk = old.pk ∨ ∃ x ∈ l, ∃ pk a, setup S.domain S.g1 S.g2 x.secrets x.circuit = .ok pk ∧ m.pk = some a ∧ a <+: writePk (pk.map S.coords1 S.coords2)) ∧
    (m.vk = old.vk ∨ ∃ x ∈ l, ∃ pk a, setup S.domain S.g1 S.g2 x.secrets x.circuit = .ok pk ∧ m.vk = some a ∧
      a <+: writeVk (pk.vk.map S.coords1 S.coords2)) := by
  rcases hm with rfl | ⟨l₁, x, l₂, n, rfl, rfl⟩
  · exact history_prefix hS l old
  · obtain ⟨h1, h2⟩ := history_prefix hS l₁ old
    obtain ⟨g1, g2⟩ := generate_prefix hS { x with responses := x.responses.take n } (history S l₁ old)
    refine ⟨?_, ?_⟩
    · rcases g1 with g1 | g1
      · rw [g1]
        exact h1.imp id fun ⟨y, hy, h⟩ => ⟨y, by simp [hy], h⟩
      · exact .inr ⟨x, by simp, g1⟩
    · rcases g2 with g2 | g2
      · rw [g2]
        exact h2.imp id fun ⟨y, hy, h⟩ => ⟨y, by simp [hy], h⟩
      · exact .inr ⟨x, by simp, g2⟩

/-- **C103, what is on the disk.** After a loss of power, each file is the one that was there at first, or a beginning of the file of one of the runs. -/
theorem C103_prefix (hS : S.Good E1 E2 back1 back2) (l : List Run) (old files : Files) (h : PowerLoss S l old files) :
    (files.pk = old.pk ∨ ∃ x ∈ l, ∃ pk a, setup S.domain S.g1 S.g2 x.secrets x.circuit = .ok pk ∧ files.pk = some a ∧
      a <+: writePk (pk.map S.coords1 S.coords2)) ∧
    (files.vk = old.vk ∨ ∃ x ∈ l, ∃ pk a, setup S.domain S.g1 S.g2 x.secrets x.circuit = .ok pk ∧ files.vk = some a ∧
      a <+: writeVk (pk.vk.map S.coords1 S.coords2)) := by
  obtain ⟨⟨m, h1, e1⟩, m', h2, e2⟩ := h
  rw [e1, e2]
  exact ⟨(moment_prefix hS l old m h1).1, (moment_prefix hS l old m' h2).2⟩

/-- **C103, what is read.** After a loss of power, a key that can be read is in the file that was there at first, or is a key of one of the runs. -/
theorem C103_each (hS : S.Good E1 E2 back1 back2) (l : List Run) (old files : Files) (h : PowerLoss S l old files) :
    (∀ a k, files.pk = some a → preimagePk E1 E2 a = .ok k → old.pk = some a ∨ ∃ x ∈ l, ∃ v, MadeBy S x k v) ∧
    (∀ b v, files.vk = some b → preimageVk E1 E2 b = .ok v → old.vk = some b ∨ ∃ x ∈ l, ∃ k, MadeBy S x k v) := by
  have valid : ∀ (x : Run) pk, setup S.domain S.g1 S.g2 x.secrets x.circuit = .ok pk → ValidPk E1 E2 (pk.map S.coords1 S.coords2) := by
    intro x pk h0
    have hx : x.secrets.Usable := by
      by_contra hx
      rw [C87_setup_fails S.domain hS.domain (by rw [hS.size]; decide) S.g1 S.g2 x.secrets x.circuit hx] at h0
      cases h0
    obtain ⟨pk', h0', hv, -⟩ := made_valid hS x hx
    rw [h0] at h0'
    cases h0'
    exact hv
  obtain ⟨h1, h2⟩ := C103_prefix hS l old files h
  refine ⟨fun a k ha hk => ?_, fun b v hb hv => ?_⟩
  · rcases h1 with h1 | ⟨x, hx, pk, a', h0, e, hp⟩
    · exact .inl (h1 ▸ ha)
    · rw [e] at ha
      cases ha
      exact .inr ⟨x, hx, _, pk, h0, (loaded_prefix (valid x pk h0) hp hk).2, rfl⟩
  · rcases h2 with h2 | ⟨x, hx, pk, a', h0, e, hp⟩
    · exact .inl (h2 ▸ hb)
    · rw [e] at hb
      cases hb
      exact .inr ⟨x, hx, _, pk, h0, rfl, (loaded_prefix_vk (valid x pk h0) hp hv).2⟩

/-- **C103, one run.** If neither key could be read before, and the power is lost during or after the first run, then keys that can be read are both
from this run, and the happy path passes with them. -/
theorem C103_one_run [DecidableEq GT] (hS : S.Good E1 E2 back1 back2) (e : G1 →ₗ[Fq] G2 →ₗ[Fq] GT) (he : e S.g1 S.g2 ≠ 0) (g : Fq)
    (hg : S.domain.Coset g) (x : Run) (old files : Files) (hold1 : ∀ a k, old.pk = some a → preimagePk E1 E2 a ≠ .ok k)
    (hold2 : ∀ b v, old.vk = some b → preimageVk E1 E2 b ≠ .ok v) (h : PowerLoss S [x] old files) (k : ProvingKey (Affine Fp) (Affine Fp2))
    (v : VerifyingKey (Affine Fp) (Affine Fp2)) (hkv : loadKeys E1 E2 files = some (.ok (k, v))) :
    MadeBy S x k v ∧ ∀ (preimages : Vector Fq 7) (debug : Bool) (r s : Fq),
      happyPath debug e S.domain g (k.map back1 back2) (v.map back1 back2) r s preimages = .ok () := by
  obtain ⟨a, b, rfl, hk, hv⟩ := loadKeys_ok.1 hkv
  obtain ⟨h1, h2⟩ := C103_each hS [x] old _ h
  have m : MadeBy S x k v := by
    rcases h1 a k rfl hk with h1 | ⟨x', hx', v', pk, p1, p2, -⟩
    · exact absurd hk (hold1 a k h1)
    · rcases h2 b v rfl hv with h2 | ⟨x'', hx'', k', pk', q1, -, q2⟩
      · exact absurd hv (hold2 b v h2)
      · rw [List.mem_singleton.1 hx'] at p1
        rw [List.mem_singleton.1 hx'', p1] at q1
        cases q1
        exact ⟨pk, p1, p2, q2⟩
  refine ⟨m, fun preimages debug r s => ?_⟩
  obtain ⟨pk, h0, rfl, rfl⟩ := m
  have hx : x.secrets.Usable := by
    by_contra hx
    rw [C87_setup_fails S.domain hS.domain (by rw [hS.size]; decide) S.g1 S.g2 x.secrets x.circuit hx] at h0
    cases h0
  obtain ⟨pk₂, h1, h2⟩ := C87_happy_path e S.g1 S.g2 he S.domain hS.domain (by rw [hS.size]; decide) g hg x.secrets hx x.circuit preimages debug r s
  rw [h0] at h1
  cases h1
  have hm := map_map (fun x => (hS.coords1 x).2) (fun x => (hS.coords2 x).2) pk
  have hm' : (pk.vk.map S.coords1 S.coords2).map back1 back2 = pk.vk := congrArg ProvingKey.vk hm
  rw [hm, hm']
  exact h2

/-- The files after a run without errors. -/
theorem undisturbed_files (hS : S.Good E1 E2 back1 back2) (x : Run) (hr : x.Undisturbed) {pk : ProvingKey G1 G2}
    (h0 : setup S.domain S.g1 S.g2 x.secrets x.circuit = .ok pk) (l1 : (writePk (pk.map S.coords1 S.coords2)).length = 1577232)
    (l2 : (writeVk (pk.map S.coords1 S.coords2).vk).length = 1448) (old : Files) :
    generateTestVectors S x old = (.ok, ⟨some (writePk (pk.map S.coords1 S.coords2)), some (writeVk (pk.map S.coords1 S.coords2).vk)⟩) := by
  have hc := C91_complete S.capacity (pk.map S.coords1 S.coords2) _ _ (hS.pieces (writePk (pk.map S.coords1 S.coords2)))
    (hS.pieces (writeVk (pk.map S.coords1 S.coords2).vk)) old x.responses hr.1
  obtain ⟨c1, c2⟩ := hc.1.resolve_left (hc.2 (by rw [l1, l2]; exact hr.2))
  unfold generateTestVectors
  rw [h0]
  dsimp only
  rw [c1, c2]
  rfl

/-- **C103, `Ok` is not durable.** Whatever files there were, a run with usable secrets and without errors ends with `Ok`; if the power is lost afterwards, the old files
may be back; or the proving key may be empty, and then nothing can be read. -/
theorem C103_not_durable (hS : S.Good E1 E2 back1 back2) (x : Run) (hx : x.secrets.Usable) (hr : x.Undisturbed) (old : Files) :
    (generateTestVectors S x old).1 = .ok ∧ PowerLoss S [x] old old ∧
    ∃ files, PowerLoss S [x] old files ∧ files.pk = some [] ∧ ∀ kv, loadKeys E1 E2 files ≠ some (.ok kv) := by
  obtain ⟨pk, h0, hv, -, l1, l2⟩ := made_valid hS x hx
  have hstart : Moment S [x] old old := by
    refine .inr ⟨[], x, [], 0, rfl, ?_⟩
    show old = (generateTestVectors S { x with responses := x.responses.take 0 } old).2
    rw [generate_eq (x := { x with responses := x.responses.take 0 }) h0]
    rfl
  refine ⟨by rw [undisturbed_files hS x hr h0 l1 l2], ⟨⟨old, hstart, rfl⟩, old, hstart, rfl⟩, ?_⟩
  -- the moment after the first call
  have key : ∀ rs : List Response, (∀ r ∈ rs, r.Good) → 0 < effective rs →
      ∃ n, (createFile (rs.take n) old.pk) = (.ok, some [], []) := by
    intro rs
    induction rs with
    | nil => intro _ h; exact absurd h (by decide)
    | cons r rs ih =>
      intro hg he
      cases r with
      | done k => exact ⟨1, rfl⟩
      | interrupted =>
        obtain ⟨n, hn⟩ := ih (fun r hr => hg r (by simp [hr])) (by simpa [effective] using he)
        exact ⟨n + 1, hn⟩
      | failed => exact absurd (hg .failed (by simp)) (by simp [Response.Good])
  obtain ⟨n, hn⟩ := key x.responses hr.1 (by have := hr.2; omega)
  refine ⟨⟨some [], old.vk⟩, ⟨⟨⟨some [], old.vk⟩, .inr ⟨[], x, [], n, rfl, ?_⟩, rfl⟩, old, hstart, rfl⟩, rfl, fun kv h => ?_⟩
  · show _ = (generateTestVectors S { x with responses := x.responses.take n } old).2
    rw [generate_eq (x := { x with responses := x.responses.take n }) h0]
    show _ = (writeParamsRun _ _ _ old (x.responses.take n)).2
    unfold writeParamsRun
    rw [hn]
    rfl
  · rcases kv with ⟨k, v⟩
    obtain ⟨a, b, e1, h1, -⟩ := loadKeys_ok.1 h
    rw [Files.mk.injEq] at e1
    cases e1.1
    cases h1

/-- **C103, keys of different runs.** Let two runs without errors follow each other, with usable secrets with different `delta`.  Both end with `Ok`.  If the power is lost
afterwards the tests may read the proving key of the one with the verifying key of the other, either way, and then the happy path fails, for every preimage, for all but
one value of the prover's `s` and all but one of `r`. -/
theorem C103_mixed [DecidableEq GT] (hS : S.Good E1 E2 back1 back2) (e : G1 →ₗ[Fq] G2 →ₗ[Fq] GT) (he : e S.g1 S.g2 ≠ 0) (g : Fq)
    (hg : S.domain.Coset g) (x y : Run) (hx : x.secrets.Usable) (hy : y.secrets.Usable) (rx : x.Undisturbed) (ry : y.Undisturbed)
    (hxy : x.secrets.delta ≠ y.secrets.delta) (old : Files) (swap : Bool) :
    (generateTestVectors S x old).1 = .ok ∧ (generateTestVectors S y (history S [x] old)).1 = .ok ∧
    ∃ files k v k' v', PowerLoss S [x, y] old files ∧ loadKeys E1 E2 files = some (.ok (k, v)) ∧
      MadeBy S (if swap then y else x) k v' ∧ MadeBy S (if swap then x else y) k' v ∧
      ∀ preimages : Vector Fq 7, ∃ s₀, ∀ s, s ≠ s₀ → ∃ r₀, ∀ r, r ≠ r₀ → ∀ debug,
        happyPath debug e S.domain g (k.map back1 back2) (v.map back1 back2) r s preimages = .error .assertFailed := by
  obtain ⟨pk, h0, hv, hm, l1, l2⟩ := made_valid hS x hx
  obtain ⟨pk', h0', hv', hm', l1', l2'⟩ := made_valid hS y hy
  have f1 := undisturbed_files hS x rx h0 l1 l2 old
  have f2 := fun o => undisturbed_files hS y ry h0' l1' l2' o
  have m1 : Moment S [x, y] old ⟨some (writePk (pk.map S.coords1 S.coords2)), some (writeVk (pk.map S.coords1 S.coords2).vk)⟩ := by
    refine .inr ⟨[x], y, [], 0, rfl, ?_⟩
    rw [generate_eq (x := { y with responses := y.responses.take 0 }) h0']
    show _ = (generateTestVectors S x old).2
    rw [f1]
  have m2 : Moment S [x, y] old ⟨some (writePk (pk'.map S.coords1 S.coords2)), some (writeVk (pk'.map S.coords1 S.coords2).vk)⟩ := by
    refine .inl ?_
    show _ = (generateTestVectors S y (generateTestVectors S x old).2).2
    rw [f2]
  refine ⟨by rw [f1], by rw [f2], ?_⟩
  have hr := C90_roundtrip _ hv []
  have hr' := C90_roundtrip _ hv' []
  rw [List.append_nil, List.append_nil] at hr hr'
  have hmv : (pk.vk.map S.coords1 S.coords2).map back1 back2 = pk.vk := congrArg ProvingKey.vk hm
  have hmv' : (pk'.vk.map S.coords1 S.coords2).map back1 back2 = pk'.vk := congrArg ProvingKey.vk hm'
  cases swap with
  | false =>
    refine ⟨⟨some (writePk (pk.map S.coords1 S.coords2)), some (writeVk (pk'.map S.coords1 S.coords2).vk)⟩, pk.map S.coords1 S.coords2,
      pk'.vk.map S.coords1 S.coords2, _, _, ⟨⟨_, m1, rfl⟩, _, m2, rfl⟩, loadKeys_ok.2 ⟨_, _, rfl, hr.1, hr'.2⟩, ⟨pk, h0, rfl, rfl⟩,
      ⟨pk', h0', rfl, rfl⟩, fun v => ?_⟩
    obtain ⟨p, p', q1, q2, q3, -⟩ := C98_other_key e S.g1 S.g2 he S.domain hS.domain (by rw [hS.size]; decide) g hg x.secrets y.secrets hx hy
      x.circuit y.circuit v
    rw [h0] at q1
    rw [h0'] at q2
    cases q1
    cases q2
    rw [hm, hmv']
    exact q3 hxy
  | true =>
    refine ⟨⟨some (writePk (pk'.map S.coords1 S.coords2)), some (writeVk (pk.map S.coords1 S.coords2).vk)⟩, pk'.map S.coords1 S.coords2,
      pk.vk.map S.coords1 S.coords2, _, _, ⟨⟨_, m2, rfl⟩, _, m1, rfl⟩, loadKeys_ok.2 ⟨_, _, rfl, hr'.1, hr.2⟩, ⟨pk', h0', rfl, rfl⟩,
      ⟨pk, h0, rfl, rfl⟩, fun v => ?_⟩
    obtain ⟨p, p', q1, q2, q3, -⟩ := C98_other_key e S.g1 S.g2 he S.domain hS.domain (by rw [hS.size]; decide) g hg y.secrets x.secrets hy hx
      y.circuit x.circuit v
    rw [h0'] at q1
    rw [h0] at q2
    cases q1
    cases q2
    rw [hm', hmv]
    exact q3 hxy.symm

/-! ### The hypotheses are met

`setting_exists` (C97) is a setting. -/

/-- There are two runs without errors whose usable secrets have different `delta`. -/
example : ∃ x y : Run, x.secrets.Usable ∧ y.secrets.Usable ∧ x.Undisturbed ∧ y.Undisturbed ∧ x.secrets.delta ≠ y.secrets.delta := by
  have hr : ∀ w c, Run.Undisturbed ⟨w, c, List.replicate (2 + 1577232 + 1448) (.done 1)⟩ := fun w c =>
    ⟨fun r hr => by rw [List.eq_of_mem_replicate hr]; exact Nat.one_pos, by
      show _ ≤ effective (List.replicate _ _)
      unfold effective
      rw [List.countP_replicate]
      exact le_rfl⟩
  refine ⟨⟨⟨3, 5, 7, 11, 13⟩, ⟨Vector.replicate 7 0, Vector.replicate 7 0⟩, _⟩, ⟨⟨3, 5, 7, 12, 13⟩, ⟨Vector.replicate 7 0, Vector.replicate 7 0⟩, _⟩,
    ⟨?_, ?_⟩, ⟨?_, ?_⟩, hr _ _, hr _ _, ?_⟩
  · show (7 : Fq) ≠ 0; decide +kernel
  · show (11 : Fq) ≠ 0; decide +kernel
  · show (7 : Fq) ≠ 0; decide +kernel
  · show (12 : Fq) ≠ 0; decide +kernel
  · show (11 : Fq) ≠ 12; decide +kernel

/-- One run without old files: the power may be lost so late that its keys are read. -/
example (hS : S.Good E1 E2 back1 back2) (x : Run) (hx : x.secrets.Usable) (hr : x.Undisturbed) :
    ∃ files k v, PowerLoss S [x] ⟨none, none⟩ files ∧ loadKeys E1 E2 files = some (.ok (k, v)) := by
  obtain ⟨pk, h0, hv, -, l1, l2⟩ := made_valid hS x hx
  have f := undisturbed_files hS x hr h0 l1 l2 ⟨none, none⟩
  have r := C90_roundtrip _ hv []
  rw [List.append_nil, List.append_nil] at r
  have m : Moment S [x] ⟨none, none⟩ ⟨some (writePk (pk.map S.coords1 S.coords2)), some (writeVk (pk.map S.coords1 S.coords2).vk)⟩ :=
    .inl (by show _ = (generateTestVectors S x _).2; rw [f])
  exact ⟨_, _, _, ⟨⟨_, m, rfl⟩, _, m, rfl⟩, loadKeys_ok.2 ⟨_, _, rfl, r.1, r.2⟩⟩

end Poseidon
