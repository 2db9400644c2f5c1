import Verif.Model.TornFile
import Verif.Props.PowerLoss
import Verif.Props.Killed

/-!
# Property C117: a loss of power, byte by byte

As C103, but the parts of one file can be from different moments, and parts that were not written can be zeros.
-/

namespace Poseidon

open Poseidon.Groth16

variable {E1 : Curve Fp} {E2 : Curve Fp2}
variable {G1 G2 GT : Type} [AddCommGroup G1] [Module Fq G1] [AddCommGroup G2] [Module Fq G2] [AddCommGroup GT] [Module Fq GT]
variable {S : Setting G1 G2} {back1 : Affine Fp → G1} {back2 : Affine Fp2 → G2}

/-- A file of one moment. -/
theorem torn_of_moment (zeros : Bool) {M : Option (List UInt8) → Prop} {f : Option (List UInt8)} (h : M f) : Torn zeros M f := by
  cases f with
  | none => exact .inl ⟨rfl, h⟩
  | some a => exact .inr ⟨a, a, rfl, h, rfl, fun i b hb => .inl ⟨a, h, hb⟩⟩

/-- **C117.** What C103 allows is allowed here. -/
theorem C117_includes (zeros : Bool) (l : List Run) (old files : Files) (h : PowerLoss S l old files) : TornLoss zeros S l old files := by
  obtain ⟨⟨m, h1, e1⟩, m', h2, e2⟩ := h
  exact ⟨torn_of_moment zeros ⟨m, h1, e1⟩, torn_of_moment zeros ⟨m', h2, e2⟩⟩

/-- **C117, what is on the disk.** After a loss of power no file is there that was not there before and that no run has made; each byte is
one of the old file or of a run, at this place, or a zero. -/
theorem C117_bytes (hS : S.Good E1 E2 back1 back2) (zeros : Bool) (l : List Run) (old files : Files) (h : TornLoss zeros S l old files) :
    (∀ a, files.pk = some a → ∀ (i : Nat) (b : UInt8), a[i]? = some b → (∃ o, old.pk = some o ∧ o[i]? = some b) ∨
      (∃ x ∈ l, ∃ pk, setup S.domain S.g1 S.g2 x.secrets x.circuit = .ok pk ∧ (writePk (pk.map S.coords1 S.coords2))[i]? = some b) ∨
      (zeros = true ∧ b = 0)) ∧
    (∀ a, files.vk = some a → ∀ (i : Nat) (b : UInt8), a[i]? = some b → (∃ o, old.vk = some o ∧ o[i]? = some b) ∨
      (∃ x ∈ l, ∃ pk, setup S.domain S.g1 S.g2 x.secrets x.circuit = .ok pk ∧ (writeVk (pk.vk.map S.coords1 S.coords2))[i]? = some b) ∨
      (zeros = true ∧ b = 0)) := by
  have pre : ∀ {a c : List UInt8} {i : Nat} {b : UInt8}, a <+: c → a[i]? = some b → c[i]? = some b := by
    rintro a - i b ⟨t, rfl⟩ hb
    obtain ⟨hi, rfl⟩ := List.getElem?_eq_some_iff.1 hb
    rw [List.getElem?_append_left hi, List.getElem?_eq_getElem hi]
  obtain ⟨h1, h2⟩ := h
  refine ⟨fun a ha i b hb => ?_, fun a ha i b hb => ?_⟩
  · rcases h1 with ⟨h1, -⟩ | ⟨a', m, e, -, -, h1⟩
    · rw [h1] at ha; cases ha
    · rw [e] at ha
      cases ha
      rcases h1 i b hb with ⟨m', ⟨w, hw, ew⟩, hm'⟩ | hz
      · rcases (moment_prefix hS l old w hw).1 with h | ⟨x, hx, pk, c, h0, hc, hp⟩
        · exact .inl ⟨m', by rw [← h, ew], hm'⟩
        · rw [hc] at ew
          cases ew
          exact .inr (.inl ⟨x, hx, pk, h0, pre hp hm'⟩)
      · exact .inr (.inr hz)
  · rcases h2 with ⟨h2, -⟩ | ⟨a', m, e, -, -, h2⟩
    · rw [h2] at ha; cases ha
    · rw [e] at ha
      cases ha
      rcases h2 i b hb with ⟨m', ⟨w, hw, ew⟩, hm'⟩ | hz
      · rcases (moment_prefix hS l old w hw).2 with h | ⟨x, hx, pk, c, h0, hc, hp⟩
        · exact .inl ⟨m', by rw [← h, ew], hm'⟩
        · rw [hc] at ew
          cases ew
          exact .inr (.inl ⟨x, hx, pk, h0, pre hp hm'⟩)
      · exact .inr (.inr hz)

/-- If all contents are beginnings of one text, parts of different moments make a content of one moment. -/
theorem torn_prefix {M : Option (List UInt8) → Prop} {c : List UInt8} (h : ∀ m, M (some m) → m <+: c) {f : Option (List UInt8)}
    (hf : Torn false M f) : M f := by
  rcases hf with ⟨rfl, hf⟩ | ⟨a, m, rfl, hm, hl, hb⟩
  · exact hf
  · have : a = m := by
      refine List.ext_getElem? fun i => ?_
      by_cases hi : i < a.length
      · rcases hb i a[i] (List.getElem?_eq_getElem hi) with ⟨m', hm', e⟩ | ⟨h, -⟩
        · obtain ⟨t, ht⟩ := h m hm
          obtain ⟨t', ht'⟩ := h m' hm'
          obtain ⟨hi', e'⟩ := List.getElem?_eq_some_iff.1 e
          rw [List.getElem?_eq_getElem hi, List.getElem?_eq_getElem (hl ▸ hi)]
          have e1 : c[i]? = some m[i] := by
            rw [← ht, List.getElem?_append_left (hl ▸ hi), List.getElem?_eq_getElem]
          have e2 : c[i]? = some a[i] := by
            rw [← ht', List.getElem?_append_left hi', e]
          exact e2.symm.trans e1
        · cases h
      · rw [List.getElem?_eq_none (by omega), List.getElem?_eq_none (by omega)]
    exact this ▸ hm

/-- **C117, the first run.** If there were no files, or empty ones, and bytes that were not written are not read as zeros, then a loss of power during or after the first
run leaves what C103 allows; so keys that can be read are both from this run, and the happy path passes with them. -/
theorem C117_first_run [DecidableEq GT] (hS : S.Good E1 E2 back1 back2) (e : G1 →ₗ[Fq] G2 →ₗ[Fq] GT) (he : e S.g1 S.g2 ≠ 0) (g : Fq)
    (hg : S.domain.Coset g) (x : Run) (old files : Files) (hold1 : ∀ a, old.pk = some a → a = []) (hold2 : ∀ a, old.vk = some a → a = [])
    (h : TornLoss false S [x] old files) :
    PowerLoss S [x] old files ∧ ∀ k v, loadKeys E1 E2 files = some (.ok (k, v)) → MadeBy S x k v ∧
      ∀ (preimages : Vector Fq 7) (debug : Bool) (r s : Fq),
        happyPath debug e S.domain g (k.map back1 back2) (v.map back1 back2) r s preimages = .ok () := by
  have hp : PowerLoss S [x] old files := by
    obtain ⟨h1, h2⟩ := h
    cases h0 : setup S.domain S.g1 S.g2 x.secrets x.circuit with
    | error er =>
      refine ⟨torn_prefix (c := []) ?_ h1, torn_prefix (c := []) ?_ h2⟩
      · rintro m ⟨w, hw, ew⟩
        rcases (moment_prefix hS [x] old w hw).1 with h | ⟨y, hy, pk, c, h0', -⟩
        · rw [hold1 m (by rw [← h, ew])]
        · rw [List.mem_singleton.1 hy, h0] at h0'; cases h0'
      · rintro m ⟨w, hw, ew⟩
        rcases (moment_prefix hS [x] old w hw).2 with h | ⟨y, hy, pk, c, h0', -⟩
        · rw [hold2 m (by rw [← h, ew])]
        · rw [List.mem_singleton.1 hy, h0] at h0'; cases h0'
    | ok pk =>
      refine ⟨torn_prefix (c := writePk (pk.map S.coords1 S.coords2)) ?_ h1, torn_prefix (c := writeVk (pk.vk.map S.coords1 S.coords2)) ?_ h2⟩
      · rintro m ⟨w, hw, ew⟩
        rcases (moment_prefix hS [x] old w hw).1 with h | ⟨y, hy, pk', c, h0', hc, hp⟩
        · rw [hold1 m (by rw [← h, ew])]
          exact List.nil_prefix
        · rw [List.mem_singleton.1 hy, h0] at h0'
          cases h0'
          rw [hc] at ew
          cases ew
          exact hp
      · rintro m ⟨w, hw, ew⟩
        rcases (moment_prefix hS [x] old w hw).2 with h | ⟨y, hy, pk', c, h0', hc, hp⟩
        · rw [hold2 m (by rw [← h, ew])]
          exact List.nil_prefix
        · rw [List.mem_singleton.1 hy, h0] at h0'
          cases h0'
          rw [hc] at ew
          cases ew
          exact hp
  refine ⟨hp, fun k v hkv => ?_⟩
  refine C103_one_run hS e he g hg x old files (fun a k ha hk => ?_) (fun b v hb hv => ?_) hp k v hkv
  · rw [hold1 a ha] at hk; cases hk
  · rw [hold2 b hb] at hv; cases hv

/-- The start of one file and the end of another. -/
theorem torn_splice (zeros : Bool) {M : Option (List UInt8) → Prop} {a b : List UInt8} (ha : M (some a)) (hb : M (some b)) (hl : a.length = b.length)
    (n : Nat) : Torn zeros M (some (a.take n ++ b.drop n)) := by
  refine .inr ⟨_, b, rfl, hb, ?_, fun i c hc => .inl ?_⟩
  · rw [List.length_append, List.length_take, List.length_drop]; omega
  · by_cases hi : i < (a.take n).length
    · rw [List.getElem?_append_left hi, List.getElem?_take_of_lt (by rw [List.length_take] at hi; omega)] at hc
      exact ⟨a, ha, hc⟩
    · rw [List.getElem?_append_right (by omega), List.getElem?_drop] at hc
      refine ⟨b, hb, ?_⟩
      obtain ⟨hlt, -⟩ := List.getElem?_eq_some_iff.1 hc
      rw [List.length_take] at hi hlt hc
      have : n + (i - min n a.length) = i := by
        by_cases hn : n ≤ a.length
        · rw [min_eq_left hn] at hi ⊢; omega
        · rw [min_eq_right (by omega)] at hi hlt; omega
      rwa [this] at hc

/-- **C117, a key that nobody made.** Let two runs without errors follow each other, with usable secrets with different `delta`.  Both end with `Ok`.  If the power is lost
afterwards the tests may read keys that look as if they belonged together: the proving key contains the verifying key, which is that of the second run.  But the rest of
the proving key is from the first, and no secrets make this key. -/
theorem C117_nobody (hS : S.Good E1 E2 back1 back2) (hg1 : S.g1 ≠ 0) (hg2 : S.g2 ≠ 0) (x y : Run) (hx : x.secrets.Usable) (hy : y.secrets.Usable)
    (rx : x.Undisturbed) (ry : y.Undisturbed) (hxy : x.secrets.delta ≠ y.secrets.delta) (old : Files) :
    (generateTestVectors S x old).1 = .ok ∧ (generateTestVectors S y (history S [x] old)).1 = .ok ∧
    ∃ (pk pk' : ProvingKey G1 G2) (files : Files),
      setup S.domain S.g1 S.g2 x.secrets x.circuit = .ok pk ∧ setup S.domain S.g1 S.g2 y.secrets y.circuit = .ok pk' ∧
      TornLoss false S [x, y] old files ∧ ∃ k v, loadKeys E1 E2 files = some (.ok (k, v)) ∧ k.vk = v ∧
        k.map back1 back2 = { pk with vk := pk'.vk } ∧ v.map back1 back2 = pk'.vk ∧
        ∀ (w : Secrets Fq) (c : R1cs.PreimageCircuit), setup S.domain S.g1 S.g2 w c ≠ .ok (k.map back1 back2) := by
  obtain ⟨pk, h0, hv, hm, l1, l2⟩ := made_valid hS x hx
  obtain ⟨pk', h0', hv', hm', l1', l2'⟩ := made_valid hS y hy
  have f1 := undisturbed_files hS x rx h0 l1 l2 old
  have f2 := fun o => undisturbed_files hS y ry h0' l1' l2' o
  have m1 : Moment S [x, y] old ⟨some (writePk (pk.map S.coords1 S.coords2)), some (writeVk (pk.map S.coords1 S.coords2).vk)⟩ := by
    refine .inr ⟨[x], y, [], 0, rfl, ?_⟩
    rw [generate_eq (x := { y with responses := y.responses.take 0 }) h0']
    show _ = (generateTestVectors S x old).2
    rw [f1]
  have m2 : Moment S [x, y] old ⟨some (writePk (pk'.map S.coords1 S.coords2)), some (writeVk (pk'.map S.coords1 S.coords2).vk)⟩ := by
    refine .inl ?_
    show _ = (generateTestVectors S y (generateTestVectors S x old).2).2
    rw [f2]
  refine ⟨by rw [f1], by rw [f2], pk, pk', ⟨some ((writePk (pk'.map S.coords1 S.coords2)).take 1448 ++ (writePk (pk.map S.coords1 S.coords2)).drop 1448),
    some (writeVk (pk'.map S.coords1 S.coords2).vk)⟩, h0, h0', ⟨torn_splice false ⟨_, m2, rfl⟩ ⟨_, m1, rfl⟩ (l1'.trans l1.symm) 1448,
    torn_of_moment false ⟨_, m2, rfl⟩⟩, ?_⟩
  have hmv : (pk'.vk.map S.coords1 S.coords2).map back1 back2 = pk'.vk := congrArg ProvingKey.vk hm'
  have hvm : ValidPk E1 E2 { pk.map S.coords1 S.coords2 with vk := (pk'.map S.coords1 S.coords2).vk } :=
    ⟨hv'.vk, hv.betaG1, hv.deltaG1, hv.aQuery, hv.bG1Query, hv.bG2Query, hv.hQuery, hv.lQuery⟩
  have hfile : (writePk (pk'.map S.coords1 S.coords2)).take 1448 ++ (writePk (pk.map S.coords1 S.coords2)).drop 1448 =
      writePk { pk.map S.coords1 S.coords2 with vk := (pk'.map S.coords1 S.coords2).vk } := by
    unfold writePk
    simp only [List.append_assoc]
    rw [List.take_append_of_le_length l2'.ge, List.take_of_length_le l2'.le, List.drop_append_of_le_length l2.ge, List.drop_eq_nil_of_le l2.le,
      List.nil_append]
  have hr := C90_roundtrip _ hvm []
  rw [List.append_nil, List.append_nil] at hr
  have hmm : ProvingKey.map back1 back2 { pk.map S.coords1 S.coords2 with vk := (pk'.map S.coords1 S.coords2).vk } = { pk with vk := pk'.vk } := by
    have e1 : ∀ (p : ProvingKey (Affine Fp) (Affine Fp2)) u, ProvingKey.map back1 back2 { p with vk := u } =
        { ProvingKey.map back1 back2 p with vk := u.map back1 back2 } := fun _ _ => rfl
    have e2 : (pk'.map S.coords1 S.coords2).vk.map back1 back2 = pk'.vk := hmv
    refine (e1 _ _).trans ?_
    rw [hm, e2]
  refine ⟨_, _, ?_, rfl, hmm, hmv, fun w c hw => ?_⟩
  · rw [loadKeys_ok]
    exact ⟨_, _, rfl, (congrArg (preimagePk E1 E2) hfile).trans hr.1, hr.2⟩
  · rw [hmm] at hw
    have d1 : ∀ (u : Secrets Fq) (c : R1cs.PreimageCircuit) (p : ProvingKey G1 G2), setup S.domain S.g1 S.g2 u c = .ok p →
        p.deltaG1 = u.delta • S.g1 ∧ p.vk.deltaG2 = u.delta • S.g2 := by
      intro u c p hp
      obtain ⟨M, cons, hI, hM⟩ := the_matrices
      by_cases hu : u.Usable
      · rw [setup_eq hI hM hS.domain (by rw [hS.size]; decide) S.g1 S.g2 hu c] at hp
        cases hp
        exact ⟨rfl, rfl⟩
      · rw [C87_setup_fails S.domain hS.domain (by rw [hS.size]; decide) S.g1 S.g2 u c hu] at hp
        cases hp
    obtain ⟨a1, a2⟩ := d1 w c _ hw
    obtain ⟨b1, -⟩ := d1 _ _ _ h0
    obtain ⟨-, c2⟩ := d1 _ _ _ h0'
    dsimp only at a1 a2
    rw [b1] at a1
    rw [c2] at a2
    exact hxy ((smul_left_injective Fq hg1 a1).trans (smul_left_injective Fq hg2 a2).symm)

/-- Zeros in the middle of a file. -/
theorem torn_middle {M : Option (List UInt8) → Prop} {a l z c : List UInt8} (h : M (some (a ++ (l ++ c)))) (hl : z.length = l.length)
    (hz : ∀ b ∈ z, b = 0) : Torn true M (some (a ++ (z ++ c))) := by
  refine .inr ⟨_, _, rfl, h, by simp only [List.length_append, hl], fun i b hb => ?_⟩
  by_cases h1 : i < a.length
  · rw [List.getElem?_append_left h1] at hb
    exact .inl ⟨_, h, by rw [List.getElem?_append_left h1, hb]⟩
  · rw [List.getElem?_append_right (by omega)] at hb
    by_cases h2 : i - a.length < z.length
    · rw [List.getElem?_append_left h2] at hb
      exact .inr ⟨rfl, hz b (List.mem_of_getElem? hb)⟩
    · rw [List.getElem?_append_right (by omega), hl] at hb
      exact .inl ⟨_, h, by rw [List.getElem?_append_right (by omega), List.getElem?_append_right (by omega), hb]⟩

/-- **C117, zeros.** After a run without errors that ended with `Ok`, a loss of power that leaves eight zeros in the file with the verifying key, in
the place of the number of its last points, leaves a verifying key that is read without an error and has no such points.  With it and the
proving key of the run the happy path panics, for every preimage and all randomness. -/
theorem C117_zeros [DecidableEq GT] (hS : S.Good E1 E2 back1 back2) (e : G1 →ₗ[Fq] G2 →ₗ[Fq] GT) (he : e S.g1 S.g2 ≠ 0) (g : Fq)
    (hg : S.domain.Coset g) (x : Run) (hx : x.secrets.Usable) (hr : x.Undisturbed) (old : Files) :
    (generateTestVectors S x old).1 = .ok ∧
    ∃ files k v, TornLoss true S [x] old files ∧ loadKeys E1 E2 files = some (.ok (k, { v with gammaAbcG1 := [] })) ∧ MadeBy S x k v ∧
      v.gammaAbcG1 ≠ [] ∧ ∀ (preimages : Vector Fq 7) (debug : Bool) (r s : Fq),
        happyPath debug e S.domain g (k.map back1 back2) (VerifyingKey.map back1 back2 { v with gammaAbcG1 := [] }) r s preimages =
          .error .unwrapNone := by
  obtain ⟨pk, h0, hv, hm, l1, l2⟩ := made_valid hS x hx
  have f1 := undisturbed_files hS x hr h0 l1 l2 old
  have m1 : Moment S [x] old ⟨some (writePk (pk.map S.coords1 S.coords2)), some (writeVk (pk.map S.coords1 S.coords2).vk)⟩ :=
    .inl (by show _ = (generateTestVectors S x old).2; rw [f1])
  have hrt := C90_roundtrip _ hv []
  rw [List.append_nil, List.append_nil] at hrt
  obtain ⟨pk₂, h0₂, m, -⟩ := C86_lengths S.domain hS.domain hS.size S.g1 S.g2 x.secrets hx x.circuit
  rw [h0] at h0₂
  cases h0₂
  have hne : (pk.map S.coords1 S.coords2).vk.gammaAbcG1 ≠ [] := by
    intro h
    have : (pk.vk.gammaAbcG1.map S.coords1).length = 0 := congrArg List.length h
    rw [List.length_map, m] at this
    exact absurd this (by decide)
  generalize hu : (pk.map S.coords1 S.coords2).vk = u at hne m1 hrt
  have hvu : ValidVk E1 E2 u := hu ▸ hv.vk
  have hvz : ValidVk E1 E2 { u with gammaAbcG1 := [] } :=
    ⟨hvu.alphaG1, hvu.betaG2, hvu.gammaG2, hvu.deltaG2, by show 0 < 2 ^ 64; decide, fun P hP => absurd hP List.not_mem_nil⟩
  have hread := (C90_roundtrip (E1 := E1) (E2 := E2) { pk.map S.coords1 S.coords2 with vk := { u with gammaAbcG1 := [] } }
    ⟨hvz, hv.betaG1, hv.deltaG1, hv.aQuery, hv.bG1Query, hv.bG2Query, hv.hQuery, hv.lQuery⟩ (u.gammaAbcG1.flatMap writePoint)).2
  have ha : ∀ w : VerifyingKey (Affine Fp) (Affine Fp2), ∀ c, writeVk w ++ c =
      (writePoint w.alphaG1 ++ writePoint w.betaG2 ++ writePoint w.gammaG2 ++ writePoint w.deltaG2) ++
        ((leBytes 8 w.gammaAbcG1.length) ++ (w.gammaAbcG1.flatMap writePoint ++ c)) := by
    intro w c
    simp only [writeVk, writeVec, List.append_assoc]
  have hau : writeVk u = (writePoint u.alphaG1 ++ writePoint u.betaG2 ++ writePoint u.gammaG2 ++ writePoint u.deltaG2) ++
        (leBytes 8 u.gammaAbcG1.length ++ u.gammaAbcG1.flatMap writePoint) := by
    have := ha u []
    rwa [List.append_nil, List.append_nil] at this
  refine ⟨by rw [f1], ⟨some (writePk (pk.map S.coords1 S.coords2)), some (writeVk { u with gammaAbcG1 := [] } ++ u.gammaAbcG1.flatMap writePoint)⟩,
    pk.map S.coords1 S.coords2, u, ⟨torn_of_moment true ⟨_, m1, rfl⟩, ?_⟩, loadKeys_ok.2 ⟨_, _, rfl, hrt.1, hread⟩, ⟨pk, h0, rfl, hu.symm⟩, hne, ?_⟩
  · rw [ha]
    refine torn_middle (l := leBytes 8 u.gammaAbcG1.length) ⟨_, m1, ?_⟩ ?_ ?_
    · rw [hau]; rfl
    · rw [leBytes_length, leBytes_length]
    · intro b hb
      have : leBytes 8 ([] : List (Affine Fp)).length = List.replicate 8 0 := by decide
      rw [this] at hb
      exact List.eq_of_mem_replicate hb
  · intro preimages debug r s
    rw [hm]
    obtain ⟨y, h1, h2⟩ := testOutputs_relation preimages
    obtain ⟨pk₃, p, h3, h4, -⟩ := C87_complete e S.g1 S.g2 he S.domain hS.domain (by rw [hS.size]; decide) g hg x.secrets hx x.circuit ⟨preimages, y⟩ h2
      debug r s
    rw [h0] at h3
    cases h3
    unfold happyPath
    rw [h1, ok_bind, h4, ok_bind]
    unfold verify prepareInputs
    rw [if_pos (by
      show y.toList.length + 1 ≠ 0
      omega)]
    rfl

/-! ### The hypotheses are met

`setting_exists` (C97) is a setting, and beside C103 there are two runs as in `C117_nobody`. -/

/-- A file of four bytes over one of three, torn: two bytes are old, one is new and one is a zero. -/
example : Torn true (fun f => f = some [1, 2, 3] ∨ f = some [] ∨ f = some [4, 5, 6, 7]) (some [1, 5, 3, 0]) := by
  refine .inr ⟨_, [4, 5, 6, 7], rfl, .inr (.inr rfl), rfl, fun i b hb => ?_⟩
  match i with
  | 0 => exact .inl ⟨_, .inl rfl, hb⟩
  | 1 => exact .inl ⟨_, .inr (.inr rfl), hb⟩
  | 2 => exact .inl ⟨_, .inl rfl, hb⟩
  | 3 => exact .inr ⟨rfl, by cases hb; rfl⟩
  | n + 4 => cases hb

/-- Not every file is possible. -/
example : ¬ Torn true (fun f => f = some [1, 2, 3] ∨ f = some [] ∨ f = some [4, 5, 6, 7]) (some [2]) := by
  rintro (⟨h, -⟩ | ⟨a, m, h, hm, hl, -⟩)
  · cases h
  · cases h
    rcases hm with h | h | h <;> cases h <;> cases hl

/-- One run without old files: the power may be lost so late that its keys are read. -/
example (hS : S.Good E1 E2 back1 back2) (x : Run) (hx : x.secrets.Usable) (hr : x.Undisturbed) :
    ∃ files k v, TornLoss false S [x] ⟨none, none⟩ files ∧ loadKeys E1 E2 files = some (.ok (k, v)) := by
  obtain ⟨pk, h0, hv, -, l1, l2⟩ := made_valid hS x hx
  have f := undisturbed_files hS x hr h0 l1 l2 ⟨none, none⟩
  have r := C90_roundtrip _ hv []
  rw [List.append_nil, List.append_nil] at r
  have m : Moment S [x] ⟨none, none⟩ ⟨some (writePk (pk.map S.coords1 S.coords2)), some (writeVk (pk.map S.coords1 S.coords2).vk)⟩ :=
    .inl (by show _ = (generateTestVectors S x _).2; rw [f])
  exact ⟨_, _, _, C117_includes false _ _ _ ⟨⟨_, m, rfl⟩, _, m, rfl⟩, loadKeys_ok.2 ⟨_, _, rfl, r.1, r.2⟩⟩

end Poseidon
