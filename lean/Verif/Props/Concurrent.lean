import Verif.Proofs.Concurrent
import Verif.Props.PowerLoss

/-!
# Property C104: several generators of keys at the same time, with buffers and errors

As C98 and C100, but each run writes through its buffers and any of its calls may fail: it is the program of C91.  A schedule says who gets the next
answer of the operating system, and which answer it is.
-/

namespace Poseidon

open Poseidon.Groth16

variable {E1 : Curve Fp} {E2 : Curve Fp2}
variable {G1 G2 GT : Type} [AddCommGroup G1] [Module Fq G1] [AddCommGroup G2] [Module Fq G2] [AddCommGroup GT] [Module Fq GT]
variable {S : Setting G1 G2} {back1 : Affine Fp → G1} {back2 : Affine Fp2 → G2}
variable {ι : Type} [DecidableEq ι]

/-- A run has got the answers that the schedule has for it. -/
theorem crowd_responses (capacity : Nat) (pk vk : ι → List (List UInt8)) (i : ι) : ∀ (l : List (ι × Response)) (m : Crowd ι),
    (Crowd.run capacity pk vk l m).responses i = m.responses i ++ (l.filter fun x => x.1 = i).map Prod.snd
  | [], m => (List.append_nil _).symm
  | (j, r) :: l, m => by
    show (Crowd.run capacity pk vk l (m.step capacity pk vk j r)).responses i = _
    rw [crowd_responses capacity pk vk i l]
    by_cases hj : j = i
    · subst hj
      rw [List.filter_cons_of_pos (by simp)]
      show Function.update m.responses j _ j ++ _ = _
      rw [Function.update_self]
      simp
    · rw [List.filter_cons_of_neg (by simpa using hj)]
      show Function.update m.responses j _ i ++ _ = _
      rw [Function.update_of_ne (Ne.symm hj)]

/-- **C104, a run that is alone.** Whatever other runs have done before, with whatever errors: if a run starts when they no longer make calls, it ends as, and makes
of the files what, `write_params` does alone with the files that it found (C91). -/
theorem C104_alone (capacity : Nat) (pk vk : ι → List (List UInt8)) (old : Files) (before : List (ι × Response)) (i : ι) (hi : ∀ x ∈ before, x.1 ≠ i)
    (rs : List Response) :
    let m := Crowd.run capacity pk vk before (Crowd.init old)
    let m' := Crowd.run capacity pk vk (before ++ rs.map fun r => (i, r)) (Crowd.init old)
    (m'.outcome capacity pk vk i, m'.files) = writeParamsRun capacity (pk i) (vk i) m.files rs := by
  dsimp only
  rw [Crowd.run_append, Crowd.feed, writeParamsRun_old]
  have e : (Crowd.run capacity pk vk before (Crowd.init old)).responses i = [] := Crowd.other capacity pk vk i before _ hi
  rw [e, List.nil_append]
  unfold Crowd.outcome
  dsimp only
  rw [Function.update_self]
  rfl

/-- **C104, one after the other.** If the runs do not overlap, the files are those of the history of C97. -/
theorem C104_history (runs : ι → Run) (key : ι → ProvingKey G1 G2) (hkey : ∀ i, setup S.domain S.g1 S.g2 (runs i).secrets (runs i).circuit = .ok (key i))
    (order : List ι) (ho : order.Nodup) (old : Files) :
    (Crowd.run S.capacity (fun i => S.pieces (writePk ((key i).map S.coords1 S.coords2))) (fun i => S.pieces (writeVk ((key i).vk.map S.coords1 S.coords2)))
      (order.flatMap fun i => (runs i).responses.map fun r => (i, r)) (Crowd.init old)).files = history S (order.map runs) old := by
  induction order using List.reverseRecOn with
  | nil => rfl
  | append_singleton l i ih =>
    rw [List.nodup_append] at ho
    have ih := ih ho.1
    rw [List.flatMap_append, List.flatMap_singleton, List.map_append]
    have h := congrArg Prod.snd (C104_alone S.capacity (fun i => S.pieces (writePk ((key i).map S.coords1 S.coords2)))
      (fun i => S.pieces (writeVk ((key i).vk.map S.coords1 S.coords2))) old (l.flatMap fun i => (runs i).responses.map fun r => (i, r)) i
      (by
        intro x hx
        obtain ⟨j, hj, hx⟩ := List.mem_flatMap.1 hx
        obtain ⟨r, -, rfl⟩ := List.mem_map.1 hx
        exact ho.2.2 j hj i (by simp)) (runs i).responses)
    dsimp only at h
    rw [h, ih, history_append]
    show _ = (generateTestVectors S (runs i) (history S (l.map runs) old)).2
    rw [generate_eq (hkey i)]
    rfl

/-- **C104, at any time.** After every schedule, whatever failed and whoever was killed: the first file is the old one and no run has created it, or it is not
longer than a key and each of its bytes is zero or a byte of one of the runs at this place.  The same holds for the second file. -/
theorem C104_any_time (capacity : Nat) (pk vk : ι → List (List UInt8)) (n n' : Nat) (hpk : ∀ j, (pk j).flatten.length ≤ n)
    (hvk : ∀ j, (vk j).flatten.length ≤ n') (old : Files) (l : List (ι × Response)) :
    let m := Crowd.run capacity pk vk l (Crowd.init old)
    ((∀ j, (writeParamsRun capacity (pk j) (vk j) ⟨none, none⟩ (m.responses j)).2.pk = none) ∧ m.files.pk = old.pk ∨
      ∃ a, m.files.pk = some a ∧ a.length ≤ n ∧ ∀ (i : Nat) (b : UInt8), a[i]? = some b → b = 0 ∨ ∃ j, (pk j).flatten[i]? = some b) ∧
    ((∀ j, (writeParamsRun capacity (pk j) (vk j) ⟨none, none⟩ (m.responses j)).2.vk = none) ∧ m.files.vk = old.vk ∨
      ∃ a, m.files.vk = some a ∧ a.length ≤ n' ∧ ∀ (i : Nat) (b : UInt8), a[i]? = some b → b = 0 ∨ ∃ j, (vk j).flatten[i]? = some b) := by
  obtain ⟨h1, h2⟩ := Crowd.shared capacity pk vk n n' hpk hvk old l (Crowd.init old) (Crowd.shared_init capacity pk vk n n' old)
  dsimp only
  refine ⟨h1.imp_right ?_, h2.imp_right ?_⟩
  all_goals
    rintro ⟨_, _, f, _, h2, h3, h4⟩
    exact ⟨f, h2, h3, h4.2⟩

/-- A run whose calls do not fail and that has ended has written both files. -/
theorem own_complete (capacity : Nat) (pk vk : List (List UInt8)) (rs : List Response) (hg : ∀ r ∈ rs, r.Good)
    (h : (writeParamsRun capacity pk vk ⟨none, none⟩ rs).1 ≠ .killed) :
    (writeParamsRun capacity pk vk ⟨none, none⟩ rs).1 = .ok ∧ ownFiles capacity pk vk rs = ⟨some pk.flatten, some vk.flatten⟩ := by
  unfold ownFiles
  rcases createFile_good rs none hg with ⟨rs₁, g1, g2, -⟩ | ⟨g1, -⟩
  · rcases createFile_good rs₁ none g2 with ⟨rs₂, k1, k2, -⟩ | ⟨k1, -⟩
    · obtain ⟨w1, w2, w3, -⟩ := writeFile_good capacity pk k2
      rcases writeParamsRun_cases capacity pk vk ⟨none, none⟩ rs with ⟨h1, h3, h4⟩ | ⟨rs₁', h1, h2, h3, h4⟩ | ⟨rs₁', rs₂', h1, h2, ⟨h3, h5, h4⟩ | ⟨h3, h5, h4⟩⟩
      · rw [g1] at h1
        exact absurd rfl h1
      · rw [g1] at h1
        cases h1
        rw [k1] at h2
        exact absurd rfl h2
      · rw [g1] at h1
        cases h1
        rw [k1] at h2
        cases h2
        have : (writeFile capacity pk [] rs₂).1 = .killed := by
          generalize (writeFile capacity pk [] rs₂).1 = s at w1 h3
          cases s
          · exact absurd rfl h3
          · exact absurd rfl w1
          · rfl
        rw [h4, if_pos this] at h
        exact absurd rfl h
      · rw [g1] at h1
        cases h1
        rw [k1] at h2
        cases h2
        obtain ⟨v1, v2, -⟩ := writeFile_good capacity vk w3
        have : (writeFile capacity vk [] (writeFile capacity pk [] rs₂).2.2).1 = .ok := by
          rw [h4] at h
          generalize (writeFile capacity vk [] (writeFile capacity pk [] rs₂).2.2).1 = s at v1 h
          cases s
          · rfl
          · exact absurd rfl v1
          · exact absurd rfl h
        rw [h4, h5, this, w2 h3, v2 this]
        exact ⟨rfl, rfl⟩
    · rcases writeParamsRun_cases capacity pk vk ⟨none, none⟩ rs with ⟨h1, h3, h4⟩ | ⟨rs₁', h1, h2, h3, h4⟩ | ⟨rs₁', rs₂', h1, h2, -⟩
      · rw [g1] at h1
        exact absurd rfl h1
      · rw [g1] at h1
        cases h1
        rw [h4, k1] at h
        exact absurd rfl h
      · rw [g1] at h1
        cases h1
        rw [k1] at h2
        cases h2
  · rcases writeParamsRun_cases capacity pk vk ⟨none, none⟩ rs with ⟨h1, h3, h4⟩ | ⟨rs₁', h1, h2, h3, h4⟩ | ⟨rs₁', rs₂', h1, h2, -⟩
    · rw [h4, g1] at h
      exact absurd rfl h
    · rw [g1] at h1
      cases h1
    · rw [g1] at h1
      cases h1

/-- **C104, what the files consist of.** If no call fails, short writes and interrupted calls included, and all runs have ended, each of them returned `Ok`, each file
has the right length, and each of its bytes is a byte of one of the runs at this place. -/
theorem C104_bytes [Nonempty ι] (capacity : Nat) (pk vk : ι → List (List UInt8)) (n n' : Nat) (hpk : ∀ j, (pk j).flatten.length = n)
    (hvk : ∀ j, (vk j).flatten.length = n') (old : Files) (l : List (ι × Response)) (hl : ∀ x ∈ l, x.2.Good)
    (he : ∀ j, (Crowd.run capacity pk vk l (Crowd.init old)).outcome capacity pk vk j ≠ .killed) :
    (∀ j, (Crowd.run capacity pk vk l (Crowd.init old)).outcome capacity pk vk j = .ok) ∧
    ∃ a b, (Crowd.run capacity pk vk l (Crowd.init old)).files = ⟨some a, some b⟩ ∧ a.length = n ∧ b.length = n' ∧
      (∀ i, i < n → ∃ j, a[i]? = (pk j).flatten[i]?) ∧ ∀ i, i < n' → ∃ j, b[i]? = (vk j).flatten[i]? := by
  have hr : ∀ j, ∀ r ∈ (Crowd.run capacity pk vk l (Crowd.init old)).responses j, r.Good := by
    intro j r hr
    rw [crowd_responses] at hr
    obtain ⟨x, hx, rfl⟩ := List.mem_map.1 (show r ∈ List.map _ _ from hr)
    exact hl x (List.mem_of_mem_filter hx)
  have hc := fun j => own_complete capacity (pk j) (vk j) _ (hr j) (he j)
  refine ⟨fun j => (hc j).1, ?_⟩
  obtain ⟨h1, h2⟩ := Crowd.shared capacity pk vk n n' (fun j => (hpk j).le) (fun j => (hvk j).le) old l (Crowd.init old)
    (Crowd.shared_init capacity pk vk n n' old)
  generalize Crowd.run capacity pk vk l (Crowd.init old) = m at hc h1 h2
  obtain ⟨j0⟩ := ‹Nonempty ι›
  have full : ∀ (key : ι → List UInt8) (n : Nat) (f : List UInt8), f.length ≤ n → Groth16.Filled key n f →
      f.length = n ∧ ∀ i, i < n → ∃ j, f[i]? = (key j)[i]? := by
    intro key n f h1 h2
    refine ⟨?_, fun i hi => ?_⟩
    · by_contra hne
      obtain ⟨j, b, e, -⟩ := h2.1 f.length (by omega)
      simp at e
    · obtain ⟨j, b, e1, e2⟩ := h2.1 i hi
      exact ⟨j, e1.trans e2.symm⟩
  rcases h1 with ⟨h1, -⟩ | ⟨x, w, f, k1, k2, k3, k4⟩
  · have := h1 j0
    simp only [(hc j0).2] at this
    cases this
  · rcases h2 with ⟨h2, -⟩ | ⟨y, w', f', q1, q2, q3, q4⟩
    · have := h2 j0
      simp only [(hc j0).2] at this
      cases this
    · simp only [(hc x).2] at k1
      simp only [(hc y).2] at q1
      cases k1
      cases q1
      rw [hpk x] at k4
      rw [hvk y] at q4
      obtain ⟨a1, a2⟩ := full _ n f k3 k4
      obtain ⟨b1, b2⟩ := full _ n' f' q3 q4
      refine ⟨f, f', ?_, a1, b1, a2, b2⟩
      rw [show m.files = ⟨m.files.pk, m.files.vk⟩ from rfl, k2, q2]

/-- The answers that a part of a schedule has for a run. -/
theorem own_answers (q : List Response) (c b : Bool) : ((q.map fun r => (c, r)).filter fun x => x.1 = b).map Prod.snd = if c = b then q else [] := by
  by_cases hcb : c = b
  · subst hcb
    rw [if_pos rfl, List.filter_eq_self.2 (by simp), List.map_map]
    exact List.map_id q
  · rw [if_neg hcb, List.filter_eq_nil_iff.2 fun x hx => by
      obtain ⟨r, -, rfl⟩ := List.mem_map.1 hx
      simpa using hcb]
    rfl

/-- One run ends while another is between its two files. -/
theorem crowd_between (capacity : Nat) (pk vk : Bool → List (List UInt8)) (rs : Bool → List Response) (hg : ∀ b, ∀ r ∈ rs b, r.Good)
    (hk : ∀ b, (writeParamsRun capacity (pk b) (vk b) ⟨none, none⟩ (rs b)).1 ≠ .killed) (hvk : (vk false).flatten.length = (vk true).flatten.length)
    (old : Files) : ∃ l : List (Bool × Response), (∀ b, (l.filter fun x => x.1 = b).map Prod.snd = rs b) ∧
      (Crowd.run capacity pk vk l (Crowd.init old)).files = ⟨some (pk false).flatten, some (vk true).flatten⟩ ∧
      ∀ b, (Crowd.run capacity pk vk l (Crowd.init old)).outcome capacity pk vk b = .ok := by
  have hc := fun b => own_complete capacity (pk b) (vk b) (rs b) (hg b) (hk b)
  obtain ⟨p, p', e, h1, h2⟩ := own_phase capacity (pk true) (vk true) (rs true) (hc true).1
  refine ⟨p.map (fun r => (true, r)) ++ ((rs false).map (fun r => (false, r)) ++ p'.map fun r => (true, r)), ?_⟩
  have hl : ∀ b, ((p.map (fun r => (true, r)) ++ ((rs false).map (fun r => (false, r)) ++ p'.map fun r => (true, r))).filter fun x => x.1 = b).map Prod.snd =
      rs b := by
    intro b
    rw [List.filter_append, List.filter_append, List.map_append, List.map_append, own_answers, own_answers, own_answers]
    cases b
    · simp
    · simp [e]
  refine ⟨hl, ?_, ?_⟩
  · rw [Crowd.run_append, Crowd.run_append, Crowd.feed, Crowd.feed, Crowd.feed]
    dsimp only [Crowd.init]
    rw [Function.update_of_ne (by decide : (false : Bool) ≠ true), Function.update_of_ne (by decide : (true : Bool) ≠ false), Function.update_self]
    simp only [List.nil_append]
    rw [← e, h1, h2, (hc true).2, (hc false).2]
    have n : ownFiles capacity (pk false) (vk false) [] = ⟨none, none⟩ := rfl
    rw [n, applyCall_self]
    show Files.mk (some (pk false).flatten) (applyCall (some []) (some (vk true).flatten) (some (vk false).flatten)) = _
    unfold applyCall
    dsimp only
    split_ifs with h0
    · show Files.mk _ (some (writeAt (vk false).flatten 0 (vk true).flatten)) = _
      rw [writeAt_all _ _ hvk.le]
    · rw [List.length_nil] at h0
      rw [List.eq_nil_of_length_eq_zero (show (vk false).flatten.length = 0 by omega), List.eq_nil_of_length_eq_zero (show (vk true).flatten.length = 0 by omega)]
  · intro b
    unfold Crowd.outcome
    rw [crowd_responses]
    show (writeParamsRun _ _ _ _ ([] ++ _)).1 = _
    rw [List.nil_append, hl b]
    exact (hc b).1

omit [AddCommGroup G1] [Module Fq G1] [AddCommGroup G2] [Module Fq G2] in
/-- The program of a run, with its keys. -/
theorem undisturbed_run (hS : S.Good E1 E2 back1 back2) (x : Run) (hr : x.Undisturbed) {pk : ProvingKey G1 G2}
    (l1 : (writePk (pk.map S.coords1 S.coords2)).length = 1577232) (l2 : (writeVk (pk.map S.coords1 S.coords2).vk).length = 1448) :
    (writeParamsRun S.capacity (S.pieces (writePk (pk.map S.coords1 S.coords2))) (S.pieces (writeVk (pk.vk.map S.coords1 S.coords2))) ⟨none, none⟩
      x.responses).1 ≠ .killed :=
  (C91_complete S.capacity (pk.map S.coords1 S.coords2) _ _ (hS.pieces _) (hS.pieces _) ⟨none, none⟩ x.responses hr.1).2 (by rw [l1, l2]; exact hr.2)

/-- **C104, two generators.** Let `x` and `y` be runs of the generator with usable secrets with different `delta`, and let none of their calls fail.  Whatever answers the
operating system gives to each of them, and whatever files there are, the answers can come in an order in which both return `Ok` and then the tests read
the proving key of `x` and the verifying key of `y`, with which the happy path fails, for every preimage, for all but one value of the prover's `s` and all but one of `r`. -/
theorem C104_two_generators [DecidableEq GT] (hS : S.Good E1 E2 back1 back2) (e : G1 →ₗ[Fq] G2 →ₗ[Fq] GT) (he : e S.g1 S.g2 ≠ 0) (g : Fq)
    (hg : S.domain.Coset g) (x y : Run) (hx : x.secrets.Usable) (hy : y.secrets.Usable) (rx : x.Undisturbed) (ry : y.Undisturbed)
    (hxy : x.secrets.delta ≠ y.secrets.delta) (old : Files) :
    ∃ (pk pk' : ProvingKey G1 G2) (l : List (Bool × Response)) (m : Crowd Bool),
      setup S.domain S.g1 S.g2 x.secrets x.circuit = .ok pk ∧ setup S.domain S.g1 S.g2 y.secrets y.circuit = .ok pk' ∧
      let first := fun b : Bool => S.pieces (writePk ((if b then pk' else pk).map S.coords1 S.coords2))
      let second := fun b : Bool => S.pieces (writeVk ((if b then pk' else pk).vk.map S.coords1 S.coords2))
      m = Crowd.run S.capacity first second l (Crowd.init old) ∧
      (∀ b, (l.filter fun x => x.1 = b).map Prod.snd = if b then y.responses else x.responses) ∧
      (∀ b, m.outcome S.capacity first second b = .ok) ∧
      ∃ k v, loadKeys E1 E2 m.files = some (.ok (k, v)) ∧ k.map back1 back2 = pk ∧ v.map back1 back2 = pk'.vk ∧
        ∀ preimages : Vector Fq 7, ∃ s₀, ∀ s, s ≠ s₀ → ∃ r₀, ∀ r, r ≠ r₀ → ∀ debug,
          happyPath debug e S.domain g (k.map back1 back2) (v.map back1 back2) r s preimages = .error .assertFailed := by
  obtain ⟨pk, h0, hv, hm, l1, l2⟩ := made_valid hS x hx
  obtain ⟨pk', h0', hv', hm', l1', l2'⟩ := made_valid hS y hy
  have hc := crowd_between S.capacity (fun b : Bool => S.pieces (writePk ((if b then pk' else pk).map S.coords1 S.coords2)))
    (fun b : Bool => S.pieces (writeVk ((if b then pk' else pk).vk.map S.coords1 S.coords2))) (fun b => if b then y.responses else x.responses)
    (fun b => by
      cases b
      · exact rx.1
      · exact ry.1)
    (fun b => by
      cases b
      · exact undisturbed_run hS x rx l1 l2
      · exact undisturbed_run hS y ry l1' l2')
    (by
      rw [hS.pieces, hS.pieces]
      exact l2.trans l2'.symm) old
  obtain ⟨l, p1, p2, p3⟩ := hc
  refine ⟨pk, pk', l, _, h0, h0', rfl, p1, p3, ?_⟩
  rw [p2, hS.pieces, hS.pieces]
  have hr := C90_roundtrip _ hv []
  have hr' := C90_roundtrip _ hv' []
  rw [List.append_nil, List.append_nil] at hr hr'
  have hmv' : (pk'.vk.map S.coords1 S.coords2).map back1 back2 = pk'.vk := congrArg ProvingKey.vk hm'
  refine ⟨pk.map S.coords1 S.coords2, pk'.vk.map S.coords1 S.coords2, loadKeys_ok.2 ⟨_, _, rfl, hr.1, hr'.2⟩, hm, hmv', fun v => ?_⟩
  obtain ⟨p, p', q1, q2, q3, -⟩ := C98_other_key e S.g1 S.g2 he S.domain hS.domain (by rw [hS.size]; decide) g hg x.secrets y.secrets hx hy
    x.circuit y.circuit v
  rw [h0] at q1
  rw [h0'] at q2
  cases q1
  cases q2
  rw [hm, hmv']
  exact q3 hxy

/-- **C104, a run that fails spoils another.** Let `x` and `y` be runs of the generator with usable secrets, let no call of `x` fail, and let `y` create the first file
and fail to create the second.  Whatever answers `x` gets and whatever files there are, the answers can come in an order in which `x` returns `Ok`, `y` returns an
error, and the proving key is empty, so that nothing can be read. -/
theorem C104_failed_run (hS : S.Good E1 E2 back1 back2) (x y : Run) (hx : x.secrets.Usable) (hy : y.secrets.Usable) (rx : x.Undisturbed)
    (ry : y.responses = [.done 1, .failed]) (old : Files) :
    ∃ (pk pk' : ProvingKey G1 G2) (l : List (Bool × Response)) (m : Crowd Bool),
      setup S.domain S.g1 S.g2 x.secrets x.circuit = .ok pk ∧ setup S.domain S.g1 S.g2 y.secrets y.circuit = .ok pk' ∧
      let first := fun b : Bool => S.pieces (writePk ((if b then pk' else pk).map S.coords1 S.coords2))
      let second := fun b : Bool => S.pieces (writeVk ((if b then pk' else pk).vk.map S.coords1 S.coords2))
      m = Crowd.run S.capacity first second l (Crowd.init old) ∧
      (∀ b, (l.filter fun x => x.1 = b).map Prod.snd = if b then y.responses else x.responses) ∧
      m.outcome S.capacity first second false = .ok ∧ m.outcome S.capacity first second true = .error ∧
      m.files.pk = some [] ∧ ∀ kv, loadKeys E1 E2 m.files ≠ some (.ok kv) := by
  obtain ⟨pk, h0, hv, hm, l1, l2⟩ := made_valid hS x hx
  obtain ⟨pk', h0', -⟩ := made_valid hS y hy
  have hc := own_complete S.capacity (S.pieces (writePk (pk.map S.coords1 S.coords2))) (S.pieces (writeVk (pk.vk.map S.coords1 S.coords2))) x.responses rx.1
    (undisturbed_run hS x rx l1 l2)
  obtain ⟨p, p', e, h1, h2⟩ := own_phase _ _ _ _ hc.1
  have hl : ∀ b, ((p.map (fun r => (false, r)) ++ (y.responses.map (fun r => (true, r)) ++ p'.map fun r => (false, r))).filter fun x => x.1 = b).map Prod.snd =
      if b then y.responses else x.responses := by
    intro b
    rw [List.filter_append, List.filter_append, List.map_append, List.map_append, own_answers, own_answers, own_answers]
    cases b
    · simp [e]
    · simp
  have hpk : (Crowd.run S.capacity (fun b : Bool => S.pieces (writePk ((if b then pk' else pk).map S.coords1 S.coords2)))
      (fun b : Bool => S.pieces (writeVk ((if b then pk' else pk).vk.map S.coords1 S.coords2)))
      (p.map (fun r => (false, r)) ++ (y.responses.map (fun r => (true, r)) ++ p'.map fun r => (false, r))) (Crowd.init old)).files.pk = some [] := by
    rw [Crowd.run_append, Crowd.run_append, Crowd.feed, Crowd.feed, Crowd.feed]
    dsimp only [Crowd.init]
    rw [Function.update_of_ne (by decide : (true : Bool) ≠ false), Function.update_of_ne (by decide : (false : Bool) ≠ true), Function.update_self]
    simp only [List.nil_append, if_false, Bool.false_eq_true]
    rw [← e, h1, applyCall_self, ry]
    rfl
  refine ⟨pk, pk', _, _, h0, h0', rfl, hl, ?_, ?_, hpk, fun kv h => ?_⟩
  · unfold Crowd.outcome
    rw [crowd_responses]
    show (writeParamsRun _ _ _ _ ([] ++ _)).1 = _
    rw [List.nil_append, hl false]
    exact hc.1
  · unfold Crowd.outcome
    rw [crowd_responses]
    show (writeParamsRun _ _ _ _ ([] ++ _)).1 = _
    rw [List.nil_append, hl true, if_pos rfl, ry]
    rfl
  · rcases kv with ⟨k, v⟩
    obtain ⟨a, b, e1, h1, -⟩ := loadKeys_ok.1 h
    rw [e1] at hpk
    cases hpk
    cases h1

/-! ### The hypotheses are met

`setting_exists` (C97) is a setting; runs without errors and with different `delta` are beside C103. -/

/-- A small case of `C104_bytes`: two runs with a buffer of two bytes, one call is interrupted and one writes one byte only; both end, and the first
file has bytes of both. -/
example : let first := fun b : Bool => if b then [[1], [2, 3]] else [[4], [5, 6]]
    let second := fun b : Bool => if b then [[7]] else [[8]]
    let l := [(false, .done 0), (true, .done 0), (true, .done 0), (false, .interrupted), (false, .done 0), (true, .done 1), (false, .done 1), (false, .done 1),
      (true, .done 9), (false, .done 9), (true, .done 1), (false, .done 1)]
    let m := Crowd.run 2 first second l (Crowd.init ⟨none, none⟩)
    (∀ b, m.outcome 2 first second b = .ok) ∧ m.files.pk = some [4, 2, 6] ∧ m.files.vk = some [8] := by
  decide

/-- A run as in `C104_failed_run`. -/
example : ∃ y : Run, y.secrets.Usable ∧ y.responses = [.done 1, .failed] :=
  ⟨⟨⟨3, 5, 7, 12, 13⟩, ⟨Vector.replicate 7 0, Vector.replicate 7 0⟩, _⟩,
    ⟨by show (7 : Fq) ≠ 0; decide +kernel, by show (12 : Fq) ≠ 0; decide +kernel⟩, rfl⟩

end Poseidon
