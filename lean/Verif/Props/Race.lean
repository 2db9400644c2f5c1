import Verif.Props.TestVectors
import Verif.Proofs.Race
import Verif.Proofs.Mismatch

/-!
# Property C98: several generators of keys at the same time

Nothing keeps two processes from running `generate_test_vectors` (poseidon-tests/tests/poseidon377_r1cs.rs:268-275) at the same time.
Their calls to the operating system come in any order: a schedule says who makes the next call, and how many bytes it takes.
-/

namespace Poseidon

open Poseidon.Groth16

variable {E1 : Curve Fp} {E2 : Curve Fp2}
variable {G1 G2 GT : Type} [AddCommGroup G1] [Module Fq G1] [AddCommGroup G2] [Module Fq G2] [AddCommGroup GT] [Module Fq GT]
variable {S : Setting G1 G2} {back1 : Affine Fp → G1} {back2 : Affine Fp2 → G2}
variable {ι : Type} [DecidableEq ι]

/-- **C98, what the files consist of.** When all runs have ended, for any number of them and any schedule, each file has the right length, and each
of its bytes is a byte of one of the runs at this place; but not all need be from the same run. -/
theorem C98_bytes [Nonempty ι] (pk vk : ι → List UInt8) (n n' : Nat) (hpk : ∀ j, (pk j).length = n) (hvk : ∀ j, (vk j).length = n') (old : Files)
    (l : List (ι × Nat)) (hl : ∀ j, (Machine.run pk vk l (Machine.init old)).stage j = .done) :
    ∃ a b, (Machine.run pk vk l (Machine.init old)).files = ⟨some a, some b⟩ ∧ a.length = n ∧ b.length = n' ∧
      (∀ i, i < n → ∃ j, a[i]? = (pk j)[i]?) ∧ ∀ i, i < n' → ∃ j, b[i]? = (vk j)[i]? := by
  have h := Race.run (old := old) (fun j => (hpk j).le) (fun j => (hvk j).le) l (Race.init pk vk n n' old)
  generalize Machine.run pk vk l (Machine.init old) = m at h hl
  obtain ⟨j0⟩ := ‹Nonempty ι›
  have full : ∀ (key : ι → List UInt8) (n : Nat) (f : List UInt8), f.length ≤ n → Groth16.Filled key n f →
      f.length = n ∧ ∀ i, i < n → ∃ j, f[i]? = (key j)[i]? := by
    intro key n f h1 h2
    refine ⟨?_, fun i hi => ?_⟩
    · by_contra hne
      obtain ⟨j, b, e, -⟩ := h2.1 f.length (by omega)
      simp at e
    · obtain ⟨j, b, e1, e2⟩ := h2.1 i hi
      exact ⟨j, e1.trans e2.symm⟩
  rcases h.pk with ⟨h1, -⟩ | ⟨x, f, -, h2, h3, h4⟩
  · have := h1 j0
    rw [hl j0] at this
    cases this
  · rcases h.vk with ⟨k1, -⟩ | ⟨y, f', -, k2, k3, k4⟩
    · exact absurd (by rw [hl j0]; trivial) (k1 j0)
    · rw [hl x] at h4
      rw [hl y] at k4
      obtain ⟨a1, a2⟩ := full pk n f h3 (by have := hpk x; rw [← this]; exact h4)
      obtain ⟨b1, b2⟩ := full vk n' f' k3 (by have := hvk y; rw [← this]; exact k4)
      refine ⟨f, f', ?_, a1, b1, a2, b2⟩
      rw [show m.files = ⟨m.files.pk, m.files.vk⟩ from rfl, h2, k2]

/-- **C98, a run that is alone.** Whatever other runs have done before: if a run starts when they no longer make calls, it ends after at most
as many calls as it has bytes to write, and four; then the files are its files. -/
theorem C98_alone (pk vk : ι → List UInt8) (old : Files) (before alone : List (ι × Nat)) (i : ι) (hi : ∀ x ∈ before, x.1 ≠ i)
    (ha : ∀ x ∈ alone, x.1 = i) (hn : (pk i).length + (vk i).length + 4 ≤ alone.length) :
    (Machine.run pk vk (before ++ alone) (Machine.init old)).files = ⟨some (pk i), some (vk i)⟩ ∧
      (Machine.run pk vk (before ++ alone) (Machine.init old)).stage i = .done := by
  have start : ∀ (l : List (ι × Nat)), (∀ x ∈ l, x.1 ≠ i) → ∀ m : Machine ι, (Machine.run pk vk l m).stage i = m.stage i := by
    intro l
    induction l with
    | nil => intro _ m; rfl
    | cons x l ih =>
      intro hl m
      refine (ih (fun y hy => hl y (by simp [hy])) _).trans ?_
      exact Function.update_of_ne (hl x (by simp)).symm _ _
  rw [Machine.run_append]
  have hs : (Machine.run pk vk before (Machine.init old)).stage i = .start := start before hi _
  generalize Machine.run pk vk before (Machine.init old) = m at hs
  rcases alone with _ | ⟨⟨j, n1⟩, _ | ⟨⟨k, n2⟩, l⟩⟩
  · simp at hn
  · simp at hn
  · have hj : j = i := ha (j, n1) (by simp)
    have hk : k = i := ha (k, n2) (by simp)
    subst hj hk
    refine Alone.run k l (fun x hx => ha x (by simp [hx])) _ ((pk k).length - 0 + (vk k).length + 2) ?_ (by simp at hn; omega)
    dsimp only
    rw [hs]
    simp only [Function.update_self, call]
    exact ⟨Nat.zero_le _, rfl, rfl⟩

/-- A schedule that ends with the first file of one run and the second of the other; each write takes `n + 1` bytes, or what is left. -/
theorem crossed (pk vk : ι → List UInt8) (a b : ι) (hab : a ≠ b) (hpk : (pk a).length = (pk b).length) (hvk : (vk a).length = (vk b).length)
    (n : Nat) (old : Files) :
    ∃ l : List (ι × Nat), (∀ x ∈ l, x.2 = n) ∧ (Machine.run pk vk l (Machine.init old)).stage a = .done ∧
      (Machine.run pk vk l (Machine.init old)).stage b = .done ∧
      (Machine.run pk vk l (Machine.init old)).files = ⟨some (pk a), some (vk b)⟩ := by
  have hba : b ≠ a := hab.symm
  have ep : ∀ (i : ι) (files : Files), call (pk i) (vk i) n (.writingPk (pk i).length) files = (.writingVk 0, files) := by
    intro i files
    unfold call
    dsimp only
    rw [if_neg (lt_irrefl _)]
  have ev : ∀ (i : ι) (files : Files), call (pk i) (vk i) n (.writingVk (vk i).length) files = (.done, files) := by
    intro i files
    unfold call
    dsimp only
    rw [if_neg (lt_irrefl _)]
  -- a machine that has run from the beginning, all writes with `n + 1` bytes
  have go : ∀ {m m' : Machine ι} {l : List (ι × Nat)}, (∃ l', (∀ x ∈ l', x.2 = n) ∧ Machine.run pk vk l' (Machine.init old) = m) → (∀ x ∈ l, x.2 = n) →
      Machine.run pk vk l m = m' → ∃ l', (∀ x ∈ l', x.2 = n) ∧ Machine.run pk vk l' (Machine.init old) = m' := by
    rintro m m' l ⟨l', h1, h2⟩ h3 h4
    refine ⟨l' ++ l, fun x hx => (List.mem_append.1 hx).elim (h1 x) (h3 x), ?_⟩
    rw [Machine.run_append, h2, h4]
  have one : ∀ {m : Machine ι} (i : ι) (s : Stage) (files : Files), call (pk i) (vk i) n (m.stage i) m.files = (s, files) →
      Machine.run pk vk [(i, n)] m = ⟨Function.update m.stage i s, files⟩ := by
    intro m i s files h
    show Machine.mk _ _ = _
    rw [h]
  have all : ∀ (i : ι) (k : Nat), ∀ x ∈ List.replicate k (i, n), x.2 = n := fun i k x hx => by rw [List.eq_of_mem_replicate hx]
  have all1 : ∀ (i : ι), ∀ x ∈ [(i, n)], x.2 = n := fun i => all i 1
  have rp : ∀ {m : Machine ι} (i : ι) (f : List UInt8), (∃ l', (∀ x ∈ l', x.2 = n) ∧ Machine.run pk vk l' (Machine.init old) = m) →
      m.stage i = .writingPk 0 → m.files.pk = some f → f.length ≤ (pk i).length → ∃ l', (∀ x ∈ l', x.2 = n) ∧
      Machine.run pk vk l' (Machine.init old) = ⟨Function.update m.stage i (.writingPk (pk i).length), { m.files with pk := some (pk i) }⟩ := by
    intro m i f h h1 h2 h3
    obtain ⟨k, e⟩ := rest_pk (pk := pk) (vk := vk) i n _ 0 m f rfl (Nat.zero_le _) h1 h2 rfl (Nat.zero_le _) h3
    exact go h (all i k) e
  have rv : ∀ {m : Machine ι} (i : ι) (f : List UInt8), (∃ l', (∀ x ∈ l', x.2 = n) ∧ Machine.run pk vk l' (Machine.init old) = m) →
      m.stage i = .writingVk 0 → m.files.vk = some f → f.length ≤ (vk i).length → ∃ l', (∀ x ∈ l', x.2 = n) ∧
      Machine.run pk vk l' (Machine.init old) = ⟨Function.update m.stage i (.writingVk (vk i).length), { m.files with vk := some (vk i) }⟩ := by
    intro m i f h h1 h2 h3
    obtain ⟨k, e⟩ := rest_vk (pk := pk) (vk := vk) i n _ 0 m f rfl (Nat.zero_le _) h1 h2 rfl (Nat.zero_le _) h3
    exact go h (all i k) e
  have m0 : ∃ l', (∀ x ∈ l', x.2 = n) ∧ Machine.run pk vk l' (Machine.init old) = Machine.init old := ⟨[], by simp, rfl⟩
  -- both create both files
  have m1 := go m0 (all1 a) (one a .createdPk ⟨some [], old.vk⟩ rfl)
  have m2 := go m1 (all1 a) (one a (.writingPk 0) ⟨some [], some []⟩ (by simp [call]))
  have m3 := go m2 (all1 b) (one b .createdPk ⟨some [], some []⟩ (by simp [call, hba, Machine.init]))
  have m4 := go m3 (all1 b) (one b (.writingPk 0) ⟨some [], some []⟩ (by simp [call]))
  -- `b` writes its proving key, then `a`
  have m5 := rp b [] m4 (Function.update_self ..) rfl (Nat.zero_le _)
  have m6 := rp a (pk b) m5 (by simp only [Function.update_of_ne hab, Function.update_self]) rfl hpk.ge
  -- `a` writes its verifying key, then `b`
  have m7 := go m6 (all1 a) (one a (.writingVk 0) ⟨some (pk a), some []⟩ (by simp only [Function.update_self]; exact ep a _))
  have m8 := go m7 (all1 b) (one b (.writingVk 0) ⟨some (pk a), some []⟩ (by
    simp only [Function.update_of_ne hba, Function.update_self]; exact ep b _))
  have m9 := rv a [] m8 (by simp only [Function.update_of_ne hab, Function.update_self]) rfl (Nat.zero_le _)
  have m10 := rv b (vk a) m9 (by simp only [Function.update_of_ne hba, Function.update_self]) rfl hvk.le
  have m11 := go m10 (all1 a) (one a .done ⟨some (pk a), some (vk b)⟩ (by
    simp only [Function.update_of_ne hab, Function.update_self]; exact ev a _))
  have m12 := go m11 (all1 b) (one b .done ⟨some (pk a), some (vk b)⟩ (by
    simp only [Function.update_of_ne hba, Function.update_self]; exact ev b _))
  obtain ⟨l, h1, h2⟩ := m12
  refine ⟨l, h1, ?_, ?_, ?_⟩
  · rw [h2]
    simp only [Function.update_of_ne hab, Function.update_self]
  · rw [h2]
    simp only [Function.update_self]
  · rw [h2]

theorem crossed_two (pk vk : Bool → List UInt8) {k k' : Nat} (hpk : ∀ b, (pk b).length = k) (hvk : ∀ b, (vk b).length = k') (n : Nat) (old : Files) :
    ∃ l : List (Bool × Nat), (∀ x ∈ l, x.2 = n) ∧ (∀ b, (Machine.run pk vk l (Machine.init old)).stage b = .done) ∧
      (Machine.run pk vk l (Machine.init old)).files = ⟨some (pk false), some (vk true)⟩ := by
  obtain ⟨l, h0, h1, h2, h3⟩ := crossed pk vk false true (by decide) (by rw [hpk, hpk]) (by rw [hvk, hvk]) n old
  refine ⟨l, h0, fun b => ?_, h3⟩
  cases b with
  | false => exact h1
  | true => exact h2

/-- **C98, keys of different runs.** Take the proving key of one run and the verifying key of another.  If their secrets `delta` differ, then for every
preimage the happy path fails, for all but one value of the prover's `s` and all but one of `r`.  If they do not, it fails always or never. -/
theorem C98_other_key [DecidableEq GT] (e : G1 →ₗ[Fq] G2 →ₗ[Fq] GT) (g1 : G1) (g2 : G2) (he : e g1 g2 ≠ 0) (d : Domain Fq) (hd : d.Good)
    (hs : 2465 ≤ d.size) (g : Fq) (hg : d.Coset g) (w w' : Secrets Fq) (hw : w.Usable) (hw' : w'.Usable) (c c' : R1cs.PreimageCircuit)
    (v : Vector Fq 7) :
    ∃ pk pk', setup d g1 g2 w c = .ok pk ∧ setup d g1 g2 w' c' = .ok pk' ∧
      (w.delta ≠ w'.delta → ∃ s₀, ∀ s, s ≠ s₀ → ∃ r₀, ∀ r, r ≠ r₀ → ∀ debug, happyPath debug e d g pk pk'.vk r s v = .error .assertFailed) ∧
      (w.delta = w'.delta → (∀ debug r s, happyPath debug e d g pk pk'.vk r s v = .error .assertFailed) ∨
        ∀ debug r s, happyPath debug e d g pk pk'.vk r s v = .ok ()) ∧
      (w.alpha = w'.alpha → w.beta = w'.beta → w.delta = w'.delta → w.tau = w'.tau → ∀ debug r s, happyPath debug e d g pk pk'.vk r s v = .ok ()) := by
  obtain ⟨M, cons, hI, hM⟩ := the_matrices
  obtain ⟨y, h1, h2⟩ := testOutputs_relation v
  obtain ⟨A, B, SP, SP', p1, p1', hp⟩ := prove_other e he hI hM hd hs hg ⟨v, y⟩ h2 hw hw'
  have run : ∀ (debug : Bool) (r s : Fq), happyPath debug e d g (theKey d g1 g2 w M 8 2457) (theKey d g1 g2 w' M 8 2457).vk r s v =
      if (w.delta - w'.delta) * ((r * w.delta + A) * (s * w.delta + B)) =
        w.delta * (SP' + w'.alpha * w'.beta) - w'.delta * (SP + w.alpha * w.beta) then .ok () else .error .assertFailed := by
    intro debug r s
    obtain ⟨p, k1, k2⟩ := hp debug r s
    unfold happyPath
    rw [h1, ok_bind, k1, ok_bind]
    dsimp only at k2
    rw [k2, ok_bind]
    by_cases hc : (w.delta - w'.delta) * ((r * w.delta + A) * (s * w.delta + B)) =
        w.delta * (SP' + w'.alpha * w'.beta) - w'.delta * (SP + w.alpha * w.beta)
    · rw [if_pos hc, decide_eq_true hc]
      rfl
    · rw [if_neg hc, decide_eq_false hc]
      rfl
  refine ⟨_, _, setup_eq hI hM hd hs g1 g2 hw c, setup_eq hI hM hd hs g1 g2 hw' c', fun hδ => ?_, fun hδ => ?_, fun hα hβ hδ hτ => ?_⟩
  · refine ⟨-B / w.delta, fun s hs => ?_⟩
    have hB : s * w.delta + B ≠ 0 := by
      intro h0
      refine hs ?_
      rw [eq_div_iff hw.2]
      linear_combination h0
    have hδ' : w.delta - w'.delta ≠ 0 := sub_ne_zero.2 hδ
    have hw2 := hw.2
    refine ⟨((w.delta * (SP' + w'.alpha * w'.beta) - w'.delta * (SP + w.alpha * w.beta)) / ((w.delta - w'.delta) * (s * w.delta + B)) - A) / w.delta,
      fun r hr debug => ?_⟩
    rw [run, if_neg]
    intro h0
    refine hr ?_
    rw [eq_div_iff hw.2, eq_sub_iff_add_eq, eq_div_iff (mul_ne_zero hδ' hB)]
    linear_combination h0
  · by_cases hc : (0 : Fq) = w.delta * (SP' + w'.alpha * w'.beta) - w'.delta * (SP + w.alpha * w.beta)
    · refine .inr fun debug r s => ?_
      rw [run, if_pos]
      rw [← hc, hδ, sub_self, zero_mul]
    · refine .inl fun debug r s => ?_
      rw [run, if_neg]
      rw [hδ, sub_self, zero_mul]
      rw [hδ] at hc
      exact hc
  · have hSP : SP = SP' := by
      have hg1 : g1 ≠ 0 := by
        rintro rfl
        rw [map_zero, LinearMap.zero_apply] at he
        exact he rfl
      have hy : y.toList = ((List.range 8).drop 1).map fun j => (1 :: y.toList).getD j 0 := by
        refine List.ext_getElem (by simp) fun k k1 k2 => ?_
        simp only [List.getElem_map, List.getElem_drop, List.getElem_range]
        rw [List.getD_eq_getElem _ _ (by simp; simp at k1; omega)]
        simp [Nat.add_comm 1]
      have q : ∀ {u : Secrets Fq} (hu : u.Usable) {T : Fq}, prepareInputs (theKey d g1 g2 u M 8 2457).vk y.toList = .ok ((T * u.gamma⁻¹) • g1) →
          T = ((List.range 8).map fun j => (1 :: y.toList).getD j 0 * (u.beta * (colPolyA d M.a 8 j).eval u.tau + u.alpha * (colPoly d M.b j).eval u.tau +
            (colPoly d M.c j).eval u.tau)).sum := by
        intro u hu T hT
        have := prepareInputs_eq (n := d.size) (g1 := g1) (g2 := g2) (w := u) (zt := d.vanishing u.tau) (a := fun j => (colPolyA d M.a 8 j).eval u.tau)
          (b := fun j => (colPoly d M.b j).eval u.tau) (c := fun j => (colPoly d M.c j).eval u.tau) (ni := 8) (N := 8 + 2457) (by omega)
          (z' := fun j => (1 :: y.toList).getD j 0) rfl
        rw [← hy] at this
        have e1 : Except.ok ((T * u.gamma⁻¹) • g1) = _ := hT.symm.trans this
        exact mul_right_cancel₀ (inv_ne_zero hu.1) (smul_left_injective Fq hg1 (Except.ok.inj e1))
      rw [q hw p1, q hw' p1', hα, hβ, hτ]
    intro debug r s
    rw [run, if_pos]
    rw [hSP, hα, hβ, hδ]
    ring

/-- **C98, two generators.** Let two runs of the generator have usable secrets with different `delta`.  Whatever files there are, and however many
bytes a call writes, there is a schedule in which both end without an error, and then the tests read a proving key of the one and a verifying key of the other: the happy path fails, for every
preimage, for all but one value of the prover's `s` and all but one of `r`. -/
theorem C98_two_generators [DecidableEq GT] (hS : S.Good E1 E2 back1 back2) (e : G1 →ₗ[Fq] G2 →ₗ[Fq] GT) (he : e S.g1 S.g2 ≠ 0) (g : Fq)
    (hg : S.domain.Coset g) (x y : Run) (hx : x.secrets.Usable) (hy : y.secrets.Usable) (hxy : x.secrets.delta ≠ y.secrets.delta) (old : Files)
    (n : Nat) :
    ∃ (pk pk' : ProvingKey G1 G2) (l : List (Bool × Nat)) (m : Machine Bool),
      setup S.domain S.g1 S.g2 x.secrets x.circuit = .ok pk ∧ setup S.domain S.g1 S.g2 y.secrets y.circuit = .ok pk' ∧
      m = Machine.run (fun b => writePk ((if b then pk' else pk).map S.coords1 S.coords2))
        (fun b => writeVk ((if b then pk' else pk).vk.map S.coords1 S.coords2)) l (Machine.init old) ∧
      (∀ x ∈ l, x.2 = n) ∧ (∀ b, m.stage b = .done) ∧ ∃ k v, loadKeys E1 E2 m.files = some (.ok (k, v)) ∧ k.map back1 back2 = pk ∧ v.map back1 back2 = pk'.vk ∧
        ∀ preimages : Vector Fq 7, ∃ s₀, ∀ s, s ≠ s₀ → ∃ r₀, ∀ r, r ≠ r₀ → ∀ debug,
          happyPath debug e S.domain g (k.map back1 back2) (v.map back1 back2) r s preimages = .error .assertFailed := by
  obtain ⟨pk, h0, hv, hm, l1, l2⟩ := made_valid hS x hx
  obtain ⟨pk', h0', hv', hm', l1', l2'⟩ := made_valid hS y hy
  have hmv : (pk'.vk.map S.coords1 S.coords2).map back1 back2 = pk'.vk := congrArg ProvingKey.vk hm'
  obtain ⟨l, s0, s1, s3⟩ := crossed_two (fun b : Bool => writePk ((if b then pk' else pk).map S.coords1 S.coords2))
    (fun b => writeVk ((if b then pk' else pk).vk.map S.coords1 S.coords2)) (k := 1577232) (k' := 1448)
    (fun b => by cases b <;> assumption) (fun b => by cases b <;> assumption) n old
  refine ⟨pk, pk', l, _, h0, h0', rfl, s0, s1, pk.map S.coords1 S.coords2, pk'.vk.map S.coords1 S.coords2, ?_, hm, hmv, fun v => ?_⟩
  · rw [s3, loadKeys_ok]
    have hr := C90_roundtrip _ hv []
    have hr' := C90_roundtrip _ hv' []
    rw [List.append_nil, List.append_nil] at hr hr'
    exact ⟨_, _, rfl, hr.1, hr'.2⟩
  · rw [hm, hmv]
    obtain ⟨k, k', q1, q2, q3, -⟩ := C98_other_key e S.g1 S.g2 he S.domain hS.domain (by rw [hS.size]; decide) g hg x.secrets y.secrets hx hy x.circuit
      y.circuit v
    rw [h0] at q1
    rw [h0'] at q2
    cases q1
    cases q2
    exact q3 hxy

/-! ### The hypotheses are met -/

/-- There is a schedule of two runs after which both have ended, as in `C98_bytes`, here for two short files. -/
example : ∀ b : Bool, (Machine.run (fun b : Bool => if b then [1, 2, 3] else [4, 5, 6]) (fun b : Bool => if b then [7] else [8])
    [(false, 0), (true, 0), (true, 0), (true, 1), (false, 0), (false, 0), (false, 1), (true, 5), (true, 0), (true, 0), (true, 0), (false, 0), (false, 0),
      (false, 0)] (Machine.init ⟨none, none⟩)).stage b = .done := by
  decide

/-- After it the first file has bytes of both runs. -/
example : (Machine.run (fun b : Bool => if b then [1, 2, 3] else [4, 5, 6]) (fun b : Bool => if b then [7] else [8])
    [(false, 0), (true, 0), (true, 0), (true, 1), (false, 0), (false, 0), (false, 1), (true, 5), (true, 0), (true, 0), (true, 0), (false, 0), (false, 0),
      (false, 0)] (Machine.init ⟨none, none⟩)).files.pk = some [4, 5, 3] := by
  decide

/-- There are two usable secrets with different `delta`. -/
example : ∃ w w' : Secrets Fq, w.Usable ∧ w'.Usable ∧ w.delta ≠ w'.delta :=
  ⟨⟨3, 5, 7, 11, 13⟩, ⟨3, 5, 7, 12, 13⟩, ⟨by show (7 : Fq) ≠ 0; decide +kernel, by show (11 : Fq) ≠ 0; decide +kernel⟩,
    ⟨by show (7 : Fq) ≠ 0; decide +kernel, by show (12 : Fq) ≠ 0; decide +kernel⟩, by show (11 : Fq) ≠ 12; decide +kernel⟩

end Poseidon
