import Verif.Props.Race
import Verif.Proofs.Splice

/-!
# Property C100: key generators that are killed, and keys of no run

As in C98 several processes run `generate_test_vectors` (poseidon-tests/tests/poseidon377_r1cs.rs:268-275) at the same time, but the schedule
may stop anywhere, and a run that makes no more calls has been killed.  A file that one run empties while another writes it gets a gap at its
beginning.  A file that two runs write may become a key that neither has made.
-/

namespace Poseidon

open Poseidon.Groth16

variable {E1 : Curve Fp} {E2 : Curve Fp2}
variable {G1 G2 GT : Type} [AddCommGroup G1] [Module Fq G1] [AddCommGroup G2] [Module Fq G2] [AddCommGroup GT] [Module Fq GT]
variable {S : Setting G1 G2} {back1 : Affine Fp → G1} {back2 : Affine Fp2 → G2}
variable {ι : Type} [DecidableEq ι]

/-- **C100, at any time.** After every schedule, whoever was killed: the first file is the old one and no run has made a call, or it is not longer
than a key and each of its bytes is zero or a byte of one of the runs at this place.  The second file is the old one, or the same holds for it. -/
theorem C100_any_time (pk vk : ι → List UInt8) (n n' : Nat) (hpk : ∀ j, (pk j).length ≤ n) (hvk : ∀ j, (vk j).length ≤ n') (old : Files)
    (l : List (ι × Nat)) :
    let m := Machine.run pk vk l (Machine.init old)
    ((∀ j, m.stage j = .start) ∧ m.files.pk = old.pk ∨
      ∃ a, m.files.pk = some a ∧ a.length ≤ n ∧ ∀ (i : Nat) (b : UInt8), a[i]? = some b → b = 0 ∨ ∃ j, (pk j)[i]? = some b) ∧
    ((∀ j, m.stage j = .start ∨ m.stage j = .createdPk) ∧ m.files.vk = old.vk ∨
      ∃ a, m.files.vk = some a ∧ a.length ≤ n' ∧ ∀ (i : Nat) (b : UInt8), a[i]? = some b → b = 0 ∨ ∃ j, (vk j)[i]? = some b) := by
  have h := Race.run (old := old) hpk hvk l (Race.init pk vk n n' old)
  dsimp only
  generalize Machine.run pk vk l (Machine.init old) = m at h
  refine ⟨h.pk.imp_right ?_, h.vk.imp ?_ ?_⟩
  · rintro ⟨_, f, _, h2, h3, h4⟩
    exact ⟨f, h2, h3, h4.2⟩
  · rintro ⟨h1, h2⟩
    refine ⟨fun j => ?_, h2⟩
    have := h1 j
    generalize m.stage j = s at this
    cases s with
    | start => exact .inl rfl
    | createdPk => exact .inr rfl
    | writingPk o => exact absurd trivial this
    | writingVk o => exact absurd trivial this
    | done => exact absurd trivial this
  · rintro ⟨_, f, _, h2, h3, h4⟩
    exact ⟨f, h2, h3, h4.2⟩

/-- Calls until at least `t` bytes are written. -/
theorem some_pk {pk vk : ι → List UInt8} (i : ι) (n : Nat) (m : Machine ι) (hs : m.stage i = .writingPk 0) (hf : m.files.pk = some []) :
    ∀ t, t ≤ (pk i).length → ∃ k o, t ≤ o ∧ o ≤ t + n ∧ o ≤ (pk i).length ∧ Machine.run pk vk (List.replicate k (i, n)) m =
      ⟨Function.update m.stage i (.writingPk o), { m.files with pk := some ((pk i).take o) }⟩
  | 0, _ => ⟨0, 0, le_rfl, Nat.zero_le _, Nat.zero_le _, by
      show m = _
      rw [← hs, Function.update_eq_self, List.take_zero, ← hf]⟩
  | t + 1, ht => by
    obtain ⟨k, o, h1, h0, h2, h3⟩ := some_pk (pk := pk) (vk := vk) i n m hs hf t (by omega)
    by_cases hto : t + 1 ≤ o
    · exact ⟨k, o, hto, by omega, h2, h3⟩
    · have hlt : o < (pk i).length := by omega
      have hb : (((pk i).drop o).take (n + 1)).length = min (n + 1) ((pk i).length - o) := by rw [List.length_take, List.length_drop]
      refine ⟨k + 1, o + (((pk i).drop o).take (n + 1)).length, by omega, by omega, by omega, ?_⟩
      rw [List.replicate_succ', Machine.run_append, h3]
      have hc : call (pk i) (vk i) n (.writingPk o) { m.files with pk := some ((pk i).take o) } =
          (.writingPk (o + (((pk i).drop o).take (n + 1)).length),
            { m.files with pk := some ((pk i).take (o + (((pk i).drop o).take (n + 1)).length)) }) := by
        unfold call
        dsimp only
        rw [if_pos hlt, ← writeAt_take (pk i) o (n + 1) h2]
        rfl
      show Machine.mk (Function.update (Function.update m.stage i (.writingPk o)) i
        (call (pk i) (vk i) n (Function.update m.stage i (.writingPk o) i) { m.files with pk := some ((pk i).take o) }).1)
        (call (pk i) (vk i) n (Function.update m.stage i (.writingPk o) i) { m.files with pk := some ((pk i).take o) }).2 = _
      rw [Function.update_self, hc, Function.update_idem]

/-- `m` is reached by a schedule whose calls write `n + 1` bytes. -/
def Reached (pk vk : ι → List UInt8) (P : Nat → Prop) (old : Files) (m : Machine ι) : Prop :=
  ∃ l : List (ι × Nat), (∀ x ∈ l, P x.2) ∧ Machine.run pk vk l (Machine.init old) = m

theorem Reached.go {pk vk : ι → List UInt8} {P : Nat → Prop} {old : Files} {m m' : Machine ι} {l : List (ι × Nat)} (h : Reached pk vk P old m)
    (hl : ∀ x ∈ l, P x.2) (hm : Machine.run pk vk l m = m') : Reached pk vk P old m' := by
  obtain ⟨l', h1, h2⟩ := h
  refine ⟨l' ++ l, fun x hx => (List.mem_append.1 hx).elim (h1 x) (hl x), ?_⟩
  rw [Machine.run_append, h2, hm]

theorem Reached.one {pk vk : ι → List UInt8} {P : Nat → Prop} {old : Files} {m : Machine ι} (h : Reached pk vk P old m) (i : ι) (n : Nat)
    (hn : P n) (s : Stage) (files : Files) (hc : call (pk i) (vk i) n (m.stage i) m.files = (s, files)) :
    Reached pk vk P old ⟨Function.update m.stage i s, files⟩ := by
  refine h.go (l := [(i, n)]) (by simp [hn]) ?_
  show Machine.mk _ _ = _
  rw [hc]

theorem Reached.many {pk vk : ι → List UInt8} {P : Nat → Prop} {old : Files} {m m' : Machine ι} (h : Reached pk vk P old m) {i : ι} {n k : Nat}
    (hn : P n) (hm : Machine.run pk vk (List.replicate k (i, n)) m = m') : Reached pk vk P old m' :=
  h.go (fun x hx => by rw [List.eq_of_mem_replicate hx]; exact hn) hm

theorem Reached.somePk {pk vk : ι → List UInt8} {P : Nat → Prop} {old : Files} {m : Machine ι} (h : Reached pk vk P old m) (i : ι) (n : Nat)
    (hn : P n) (t : Nat) (ht : t ≤ (pk i).length) (hs : m.stage i = .writingPk 0) (hf : m.files.pk = some []) :
    ∃ o, t ≤ o ∧ o ≤ t + n ∧ o ≤ (pk i).length ∧
      Reached pk vk P old ⟨Function.update m.stage i (.writingPk o), { m.files with pk := some ((pk i).take o) }⟩ := by
  obtain ⟨k, o, o1, o2, o3, hk⟩ := some_pk (pk := pk) (vk := vk) i n m hs hf t ht
  exact ⟨o, o1, o2, o3, h.many hn hk⟩

theorem Reached.restPk {pk vk : ι → List UInt8} {P : Nat → Prop} {old : Files} {m : Machine ι} (h : Reached pk vk P old m) (i : ι) (n : Nat)
    (hn : P n) (o : Nat) (f : List UInt8) (ho : o ≤ (pk i).length) (hs : m.stage i = .writingPk o) (hf : m.files.pk = some f) :
    Reached pk vk P old ⟨Function.update m.stage i (.writingPk (pk i).length),
      { m.files with pk := some (if o < (pk i).length then writeAt f o ((pk i).drop o) else f) }⟩ := by
  obtain ⟨k, hk⟩ := rest_any (pk := pk) (vk := vk) i n _ o m f rfl ho hs hf
  exact h.many hn hk

theorem Reached.allVk {pk vk : ι → List UInt8} {P : Nat → Prop} {old : Files} {m : Machine ι} (h : Reached pk vk P old m) (i : ι) (n : Nat)
    (hn : P n) (f : List UInt8) (hl : f.length ≤ (vk i).length) (hs : m.stage i = .writingVk 0) (hf : m.files.vk = some f) :
    Reached pk vk P old ⟨Function.update m.stage i (.writingVk (vk i).length), { m.files with vk := some (vk i) }⟩ := by
  obtain ⟨k, hk⟩ := rest_vk (pk := pk) (vk := vk) i n _ 0 m f rfl (Nat.zero_le _) hs hf rfl (Nat.zero_le _) hl
  exact h.many hn hk

/-- A schedule in which `b` empties the first file while `a` writes it, and is killed. -/
theorem holed (pk vk : ι → List UInt8) (a b : ι) (hab : a ≠ b) (hpk : 96 ≤ (pk a).length) (n : Nat) (old : Files) :
    ∃ m f, Reached pk vk (· = n) old m ∧ m.stage a = .done ∧ m.stage b = .createdPk ∧ m.files = ⟨some f, some (vk a)⟩ ∧
      (∀ i u, i < 96 → f[i]? = some u → u = 0) ∧ (96 + n < (pk a).length → f.length = (pk a).length) := by
  have hba : b ≠ a := hab.symm
  have m0 : Reached pk vk (· = n) old (Machine.init old) := ⟨[], by simp, rfl⟩
  have m1 := m0.one a n rfl .createdPk ⟨some [], old.vk⟩ rfl
  have m2 := m1.one a n rfl (.writingPk 0) ⟨some [], some []⟩ (by simp [call])
  obtain ⟨o, o1, o2, o3, m3⟩ := m2.somePk a n rfl 96 hpk (Function.update_self ..) rfl
  have m4 := m3.one b n rfl .createdPk ⟨some [], some []⟩ (by simp [call, hba, Machine.init])
  have m5 := m4.restPk a n rfl o [] o3 (by simp only [Function.update_of_ne hab, Function.update_self]) rfl
  have m6 := m5.one a n rfl (.writingVk 0) ⟨_, some []⟩ (by
    simp only [Function.update_self, call]
    rw [if_neg (lt_irrefl _)])
  have m7 := m6.allVk a n rfl [] (Nat.zero_le _) (Function.update_self ..) rfl
  have m8 := m7.one a n rfl .done ⟨_, some (vk a)⟩ (by
    simp only [Function.update_self, call]
    rw [if_neg (lt_irrefl _)])
  refine ⟨_, _, m8, Function.update_self .., ?_, rfl, ?_, ?_⟩
  · simp only [Function.update_of_ne hba, Function.update_self]
  · intro i u hi hu
    by_cases ho : o < (pk a).length
    · rw [if_pos ho, writeAt_getElem?, if_pos (by omega), if_neg (by simp)] at hu
      exact (Option.some.inj hu).symm
    · rw [if_neg ho] at hu
      simp at hu
  · intro hn
    rw [if_pos (by omega), writeAt_length, List.length_drop, List.length_nil]
    omega

theorem writeAt_self (w : List UInt8) (o : Nat) (ho : o ≤ w.length) : writeAt (w.take o) o (w.drop o) = w := by
  have hl : (w.take o).length = o := by rw [List.length_take]; omega
  unfold writeAt
  rw [hl, Nat.sub_self, List.replicate_zero, List.append_nil, List.take_take, Nat.min_self, List.take_append_drop, List.length_drop,
    List.drop_eq_nil_of_le (by rw [hl]; omega), List.append_nil]

/-- A schedule after which the first file begins with `c` bytes of `b` and goes on with those of `a`, and the second is that of `b`. -/
theorem spliced (pk vk : ι → List UInt8) (a b : ι) (hab : a ≠ b) (hpk : (pk a).length = (pk b).length) (hvk : (vk a).length = (vk b).length)
    (c : Nat) (hc : c + 1 < (pk a).length) (old : Files) :
    ∃ m, Reached pk vk (fun _ => True) old m ∧ m.stage a = .done ∧ m.stage b = .done ∧
      m.files = ⟨some ((pk b).take (c + 1) ++ (pk a).drop (c + 1)), some (vk b)⟩ := by
  have hba : b ≠ a := hab.symm
  have m0 : Reached pk vk (fun _ => True) old (Machine.init old) := ⟨[], by simp, rfl⟩
  have m1 := m0.one a 0 trivial .createdPk ⟨some [], old.vk⟩ rfl
  have m2 := m1.one a 0 trivial (.writingPk 0) ⟨some [], some []⟩ (by simp [call])
  have m3 := m2.one b 0 trivial .createdPk ⟨some [], some []⟩ (by simp [call, hba, Machine.init])
  have m4 := m3.one b 0 trivial (.writingPk 0) ⟨some [], some []⟩ (by simp [call])
  have la : ((pk a).take (c + 1)).length = c + 1 := by rw [List.length_take]; omega
  have lb : ((pk b).take (c + 1)).length = c + 1 := by rw [List.length_take]; omega
  have m5 := m4.one a c trivial (.writingPk (c + 1)) ⟨some ((pk a).take (c + 1)), some []⟩ (by
    simp only [Function.update_of_ne hab, Function.update_self, call]
    rw [if_pos (by omega), List.drop_zero, la, Nat.zero_add]
    simp only [writeTo, Option.map_some]
    rw [writeAt_all _ _ (Nat.zero_le _)])
  have m6 := m5.one b c trivial (.writingPk (c + 1)) ⟨some ((pk b).take (c + 1)), some []⟩ (by
    simp only [Function.update_of_ne hba, Function.update_self, call]
    rw [if_pos (by omega), List.drop_zero, lb, Nat.zero_add]
    simp only [writeTo, Option.map_some]
    rw [writeAt_all _ _ (by rw [la, lb])])
  have m7 := m6.restPk b 0 trivial (c + 1) _ (by omega) (Function.update_self ..) rfl
  rw [if_pos (by omega), writeAt_self (pk b) (c + 1) (by omega)] at m7
  have m8 := m7.restPk a 0 trivial (c + 1) (pk b) hc.le (by simp only [Function.update_of_ne hab, Function.update_self]) rfl
  have e : writeAt (pk b) (c + 1) ((pk a).drop (c + 1)) = (pk b).take (c + 1) ++ (pk a).drop (c + 1) := by
    unfold writeAt
    rw [Nat.sub_eq_zero_of_le (by omega), List.replicate_zero, List.append_nil, List.length_drop,
      List.drop_eq_nil_of_le (as := pk b) (by omega), List.append_nil]
  rw [if_pos hc, e] at m8
  have m9 := m8.one a 0 trivial (.writingVk 0) ⟨_, some []⟩ (by
    simp only [Function.update_self, call]
    rw [if_neg (lt_irrefl _)])
  have m10 := m9.one b 0 trivial (.writingVk 0) ⟨_, some []⟩ (by
    simp only [Function.update_of_ne hba, Function.update_self, call]
    rw [if_neg (lt_irrefl _)])
  have m11 := m10.allVk a 0 trivial [] (Nat.zero_le _) (by simp only [Function.update_of_ne hab, Function.update_self]) rfl
  have m12 := m11.allVk b 0 trivial (vk a) hvk.le (by simp only [Function.update_of_ne hba, Function.update_self]) rfl
  have m13 := m12.one a 0 trivial .done ⟨_, some (vk b)⟩ (by
    simp only [Function.update_of_ne hab, Function.update_self, call]
    rw [if_neg (lt_irrefl _)])
  have m14 := m13.one b 0 trivial .done ⟨_, some (vk b)⟩ (by
    simp only [Function.update_of_ne hba, Function.update_self, call]
    rw [if_neg (lt_irrefl _)])
  exact ⟨_, m14, by simp only [Function.update_of_ne hab, Function.update_self], Function.update_self .., rfl⟩

/-- A file that begins with zeros is not a proving key. -/
theorem zeros_unreadable {E1 : Curve Fp} {E2 : Curve Fp2} (hb : E1.b ≠ 0) (f : List UInt8) (h : ∀ i b, i < 96 → f[i]? = some b → b = 0) :
    preimagePk E1 E2 f = .error .unwrapNone := by
  cases hp : preimagePk E1 E2 f with
  | error p =>
    unfold preimagePk parse at hp
    split at hp
    · cases hp
    · exact hp.symm
  | ok k =>
    exfalso
    obtain ⟨w, rest, hf, v, a1, a2, a3, a4, a5, a6, a7, hw, ⟨a, b, c, d, e', hv, hP, -⟩, -⟩ := (parse_iff parses_readPk _ _).1 hp
    obtain ⟨x, y, fl, w0, w1, ha, ⟨l0, n0⟩, ⟨l1, n1⟩, hval⟩ := hP
    have hz : ∀ u : UInt8, u ∈ w0 ++ w1 → u = 0 := by
      intro u hu
      obtain ⟨i, hi, hu⟩ := List.getElem_of_mem hu
      refine h i u (by rw [List.length_append] at hi; omega) ?_
      rw [hf, hw, hv, ha]
      simp only [List.append_assoc]
      rw [← List.append_assoc w0 w1, List.getElem?_append_left hi, List.getElem?_eq_getElem hi, hu]
    have zero : ∀ l : List UInt8, (∀ u ∈ l, u = 0) → number l = 0 := by
      intro l
      induction l with
      | nil => intro _; rfl
      | cons u l ih =>
        intro hl
        unfold number at ih ⊢
        rw [List.map_cons, Nat.ofDigits_cons, ih fun v hv => hl v (by simp [hv]), hl u (by simp)]
        rfl
    rw [zero w0 fun u hu => hz u (by simp [hu])] at n0
    rw [zero w1 fun u hu => hz u (by simp [hu])] at n1
    have hx : x = 0 := (ZMod.val_eq_zero x).1 n0.symm
    have hy : y = 0 := (ZMod.val_eq_zero y).1 (by omega)
    have hfl : fl.code = 0 := by
      by_contra hne
      have : 1 * 2 ^ 382 ≤ fl.code * 2 ^ 382 := Nat.mul_le_mul_right _ (Nat.one_le_iff_ne_zero.2 hne)
      have h0 : 0 < 1 * 2 ^ 382 := by positivity
      omega
    rcases hval with ⟨rfl, -⟩ | ⟨-, hP, hV⟩
    · cases hfl
    · rw [hP] at hV
      rcases hV with hV | ⟨-, hV, -⟩
      · cases hV
      · refine hb ?_
        subst hx hy
        have e : (0 : Fp) * 0 = 0 * 0 * 0 + E1.b := hV
        rw [mul_zero, zero_mul, zero_add] at e
        exact e.symm


/-- **C100, a gap.** Let `x` and `y` be runs of the generator with usable secrets.  Whatever files there are, and however many bytes a call writes, there is a
schedule in which `x` ends without an error and `y` is killed after its first call, and then the tests panic when they read the proving key; its
file has the right length, unless a call writes (almost) all of it. -/
theorem C100_gap (hS : S.Good E1 E2 back1 back2) (hb : E1.b ≠ 0) (x y : Run) (hx : x.secrets.Usable) (hy : y.secrets.Usable) (old : Files) (n : Nat) :
    ∃ (pk pk' : ProvingKey G1 G2) (l : List (Bool × Nat)) (m : Machine Bool),
      setup S.domain S.g1 S.g2 x.secrets x.circuit = .ok pk ∧ setup S.domain S.g1 S.g2 y.secrets y.circuit = .ok pk' ∧
      m = Machine.run (fun b => writePk ((if b then pk' else pk).map S.coords1 S.coords2))
        (fun b => writeVk ((if b then pk' else pk).vk.map S.coords1 S.coords2)) l (Machine.init old) ∧
      (∀ x ∈ l, x.2 = n) ∧ m.stage false = .done ∧ m.stage true = .createdPk ∧
      ∃ a b, m.files = ⟨some a, some b⟩ ∧ (96 + n < 1577232 → a.length = 1577232) ∧ preimagePk E1 E2 a = .error .unwrapNone ∧
        loadKeys E1 E2 m.files = some (.error .unwrapNone) := by
  obtain ⟨pk, h0, hv, hm, l1, l2⟩ := made_valid hS x hx
  obtain ⟨pk', h0', hv', hm', l1', l2'⟩ := made_valid hS y hy
  obtain ⟨m, f, ⟨l, k0, k1⟩, s1, s2, s3, s4, s5⟩ := holed (fun b : Bool => writePk ((if b then pk' else pk).map S.coords1 S.coords2))
    (fun b => writeVk ((if b then pk' else pk).vk.map S.coords1 S.coords2)) false true (by decide)
    (by show 96 ≤ (writePk (pk.map S.coords1 S.coords2)).length; rw [l1]; decide) n old
  have hz := zeros_unreadable (E2 := E2) hb f s4
  refine ⟨pk, pk', l, m, h0, h0', k1.symm, k0, s1, s2, f, _, s3, fun hn => ?_, hz, ?_⟩
  · have : (writePk ((if false = true then pk' else pk).map S.coords1 S.coords2)).length = 1577232 := l1
    rw [this] at s5
    exact s5 hn
  · rw [s3]
    simp only [loadKeys]
    rw [hz]
    rfl

/-- **C100, what a spliced key is worth.** Take the proving key of `w` and put the verifying key of `w'` in its first part, where `delta` differs.  For
each preimage there is one value such that, if `w'.beta` is another, the happy path with this proving key and this verifying key fails for all `s` and all `r` but one. -/
theorem C100_spliced_key [DecidableEq GT] (e : G1 →ₗ[Fq] G2 →ₗ[Fq] GT) (g1 : G1) (g2 : G2) (he : e g1 g2 ≠ 0) (d : Domain Fq) (hd : d.Good)
    (hs : 2465 ≤ d.size) (g : Fq) (hg : d.Coset g) (w : Secrets Fq) (hw : w.Usable) (delta : Fq) (v : Vector Fq 7) :
    ∃ beta₀, ∀ (w' : Secrets Fq) (c c' : R1cs.PreimageCircuit), w'.Usable → w'.delta = delta → w'.beta ≠ beta₀ →
      ∃ pk pk', setup d g1 g2 w c = .ok pk ∧ setup d g1 g2 w' c' = .ok pk' ∧ ∃ r₀, ∀ r, r ≠ r₀ → ∀ s debug,
        happyPath debug e d g { pk with vk := pk'.vk } pk'.vk r s v = .error .assertFailed := by
  obtain ⟨M, cons, hI, hM⟩ := the_matrices
  obtain ⟨y, h1, h2⟩ := testOutputs_relation v
  obtain ⟨B, hB⟩ := prove_splice e he hI hM hd hs hg ⟨v, y⟩ h2 hw
  have hδ := hw.2
  refine ⟨w.delta⁻¹ * (delta * (B + w.beta)) - B, fun w' c c' hw' hdel hbe => ?_⟩
  obtain ⟨C, hC⟩ := hB w' hw'
  refine ⟨_, _, setup_eq hI hM hd hs g1 g2 hw c, setup_eq hI hM hd hs g1 g2 hw' c', ?_⟩
  have hK : w.delta * (B + w'.beta) - w'.delta * (B + w.beta) ≠ 0 := by
    intro h0
    refine hbe ?_
    rw [← hdel]
    field_simp
    linear_combination h0
  refine ⟨C / (w.delta * (B + w'.beta) - w'.delta * (B + w.beta)), fun r hr s debug => ?_⟩
  obtain ⟨p, k1, k2⟩ := hC debug r s
  unfold happyPath
  rw [h1, ok_bind, k1, ok_bind]
  dsimp only at k2
  rw [k2, ok_bind, decide_eq_false]
  · rfl
  · intro h0
    exact hr (by rw [eq_div_iff hK, h0])

/-- **C100, a key that nobody made.** Let `x` and `y` be runs of the generator with usable secrets with different `delta`.  Whatever files there are, there is
a schedule in which both end without an error and the tests read keys that look as if they belonged together: the proving key contains
the verifying key, which is that of `y`.  But the rest of the proving key is from `x`, and no secrets make this key. -/
theorem C100_nobody (hS : S.Good E1 E2 back1 back2) (hg1 : S.g1 ≠ 0) (hg2 : S.g2 ≠ 0) (x y : Run) (hx : x.secrets.Usable) (hy : y.secrets.Usable)
    (hxy : x.secrets.delta ≠ y.secrets.delta) (old : Files) :
    ∃ (pk pk' : ProvingKey G1 G2) (l : List (Bool × Nat)) (m : Machine Bool),
      setup S.domain S.g1 S.g2 x.secrets x.circuit = .ok pk ∧ setup S.domain S.g1 S.g2 y.secrets y.circuit = .ok pk' ∧
      m = Machine.run (fun b => writePk ((if b then pk' else pk).map S.coords1 S.coords2))
        (fun b => writeVk ((if b then pk' else pk).vk.map S.coords1 S.coords2)) l (Machine.init old) ∧
      (∀ b, m.stage b = .done) ∧ ∃ k v, loadKeys E1 E2 m.files = some (.ok (k, v)) ∧ k.vk = v ∧
        k.map back1 back2 = { pk with vk := pk'.vk } ∧ v.map back1 back2 = pk'.vk ∧
        ∀ (w : Secrets Fq) (c : R1cs.PreimageCircuit), setup S.domain S.g1 S.g2 w c ≠ .ok (k.map back1 back2) := by
  obtain ⟨pk, h0, hv, hm, l1, l2⟩ := made_valid hS x hx
  obtain ⟨pk', h0', hv', hm', l1', l2'⟩ := made_valid hS y hy
  have hmv : (pk'.vk.map S.coords1 S.coords2).map back1 back2 = pk'.vk := congrArg ProvingKey.vk hm'
  obtain ⟨m, ⟨l, k0, k1⟩, s1, s2, s3⟩ := spliced (fun b : Bool => writePk ((if b then pk' else pk).map S.coords1 S.coords2))
    (fun b => writeVk ((if b then pk' else pk).vk.map S.coords1 S.coords2)) false true (by decide) (l1.trans l1'.symm) (l2.trans l2'.symm) 1447
    (by show 1447 + 1 < (writePk (pk.map S.coords1 S.coords2)).length; rw [l1]; decide) old
  have hvm : ValidPk E1 E2 { pk.map S.coords1 S.coords2 with vk := (pk'.map S.coords1 S.coords2).vk } :=
    ⟨hv'.vk, hv.betaG1, hv.deltaG1, hv.aQuery, hv.bG1Query, hv.bG2Query, hv.hQuery, hv.lQuery⟩
  have hfile : (writePk (pk'.map S.coords1 S.coords2)).take 1448 ++ (writePk (pk.map S.coords1 S.coords2)).drop 1448 =
      writePk { pk.map S.coords1 S.coords2 with vk := (pk'.map S.coords1 S.coords2).vk } := by
    unfold writePk
    simp only [List.append_assoc]
    rw [List.take_append_of_le_length l2'.ge, List.take_of_length_le l2'.le, List.drop_append_of_le_length l2.ge, List.drop_eq_nil_of_le l2.le,
      List.nil_append]
  have hr := C90_roundtrip _ hvm []
  rw [List.append_nil, List.append_nil] at hr
  have hmm : ProvingKey.map back1 back2 { pk.map S.coords1 S.coords2 with vk := (pk'.map S.coords1 S.coords2).vk } = { pk with vk := pk'.vk } := by
    have e1 : ∀ (p : ProvingKey (Affine Fp) (Affine Fp2)) u, ProvingKey.map back1 back2 { p with vk := u } =
        { ProvingKey.map back1 back2 p with vk := u.map back1 back2 } := fun _ _ => rfl
    have e2 : (pk'.map S.coords1 S.coords2).vk.map back1 back2 = pk'.vk := hmv
    refine (e1 _ _).trans ?_
    rw [hm, e2]
  refine ⟨pk, pk', l, m, h0, h0', k1.symm, fun b => by cases b <;> assumption, _, _, ?_, rfl, hmm, hmv, ?_⟩
  · rw [s3, loadKeys_ok]
    refine ⟨_, _, rfl, ?_, hr.2⟩
    refine Eq.trans (congrArg (preimagePk E1 E2) ?_) hr.1
    exact hfile
  · intro w c hw
    rw [hmm] at hw
    have d1 : ∀ (u : Secrets Fq) (c : R1cs.PreimageCircuit) (p : ProvingKey G1 G2), setup S.domain S.g1 S.g2 u c = .ok p →
        p.deltaG1 = u.delta • S.g1 ∧ p.vk.deltaG2 = u.delta • S.g2 := by
      intro u c p hp
      obtain ⟨M, cons, hI, hM⟩ := the_matrices
      by_cases hu : u.Usable
      · rw [setup_eq hI hM hS.domain (by rw [hS.size]; decide) S.g1 S.g2 hu c] at hp
        cases hp
        exact ⟨rfl, rfl⟩
      · rw [C87_setup_fails S.domain hS.domain (by rw [hS.size]; decide) S.g1 S.g2 u c hu] at hp
        cases hp
    obtain ⟨a1, a2⟩ := d1 w c _ hw
    obtain ⟨b1, -⟩ := d1 _ _ _ h0
    obtain ⟨-, c2⟩ := d1 _ _ _ h0'
    dsimp only at a1 a2
    rw [b1] at a1
    rw [c2] at a2
    exact hxy ((smul_left_injective Fq hg1 a1).trans (smul_left_injective Fq hg2 a2).symm)

/-! ### The hypotheses are met -/

/-- The curve of the first group meets `E1.b ≠ 0`. -/
example (t : Affine Fp → Bool) : (bls1 t).b ≠ 0 := by
  show (1 : Fp) ≠ 0
  decide +kernel

/-- A small case: while one run writes three bytes the other empties the file and is killed; the first has ended, and its file has a gap. -/
example : (Machine.run (fun b : Bool => if b then [1, 2, 3] else [4, 5, 6]) (fun b : Bool => if b then [7] else [8])
    [(false, 0), (false, 0), (false, 1), (true, 0), (false, 0), (false, 0), (false, 0), (false, 0)] (Machine.init ⟨none, none⟩)).files.pk =
      some [0, 0, 6] ∧
    (Machine.run (fun b : Bool => if b then [1, 2, 3] else [4, 5, 6]) (fun b : Bool => if b then [7] else [8])
    [(false, 0), (false, 0), (false, 1), (true, 0), (false, 0), (false, 0), (false, 0), (false, 0)] (Machine.init ⟨none, none⟩)).stage false =
      .done := by
  decide

/-- There are secrets as in `C100_spliced_key`, whatever the value that `beta` must not have. -/
example (beta₀ : Fq) : ∃ w' : Secrets Fq, w'.Usable ∧ w'.delta = 12 ∧ w'.beta ≠ beta₀ :=
  ⟨⟨3, beta₀ + 1, 7, 12, 13⟩, ⟨by show (7 : Fq) ≠ 0; decide +kernel, by show (12 : Fq) ≠ 0; decide +kernel⟩, rfl, by
    show beta₀ + 1 ≠ beta₀
    intro h
    exact one_ne_zero (add_left_cancel (h.trans (add_zero _).symm))⟩

end Poseidon
