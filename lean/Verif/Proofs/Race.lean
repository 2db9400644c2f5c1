import Verif.Model.TestVectors

/-!
# Runs at the same time

Bytes of a file after a call, and an invariant of all schedules.
-/

namespace Poseidon.Groth16

theorem writeAt_getElem? (f : List UInt8) (o : Nat) (w : List UInt8) (i : Nat) :
    (writeAt f o w)[i]? = if i < o then (if i < f.length then f[i]? else some 0) else if i < o + w.length then w[i - o]? else f[i]? := by
  have hl : ((f ++ List.replicate (o - f.length) 0).take o).length = o := by
    rw [List.length_take, List.length_append, List.length_replicate]
    omega
  unfold writeAt
  by_cases h1 : i < o
  · rw [if_pos h1, List.append_assoc, List.getElem?_append_left (by rw [hl]; exact h1), List.getElem?_take_of_lt h1]
    by_cases h2 : i < f.length
    · rw [if_pos h2, List.getElem?_append_left h2]
    · rw [if_neg h2, List.getElem?_append_right (by omega), List.getElem?_replicate, if_pos (by omega)]
  · rw [if_neg h1]
    by_cases h2 : i < o + w.length
    · rw [if_pos h2, List.append_assoc, List.getElem?_append_right (by omega), hl, List.getElem?_append_left (by omega)]
    · rw [if_neg h2, List.getElem?_append_right (by rw [List.length_append, hl]; omega), List.length_append, hl, List.getElem?_drop]
      congr 1
      omega

theorem writeAt_length (f : List UInt8) (o : Nat) (w : List UInt8) : (writeAt f o w).length = max (o + w.length) f.length := by
  unfold writeAt
  simp only [List.length_append, List.length_take, List.length_replicate, List.length_drop]
  omega

theorem writeAt_all (f w : List UInt8) (h : f.length ≤ w.length) : writeAt f 0 w = w := by
  unfold writeAt
  rw [List.take_zero, List.nil_append, Nat.zero_add, List.drop_eq_nil_of_le h, List.append_nil]

/-- How far a run is with the proving key. -/
def Stage.pkDone (n : Nat) : Stage → Nat
  | .start => 0
  | .createdPk => 0
  | .writingPk o => o
  | .writingVk _ => n
  | .done => n

/-- How far a run is with the verifying key. -/
def Stage.vkDone (n : Nat) : Stage → Nat
  | .writingVk o => o
  | .done => n
  | _ => 0

/-- The run has created the verifying key. -/
def Stage.VkCreated : Stage → Prop
  | .start => False
  | .createdPk => False
  | _ => True

/-- A file that several runs write, one of which has written `n` bytes since it was last emptied: bytes of runs, and zeros. -/
def Filled {ι : Type} (key : ι → List UInt8) (n : Nat) (f : List UInt8) : Prop :=
  (∀ i, i < n → ∃ j b, f[i]? = some b ∧ (key j)[i]? = some b) ∧ ∀ (i : Nat) (b : UInt8), f[i]? = some b → b = 0 ∨ ∃ j, (key j)[i]? = some b

theorem Filled.nil {ι : Type} (key : ι → List UInt8) : Filled key 0 [] :=
  ⟨fun i hi => absurd hi (Nat.not_lt_zero i), fun i b h => by simp at h⟩

/-- A write by any run. -/
theorem Filled.write {ι : Type} {key : ι → List UInt8} {n : Nat} {f : List UInt8} (h : Filled key n f) (y : ι) (o m : Nat) :
    Filled key n (writeAt f o (((key y).drop o).take m)) ∧
    (n = o → Filled key (o + (((key y).drop o).take m).length) (writeAt f o (((key y).drop o).take m))) := by
  have hw : ∀ i, o ≤ i → i < o + (((key y).drop o).take m).length → ∃ b, (writeAt f o (((key y).drop o).take m))[i]? = some b ∧ (key y)[i]? = some b := by
    intro i h1 h2
    rw [writeAt_getElem?, if_neg (by omega), if_pos h2]
    rw [List.length_take, List.length_drop] at h2
    refine ⟨(key y)[i]'(by omega), ?_, List.getElem?_eq_getElem (by omega)⟩
    rw [List.getElem?_take_of_lt (by omega), List.getElem?_drop, ← List.getElem?_eq_getElem (by omega)]
    congr 1
    omega
  have h2 : ∀ (i : Nat) (b : UInt8), (writeAt f o (((key y).drop o).take m))[i]? = some b → b = 0 ∨ ∃ j, (key j)[i]? = some b := by
    intro i b hb
    by_cases h1 : i < o
    · rw [writeAt_getElem?, if_pos h1] at hb
      by_cases h3 : i < f.length
      · rw [if_pos h3] at hb
        exact h.2 i b hb
      · rw [if_neg h3] at hb
        exact .inl (Option.some.inj hb).symm
    · by_cases h3 : i < o + (((key y).drop o).take m).length
      · obtain ⟨b', e1, e2⟩ := hw i (by omega) h3
        rw [hb] at e1
        cases e1
        exact .inr ⟨y, e2⟩
      · rw [writeAt_getElem?, if_neg h1, if_neg h3] at hb
        exact h.2 i b hb
  have h1 : ∀ i, i < n → ∃ j b, (writeAt f o (((key y).drop o).take m))[i]? = some b ∧ (key j)[i]? = some b := by
    intro i hi
    obtain ⟨j, b, e1, e2⟩ := h.1 i hi
    have hf : i < f.length := (List.getElem?_eq_some_iff.1 e1).1
    by_cases c1 : i < o
    · exact ⟨j, b, by rw [writeAt_getElem?, if_pos c1, if_pos hf, e1], e2⟩
    · by_cases c2 : i < o + (((key y).drop o).take m).length
      · obtain ⟨b', k1, k2⟩ := hw i (by omega) c2
        exact ⟨y, b', k1, k2⟩
      · exact ⟨j, b, by rw [writeAt_getElem?, if_neg c1, if_neg c2, e1], e2⟩
  refine ⟨⟨h1, h2⟩, fun hn => ⟨fun i hi => ?_, h2⟩⟩
  by_cases c1 : i < o
  · exact h1 i (by omega)
  · obtain ⟨b', k1, k2⟩ := hw i (by omega) hi
    exact ⟨y, b', k1, k2⟩

variable {ι : Type} [DecidableEq ι]

/-- The invariant. -/
structure Race (pk vk : ι → List UInt8) (L L' : Nat) (old : Files) (m : Machine ι) : Prop where
  pk : (∀ j, m.stage j = .start) ∧ m.files.pk = old.pk ∨
    ∃ x f, m.stage x ≠ .start ∧ m.files.pk = some f ∧ f.length ≤ L ∧ Filled pk ((m.stage x).pkDone (pk x).length) f
  vk : (∀ j, ¬ (m.stage j).VkCreated) ∧ m.files.vk = old.vk ∨
    ∃ x f, (m.stage x).VkCreated ∧ m.files.vk = some f ∧ f.length ≤ L' ∧ Filled vk ((m.stage x).vkDone (vk x).length) f

omit [DecidableEq ι] in
theorem Filled.less {key : ι → List UInt8} {n k : Nat} {f : List UInt8} (h : Filled key n f) (hk : k ≤ n) : Filled key k f :=
  ⟨fun i hi => h.1 i (by omega), h.2⟩

/-- A step that leaves the first file alone. -/
theorem pk_keep {pk : ι → List UInt8} {L : Nat} {old : Files} {m : Machine ι} (y : ι) (s : Stage) (files : Files)
    (h : (∀ j, m.stage j = .start) ∧ m.files.pk = old.pk ∨
      ∃ x f, m.stage x ≠ .start ∧ m.files.pk = some f ∧ f.length ≤ L ∧ Filled pk ((m.stage x).pkDone (pk x).length) f)
    (hy : m.stage y ≠ .start) (hs : s ≠ .start) (hf : files.pk = m.files.pk) (hd : s.pkDone (pk y).length ≤ (m.stage y).pkDone (pk y).length) :
    (∀ j, Function.update m.stage y s j = .start) ∧ files.pk = old.pk ∨
      ∃ x f, Function.update m.stage y s x ≠ .start ∧ files.pk = some f ∧ f.length ≤ L ∧
        Filled pk ((Function.update m.stage y s x).pkDone (pk x).length) f := by
  rcases h with ⟨h1, -⟩ | ⟨x, f, h1, h2, h3, h4⟩
  · exact absurd (h1 y) hy
  · refine .inr ⟨x, f, ?_, hf.trans h2, h3, ?_⟩
    · by_cases hx : x = y
      · subst hx
        rwa [Function.update_self]
      · rwa [Function.update_of_ne hx]
    · by_cases hx : x = y
      · subst hx
        rw [Function.update_self]
        exact h4.less hd
      · rwa [Function.update_of_ne hx]

/-- A step that leaves the second file alone. -/
theorem vk_keep {vk : ι → List UInt8} {L' : Nat} {old : Files} {m : Machine ι} (y : ι) (s : Stage) (files : Files)
    (h : (∀ j, ¬ (m.stage j).VkCreated) ∧ m.files.vk = old.vk ∨
      ∃ x f, (m.stage x).VkCreated ∧ m.files.vk = some f ∧ f.length ≤ L' ∧ Filled vk ((m.stage x).vkDone (vk x).length) f)
    (hs : s.VkCreated ↔ (m.stage y).VkCreated) (hf : files.vk = m.files.vk) (hd : s.vkDone (vk y).length ≤ (m.stage y).vkDone (vk y).length) :
    (∀ j, ¬ (Function.update m.stage y s j).VkCreated) ∧ files.vk = old.vk ∨
      ∃ x f, (Function.update m.stage y s x).VkCreated ∧ files.vk = some f ∧ f.length ≤ L' ∧
        Filled vk ((Function.update m.stage y s x).vkDone (vk x).length) f := by
  rcases h with ⟨h1, h2⟩ | ⟨x, f, h1, h2, h3, h4⟩
  · refine .inl ⟨fun j => ?_, hf.trans h2⟩
    by_cases hj : j = y
    · subst hj
      rw [Function.update_self, hs]
      exact h1 j
    · rw [Function.update_of_ne hj]
      exact h1 j
  · refine .inr ⟨x, f, ?_, hf.trans h2, h3, ?_⟩
    · by_cases hx : x = y
      · subst hx
        rwa [Function.update_self, hs]
      · rwa [Function.update_of_ne hx]
    · by_cases hx : x = y
      · subst hx
        rw [Function.update_self]
        exact h4.less hd
      · rwa [Function.update_of_ne hx]

theorem Race.step {pk vk : ι → List UInt8} {L L' : Nat} {old : Files} {m : Machine ι} (hL : ∀ j, (pk j).length ≤ L) (hL' : ∀ j, (vk j).length ≤ L')
    (h : Race pk vk L L' old m) (y : ι) (n : Nat) :
    Race pk vk L L' old ⟨Function.update m.stage y (call (pk y) (vk y) n (m.stage y) m.files).1, (call (pk y) (vk y) n (m.stage y) m.files).2⟩ := by
  cases hst : m.stage y with
  | start =>
    refine ⟨.inr ⟨y, [], ?_, rfl, Nat.zero_le _, ?_⟩, ?_⟩
    · dsimp only
      rw [Function.update_self]
      intro e
      cases e
    · dsimp only
      rw [Function.update_self]
      exact Filled.nil pk
    · exact vk_keep y _ _ h.vk (by rw [hst]; exact Iff.rfl) rfl (Nat.zero_le _)
  | createdPk =>
    refine ⟨pk_keep y _ _ h.pk (by rw [hst]; simp) (by simp [call]) rfl (Nat.zero_le _), .inr ⟨y, [], ?_, rfl, Nat.zero_le _, ?_⟩⟩
    · dsimp only
      rw [Function.update_self]
      trivial
    · dsimp only
      rw [Function.update_self]
      exact Filled.nil vk
  | writingPk i =>
    by_cases hi : i < (pk y).length
    · have hc : call (pk y) (vk y) n (.writingPk i) m.files = (.writingPk (i + (((pk y).drop i).take (n + 1)).length),
          { m.files with pk := writeTo m.files.pk i (((pk y).drop i).take (n + 1)) }) := by
        unfold call
        dsimp only
        rw [if_pos hi]
      have hb : i + (((pk y).drop i).take (n + 1)).length ≤ (pk y).length := by
        rw [List.length_take, List.length_drop]
        omega
      rw [hc]
      refine ⟨?_, vk_keep y _ _ h.vk (by rw [hst]; exact Iff.rfl) rfl (Nat.zero_le _)⟩
      rcases h.pk with ⟨h1, -⟩ | ⟨x, f, h1, h2, h3, h4⟩
      · rw [h1 y] at hst
        cases hst
      · obtain ⟨k1, k2⟩ := h4.write y i (n + 1)
        refine .inr ⟨x, writeAt f i (((pk y).drop i).take (n + 1)), ?_, by dsimp only; rw [h2]; rfl, ?_, ?_⟩
        · by_cases hx : x = y
          · subst hx
            dsimp only
            rw [Function.update_self]
            simp
          · dsimp only; rwa [Function.update_of_ne hx]
        · rw [writeAt_length]
          have := hL y
          omega
        · by_cases hx : x = y
          · subst hx
            dsimp only
            rw [Function.update_self]
            exact k2 (by rw [hst]; rfl)
          · dsimp only; rw [Function.update_of_ne hx]
            exact k1
    · have hc : call (pk y) (vk y) n (.writingPk i) m.files = (.writingVk 0, m.files) := by
        unfold call
        dsimp only
        rw [if_neg hi]
      rw [hc]
      refine ⟨pk_keep y _ _ h.pk (by rw [hst]; simp) (by simp) rfl (by rw [hst]; exact Nat.le_of_not_lt hi),
        vk_keep y _ _ h.vk (by rw [hst]; exact Iff.rfl) rfl (Nat.zero_le _)⟩
  | writingVk i =>
    by_cases hi : i < (vk y).length
    · have hc : call (pk y) (vk y) n (.writingVk i) m.files = (.writingVk (i + (((vk y).drop i).take (n + 1)).length),
          { m.files with vk := writeTo m.files.vk i (((vk y).drop i).take (n + 1)) }) := by
        unfold call
        dsimp only
        rw [if_pos hi]
      have hb : i + (((vk y).drop i).take (n + 1)).length ≤ (vk y).length := by
        rw [List.length_take, List.length_drop]
        omega
      rw [hc]
      refine ⟨pk_keep y _ _ h.pk (by rw [hst]; simp) (by simp) rfl (by rw [hst]; exact le_rfl), ?_⟩
      rcases h.vk with ⟨h1, -⟩ | ⟨x, f, h1, h2, h3, h4⟩
      · refine absurd ?_ (h1 y)
        rw [hst]
        trivial
      · obtain ⟨k1, k2⟩ := h4.write y i (n + 1)
        refine .inr ⟨x, writeAt f i (((vk y).drop i).take (n + 1)), ?_, by dsimp only; rw [h2]; rfl, ?_, ?_⟩
        · by_cases hx : x = y
          · subst hx
            dsimp only
            rw [Function.update_self]
            trivial
          · dsimp only; rwa [Function.update_of_ne hx]
        · rw [writeAt_length]
          have := hL' y
          omega
        · by_cases hx : x = y
          · subst hx
            dsimp only
            rw [Function.update_self]
            exact k2 (by rw [hst]; rfl)
          · dsimp only; rw [Function.update_of_ne hx]
            exact k1
    · have hc : call (pk y) (vk y) n (.writingVk i) m.files = (.done, m.files) := by
        unfold call
        dsimp only
        rw [if_neg hi]
      rw [hc]
      refine ⟨pk_keep y _ _ h.pk (by rw [hst]; simp) (by simp) rfl (by rw [hst]; exact le_rfl),
        vk_keep y _ _ h.vk (by rw [hst]; exact Iff.rfl) rfl (by rw [hst]; exact Nat.le_of_not_lt hi)⟩
  | done =>
    refine ⟨pk_keep y _ _ h.pk (by rw [hst]; simp) (by simp [call]) rfl (by rw [hst]; exact le_rfl),
      vk_keep y _ _ h.vk (by rw [hst]; exact Iff.rfl) rfl (by rw [hst]; exact le_rfl)⟩

theorem Race.run {pk vk : ι → List UInt8} {L L' : Nat} {old : Files} (hL : ∀ j, (pk j).length ≤ L) (hL' : ∀ j, (vk j).length ≤ L') :
    ∀ (l : List (ι × Nat)) {m : Machine ι}, Race pk vk L L' old m → Race pk vk L L' old (Machine.run pk vk l m)
  | [], _, h => h
  | (i, n) :: l, _, h => Race.run hL hL' l (h.step hL hL' i n)

omit [DecidableEq ι] in
theorem Race.init (pk vk : ι → List UInt8) (L L' : Nat) (old : Files) : Race pk vk L L' old (Machine.init old) :=
  ⟨.inl ⟨fun _ => rfl, rfl⟩, .inl ⟨fun _ h => h, rfl⟩⟩

/-- Several calls of one run. -/
theorem Machine.run_append (pk vk : ι → List UInt8) (l l' : List (ι × Nat)) (m : Machine ι) :
    Machine.run pk vk (l ++ l') m = Machine.run pk vk l' (Machine.run pk vk l m) := by
  induction l generalizing m with
  | nil => rfl
  | cons x l ih => exact ih _

/-- A run that is alone, after it has created its files: where it is, the files, and how many calls are left at most. -/
def Alone (pk vk : List UInt8) : Stage → Files → Nat → Prop
  | .writingPk o, files, n => o ≤ pk.length ∧ files = ⟨some (pk.take o), some []⟩ ∧ n = pk.length - o + vk.length + 2
  | .writingVk o, files, n => o ≤ vk.length ∧ files = ⟨some pk, some (vk.take o)⟩ ∧ n = vk.length - o + 1
  | .done, files, n => files = ⟨some pk, some vk⟩ ∧ n = 0
  | _, _, _ => False

theorem writeAt_take (w : List UInt8) (o m : Nat) (ho : o ≤ w.length) :
    writeAt (w.take o) o ((w.drop o).take m) = w.take (o + ((w.drop o).take m).length) := by
  have hl : (w.take o).length = o := by rw [List.length_take]; omega
  unfold writeAt
  rw [hl, Nat.sub_self, List.replicate_zero, List.append_nil, List.take_take, Nat.min_self, List.drop_eq_nil_of_le (as := w.take o) (by rw [hl]; omega),
    List.append_nil, List.take_add, List.length_take, List.length_drop]
  congr 1
  rw [List.take_eq_take_iff, List.length_drop]
  omega

theorem Alone.step {pk vk : List UInt8} {s : Stage} {files : Files} {n : Nat} (h : Alone pk vk s files n) (k : Nat) :
    ∃ n', n' ≤ n - 1 ∧ Alone pk vk (call pk vk k s files).1 (call pk vk k s files).2 n' := by
  cases s with
  | start => exact h.elim
  | createdPk => exact h.elim
  | writingPk o =>
    obtain ⟨h1, rfl, rfl⟩ := h
    unfold call
    dsimp only
    by_cases ho : o < pk.length
    · rw [if_pos ho]
      have hb : (List.take (k + 1) (List.drop o pk)).length = min (k + 1) (pk.length - o) := by rw [List.length_take, List.length_drop]
      refine ⟨_, ?_, ?_, ?_, rfl⟩
      · omega
      · omega
      · dsimp only [writeTo, Option.map_some]
        rw [writeAt_take pk o (k + 1) h1]
    · rw [if_neg ho]
      refine ⟨_, ?_, Nat.zero_le _, ?_, rfl⟩
      · omega
      · rw [List.take_of_length_le (Nat.le_of_not_lt ho)]
        rfl
  | writingVk o =>
    obtain ⟨h1, rfl, rfl⟩ := h
    unfold call
    dsimp only
    by_cases ho : o < vk.length
    · rw [if_pos ho]
      have hb : (List.take (k + 1) (List.drop o vk)).length = min (k + 1) (vk.length - o) := by rw [List.length_take, List.length_drop]
      refine ⟨_, ?_, ?_, ?_, rfl⟩
      · omega
      · omega
      · dsimp only [writeTo, Option.map_some]
        rw [writeAt_take vk o (k + 1) h1]
    · rw [if_neg ho]
      refine ⟨0, ?_, ?_, rfl⟩
      · omega
      · rw [List.take_of_length_le (Nat.le_of_not_lt ho)]
  | done => exact ⟨0, Nat.zero_le _, h.1, rfl⟩

theorem Alone.run {pk vk : ι → List UInt8} (i : ι) : ∀ (l : List (ι × Nat)), (∀ x ∈ l, x.1 = i) → ∀ (m : Machine ι) (n : Nat),
    Alone (pk i) (vk i) (m.stage i) m.files n → n ≤ l.length →
    (Machine.run pk vk l m).files = ⟨some (pk i), some (vk i)⟩ ∧ (Machine.run pk vk l m).stage i = .done
  | [], _, m, n, h, hn => by
    have h0 : n = 0 := by simpa using hn
    subst h0
    show m.files = _ ∧ m.stage i = _
    cases hs : m.stage i with
    | start => rw [hs] at h; exact h.elim
    | createdPk => rw [hs] at h; exact h.elim
    | writingPk o =>
      rw [hs] at h
      have := h.2.2
      omega
    | writingVk o =>
      rw [hs] at h
      have := h.2.2
      omega
    | done =>
      rw [hs] at h
      exact ⟨h.1, rfl⟩
  | (j, k) :: l, hl, m, n, h, hn => by
    have hj : j = i := hl (j, k) (by simp)
    subst hj
    obtain ⟨n', h1, h2⟩ := h.step k
    refine Alone.run j l (fun x hx => hl x (by simp [hx])) _ n' ?_ (by simp at hn; omega)
    dsimp only
    rw [Function.update_self]
    exact h2

theorem writeAt_next (f w : List UInt8) (o n : Nat) (ho : o < w.length) (h1 : f.take o = w.take o) (h2 : o ≤ f.length) (h3 : f.length ≤ w.length) :
    (writeAt f o ((w.drop o).take (n + 1))).take (o + ((w.drop o).take (n + 1)).length) = w.take (o + ((w.drop o).take (n + 1)).length) ∧
    o + ((w.drop o).take (n + 1)).length ≤ (writeAt f o ((w.drop o).take (n + 1))).length ∧
    (writeAt f o ((w.drop o).take (n + 1))).length ≤ w.length := by
  have hb : ((w.drop o).take (n + 1)).length = min (n + 1) (w.length - o) := by rw [List.length_take, List.length_drop]
  refine ⟨?_, by rw [writeAt_length]; omega, by rw [writeAt_length]; omega⟩
  have e : (f ++ List.replicate (o - f.length) 0).take o = w.take o := by
    rw [Nat.sub_eq_zero_of_le h2, List.replicate_zero, List.append_nil, h1]
  have hl : (w.take o).length = o := by rw [List.length_take]; omega
  unfold writeAt
  rw [e, List.take_append_of_le_length (by rw [List.length_append, hl]), List.take_of_length_le (by rw [List.length_append, hl])]
  conv_rhs => rw [List.take_add]
  congr 1
  rw [List.take_eq_take_iff, List.length_drop]
  omega

/-- Calls that write the rest of the proving key over a file that begins with what was written. -/
theorem rest_pk {pk vk : ι → List UInt8} (i : ι) (n : Nat) : ∀ (r o : Nat) (m : Machine ι) (f : List UInt8), (pk i).length - o = r →
    o ≤ (pk i).length → m.stage i = .writingPk o → m.files.pk = some f → f.take o = (pk i).take o → o ≤ f.length → f.length ≤ (pk i).length →
    ∃ k, Machine.run pk vk (List.replicate k (i, n)) m =
      ⟨Function.update m.stage i (.writingPk (pk i).length), { m.files with pk := some (pk i) }⟩ := by
  intro r
  induction r using Nat.strong_induction_on with
  | _ r ih =>
    intro o m f hr ho hs hf h1 h2 h3
    by_cases hlt : o < (pk i).length
    · obtain ⟨w1, w2, w3⟩ := writeAt_next f (pk i) o n hlt h1 h2 h3
      have hb : (((pk i).drop o).take (n + 1)).length = min (n + 1) ((pk i).length - o) := by rw [List.length_take, List.length_drop]
      have hc : call (pk i) (vk i) n (m.stage i) m.files = (.writingPk (o + (((pk i).drop o).take (n + 1)).length),
          { m.files with pk := some (writeAt f o (((pk i).drop o).take (n + 1))) }) := by
        rw [hs]
        unfold call
        dsimp only
        rw [if_pos hlt, hf]
        rfl
      obtain ⟨k, hk⟩ := ih _ (by omega) (o + (((pk i).drop o).take (n + 1)).length)
        ⟨Function.update m.stage i (.writingPk (o + (((pk i).drop o).take (n + 1)).length)),
          { m.files with pk := some (writeAt f o (((pk i).drop o).take (n + 1))) }⟩ _ rfl (by omega) (Function.update_self ..) rfl w1 w2 w3
      refine ⟨k + 1, ?_⟩
      rw [List.replicate_succ]
      show Machine.run pk vk (List.replicate k (i, n)) ⟨Function.update m.stage i (call (pk i) (vk i) n (m.stage i) m.files).1,
        (call (pk i) (vk i) n (m.stage i) m.files).2⟩ = _
      rw [hc]
      dsimp only
      rw [hk]
      dsimp only
      rw [Function.update_idem]
    · have ho' : o = (pk i).length := by omega
      have hff : f = pk i := by
        rw [ho', List.take_of_length_le h3, List.take_length] at h1
        exact h1
      refine ⟨0, ?_⟩
      show m = _
      rw [← ho', ← hs, Function.update_eq_self, ← hff, ← hf]

/-- The same for the verifying key. -/
theorem rest_vk {pk vk : ι → List UInt8} (i : ι) (n : Nat) : ∀ (r o : Nat) (m : Machine ι) (f : List UInt8), (vk i).length - o = r →
    o ≤ (vk i).length → m.stage i = .writingVk o → m.files.vk = some f → f.take o = (vk i).take o → o ≤ f.length → f.length ≤ (vk i).length →
    ∃ k, Machine.run pk vk (List.replicate k (i, n)) m =
      ⟨Function.update m.stage i (.writingVk (vk i).length), { m.files with vk := some (vk i) }⟩ := by
  intro r
  induction r using Nat.strong_induction_on with
  | _ r ih =>
    intro o m f hr ho hs hf h1 h2 h3
    by_cases hlt : o < (vk i).length
    · obtain ⟨w1, w2, w3⟩ := writeAt_next f (vk i) o n hlt h1 h2 h3
      have hb : (((vk i).drop o).take (n + 1)).length = min (n + 1) ((vk i).length - o) := by rw [List.length_take, List.length_drop]
      have hc : call (pk i) (vk i) n (m.stage i) m.files = (.writingVk (o + (((vk i).drop o).take (n + 1)).length),
          { m.files with vk := some (writeAt f o (((vk i).drop o).take (n + 1))) }) := by
        rw [hs]
        unfold call
        dsimp only
        rw [if_pos hlt, hf]
        rfl
      obtain ⟨k, hk⟩ := ih _ (by omega) (o + (((vk i).drop o).take (n + 1)).length)
        ⟨Function.update m.stage i (.writingVk (o + (((vk i).drop o).take (n + 1)).length)),
          { m.files with vk := some (writeAt f o (((vk i).drop o).take (n + 1))) }⟩ _ rfl (by omega) (Function.update_self ..) rfl w1 w2 w3
      refine ⟨k + 1, ?_⟩
      rw [List.replicate_succ]
      show Machine.run pk vk (List.replicate k (i, n)) ⟨Function.update m.stage i (call (pk i) (vk i) n (m.stage i) m.files).1,
        (call (pk i) (vk i) n (m.stage i) m.files).2⟩ = _
      rw [hc]
      dsimp only
      rw [hk]
      dsimp only
      rw [Function.update_idem]
    · have ho' : o = (vk i).length := by omega
      have hff : f = vk i := by
        rw [ho', List.take_of_length_le h3, List.take_length] at h1
        exact h1
      refine ⟨0, ?_⟩
      show m = _
      rw [← ho', ← hs, Function.update_eq_self, ← hff, ← hf]

end Poseidon.Groth16
