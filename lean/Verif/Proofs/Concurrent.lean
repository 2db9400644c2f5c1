import Verif.Model.Concurrent
import Verif.Proofs.WriteParams
import Verif.Proofs.Race

/-!
# Runs at the same time, with buffers and errors

How the functions of `Model/WriteParams.lean` go on when they get more answers.
-/

namespace Poseidon.Groth16

/-! ## More answers -/

theorem writeLoop_more : ∀ rs bytes file rs', file <+: (writeLoop rs bytes file).2.2.1 ∧
    ((writeLoop rs bytes file).1 ≠ .killed → (writeLoop (rs ++ rs') bytes file =
      ((writeLoop rs bytes file).1, (writeLoop rs bytes file).2.1, (writeLoop rs bytes file).2.2.1, (writeLoop rs bytes file).2.2.2 ++ rs'))) ∧
    ((writeLoop rs bytes file).1 = .killed → (writeLoop rs bytes file).2.2.1 <+: (writeLoop (rs ++ rs') bytes file).2.2.1) ∧
    ((writeLoop rs bytes file).1 ≠ .killed → ∃ p, rs = p ++ (writeLoop rs bytes file).2.2.2 ∧
      writeLoop p bytes file = ((writeLoop rs bytes file).1, (writeLoop rs bytes file).2.1, (writeLoop rs bytes file).2.2.1, []))
  | rs, [], file, rs' => by
    rw [writeLoop_nil, writeLoop_nil]
    exact ⟨List.prefix_rfl, fun _ => rfl, nofun, fun _ => ⟨[], rfl, rfl⟩⟩
  | [], b :: bytes, file, rs' => by
    refine ⟨List.prefix_rfl, fun h => absurd rfl h, fun _ => ?_, fun h => absurd rfl h⟩
    obtain ⟨h1, -⟩ := writeLoop_more' rs' (b :: bytes) file
    exact h1
  | .done 0 :: rs, b :: bytes, file, rs' => ⟨List.prefix_rfl, fun _ => rfl, nofun, fun _ => ⟨[.done 0], rfl, rfl⟩⟩
  | .done (n + 1) :: rs, b :: bytes, file, rs' => by
    obtain ⟨h1, h2, h3, h4⟩ := writeLoop_more rs ((b :: bytes).drop (n + 1)) (file ++ (b :: bytes).take (n + 1)) rs'
    refine ⟨(List.prefix_append _ _).trans h1, h2, h3, fun h => ?_⟩
    obtain ⟨p, e1, e2⟩ := h4 h
    exact ⟨.done (n + 1) :: p, congrArg _ e1, e2⟩
  | .interrupted :: rs, b :: bytes, file, rs' => by
    obtain ⟨h1, h2, h3, h4⟩ := writeLoop_more rs (b :: bytes) file rs'
    refine ⟨h1, h2, h3, fun h => ?_⟩
    obtain ⟨p, e1, e2⟩ := h4 h
    exact ⟨.interrupted :: p, congrArg _ e1, e2⟩
  | .failed :: rs, b :: bytes, file, rs' => ⟨List.prefix_rfl, fun _ => rfl, nofun, fun _ => ⟨[.failed], rfl, rfl⟩⟩
where
  writeLoop_more' : ∀ rs bytes file, file <+: (writeLoop rs bytes file).2.2.1 ∧ True
  | rs, [], file => by rw [writeLoop_nil]; exact ⟨List.prefix_rfl, trivial⟩
  | [], _ :: _, file => ⟨List.prefix_rfl, trivial⟩
  | .done 0 :: _, _ :: _, file => ⟨List.prefix_rfl, trivial⟩
  | .done (n + 1) :: rs, b :: bytes, file =>
    ⟨(List.prefix_append _ _).trans (writeLoop_more' rs ((b :: bytes).drop (n + 1)) (file ++ (b :: bytes).take (n + 1))).1, trivial⟩
  | .interrupted :: rs, b :: bytes, file => writeLoop_more' rs (b :: bytes) file
  | .failed :: _, _ :: _, file => ⟨List.prefix_rfl, trivial⟩

/-- A part of a run that uses a writer: it only adds to the file; if it has ended, more answers make no difference and are left; if it has not, it goes
on; it has used up the answers that are not left; and without answers it writes nothing. -/
structure Steady (f : Writer → Status × Writer) : Prop where
  grows : ∀ b file rs, file <+: (f ⟨b, file, rs⟩).2.file
  ended : ∀ b file rs rs', (f ⟨b, file, rs⟩).1 ≠ .killed →
    f ⟨b, file, rs ++ rs'⟩ = ((f ⟨b, file, rs⟩).1, ⟨(f ⟨b, file, rs⟩).2.buffer, (f ⟨b, file, rs⟩).2.file, (f ⟨b, file, rs⟩).2.responses ++ rs'⟩)
  more : ∀ b file rs rs', (f ⟨b, file, rs⟩).1 = .killed → (f ⟨b, file, rs⟩).2.file <+: (f ⟨b, file, rs ++ rs'⟩).2.file
  used : ∀ b file rs, (f ⟨b, file, rs⟩).1 ≠ .killed → ∃ p, rs = p ++ (f ⟨b, file, rs⟩).2.responses ∧
    f ⟨b, file, p⟩ = ((f ⟨b, file, rs⟩).1, ⟨(f ⟨b, file, rs⟩).2.buffer, (f ⟨b, file, rs⟩).2.file, []⟩)
  idle : ∀ b file, (f ⟨b, file, []⟩).2.file = file ∧ (f ⟨b, file, []⟩).2.responses = []

theorem writer_eta {w : Writer} {file : List UInt8} {rs : List Response} (h1 : w.file = file) (h2 : w.responses = rs) : w = ⟨w.buffer, file, rs⟩ := by
  subst h1 h2
  rfl

/-- `f`, and then `g` if there was no error. -/
def andThen (f g : Writer → Status × Writer) (w : Writer) : Status × Writer :=
  if (f w).1 ≠ .ok then f w else g (f w).2

theorem Steady.andThen {f g : Writer → Status × Writer} (hf : Steady f) (hg : Steady g) : Steady (andThen f g) := by
  constructor
  · intro b file rs
    unfold Groth16.andThen
    split_ifs with h
    · exact hf.grows b file rs
    · exact (hf.grows b file rs).trans (hg.grows _ _ _)
  · intro b file rs rs' h
    unfold Groth16.andThen at h ⊢
    by_cases h1 : (f ⟨b, file, rs⟩).1 = .ok
    · rw [if_neg (not_not_intro h1)] at h ⊢
      have e := hf.ended b file rs rs' (by rw [h1]; exact nofun)
      rw [e]
      rw [if_neg (not_not_intro h1)]
      exact hg.ended _ _ _ _ h
    · rw [if_pos h1] at h ⊢
      have e := hf.ended b file rs rs' h
      rw [e, if_pos h1]
  · intro b file rs rs' h
    unfold Groth16.andThen at h ⊢
    by_cases h1 : (f ⟨b, file, rs⟩).1 = .ok
    · rw [if_neg (not_not_intro h1)] at h ⊢
      have e := hf.ended b file rs rs' (by rw [h1]; exact nofun)
      rw [e]
      rw [if_neg (not_not_intro h1)]
      exact hg.more _ _ _ _ h
    · rw [if_pos h1] at h ⊢
      have e := hf.more b file rs rs' h
      split_ifs with h2
      · exact e
      · exact e.trans (hg.grows _ _ _)
  · intro b file rs h
    unfold Groth16.andThen at h ⊢
    by_cases h1 : (f ⟨b, file, rs⟩).1 = .ok
    · rw [if_neg (not_not_intro h1)] at h ⊢
      obtain ⟨p, e1, e2⟩ := hf.used b file rs (by rw [h1]; exact nofun)
      obtain ⟨p', e3, e4⟩ := hg.used _ _ _ h
      have e5 := hf.ended b file p p' (by rw [e2, h1]; decide)
      rw [e2] at e5
      refine ⟨p ++ p', ?_, ?_⟩
      · rw [List.append_assoc, ← e3]
        exact e1
      · rw [e5]
        dsimp only
        rw [if_neg (not_not_intro h1), List.nil_append, e4]
    · rw [if_pos h1] at h ⊢
      obtain ⟨p, e1, e2⟩ := hf.used b file rs h
      exact ⟨p, e1, by rw [e2, if_pos h1]⟩
  · intro b file
    unfold Groth16.andThen
    obtain ⟨h1, h2⟩ := hf.idle b file
    split_ifs with h
    · exact ⟨h1, h2⟩
    · have : (f ⟨b, file, []⟩).2 = ⟨(f ⟨b, file, []⟩).2.buffer, file, []⟩ := by
        exact writer_eta h1 h2
      rw [this]
      exact hg.idle _ _

theorem flush_steady : Steady Writer.flush where
  grows b file rs := (writeLoop_more rs b file []).1
  ended b file rs rs' h := by
    have e := (writeLoop_more rs b file rs').2.1 h
    unfold Writer.flush
    dsimp only
    rw [e]
  more b file rs rs' h := (writeLoop_more rs b file rs').2.2.1 h
  used b file rs h := by
    obtain ⟨p, e1, e2⟩ := (writeLoop_more rs b file []).2.2.2 h
    refine ⟨p, e1, ?_⟩
    unfold Writer.flush
    dsimp only
    rw [e2]
  idle b file := by
    unfold Writer.flush
    cases b <;> exact ⟨rfl, rfl⟩

/-- A part that does not touch the file and needs no answers. -/
theorem quiet_steady (g : List UInt8 → List UInt8) : Steady fun w => (.ok, ⟨g w.buffer, w.file, w.responses⟩) where
  grows _ _ _ := List.prefix_rfl
  ended _ _ _ _ _ := rfl
  more _ _ _ _ h := by cases h
  used _ _ _ _ := ⟨[], rfl, rfl⟩
  idle _ _ := ⟨rfl, rfl⟩

/-- A direct write. -/
theorem direct_steady (bytes : List UInt8) : Steady fun w => ((writeLoop w.responses bytes w.file).1,
    ⟨w.buffer, (writeLoop w.responses bytes w.file).2.2.1, (writeLoop w.responses bytes w.file).2.2.2⟩) where
  grows b file rs := (writeLoop_more rs bytes file []).1
  ended b file rs rs' h := by
    have e := (writeLoop_more rs bytes file rs').2.1 h
    dsimp only
    rw [e]
  more b file rs rs' h := (writeLoop_more rs bytes file rs').2.2.1 h
  used b file rs h := by
    obtain ⟨p, e1, e2⟩ := (writeLoop_more rs bytes file []).2.2.2 h
    refine ⟨p, e1, ?_⟩
    dsimp only
    rw [e2]
  idle b file := by
    cases bytes <;> exact ⟨rfl, rfl⟩

/-- What is done may depend on the buffer. -/
theorem Steady.choose (f : List UInt8 → Writer → Status × Writer) (h : ∀ b, Steady (f b)) : Steady fun w => f w.buffer w where
  grows b := (h b).grows b
  ended b := (h b).ended b
  more b := (h b).more b
  used b := (h b).used b
  idle b := (h b).idle b

theorem makeRoom_steady (capacity n : Nat) : Steady fun w => w.makeRoom capacity n := by
  have := Steady.choose (fun b w => if n > capacity - b.length then w.flush else (.ok, w)) fun b => by
    split_ifs
    · exact flush_steady
    · exact quiet_steady id
  exact this

theorem writeAll_steady (capacity : Nat) (bytes : List UInt8) : Steady fun w => w.writeAll capacity bytes := by
  have hd : Steady fun w => if bytes.length ≥ capacity then ((writeLoop w.responses bytes w.file).1,
      (⟨w.buffer, (writeLoop w.responses bytes w.file).2.2.1, (writeLoop w.responses bytes w.file).2.2.2⟩ : Writer))
      else (.ok, ⟨w.buffer ++ bytes, w.file, w.responses⟩) := by
    split_ifs
    · exact direct_steady bytes
    · exact quiet_steady (· ++ bytes)
  have := Steady.choose (fun b w => if bytes.length < capacity - b.length then (.ok, ⟨w.buffer ++ bytes, w.file, w.responses⟩)
    else Groth16.andThen (fun w => w.makeRoom capacity bytes.length) (fun w => if bytes.length ≥ capacity then ((writeLoop w.responses bytes w.file).1,
      (⟨w.buffer, (writeLoop w.responses bytes w.file).2.2.1, (writeLoop w.responses bytes w.file).2.2.2⟩ : Writer))
      else (.ok, ⟨w.buffer ++ bytes, w.file, w.responses⟩)) w) fun b => by
    by_cases h : bytes.length < capacity - b.length
    · simp only [if_pos h]
      exact quiet_steady (· ++ bytes)
    · simp only [if_neg h]
      exact (makeRoom_steady capacity _).andThen hd
  convert this using 2 with w
  unfold Writer.writeAll Groth16.andThen
  dsimp only
  by_cases h : bytes.length < capacity - w.buffer.length
  · rw [if_pos h, if_pos h]
  · rw [if_neg h, if_neg h]
    split
    · next v hx =>
      have h1 : (w.makeRoom capacity bytes.length).1 = .ok := by rw [hx]
      rw [if_neg (not_not_intro h1), hx]
    · next hx =>
      rw [if_pos fun h1 => hx (w.makeRoom capacity bytes.length).2 (Prod.ext h1 rfl)]

theorem writePieces_steady (capacity : Nat) : ∀ l : List (List UInt8), Steady fun w => w.writePieces capacity l
  | [] => by
    have : (fun w : Writer => w.writePieces capacity []) = fun w => (.ok, ⟨id w.buffer, w.file, w.responses⟩) := by
      funext w
      rw [Writer.writePieces]
      rfl
    rw [this]
    exact quiet_steady id
  | x :: l => by
    have : (fun w : Writer => w.writePieces capacity (x :: l)) =
        Groth16.andThen (fun w => w.writeAll capacity x) fun w => w.writePieces capacity l := by
      funext w
      rw [Writer.writePieces]
      rfl
    rw [this]
    exact (writeAll_steady capacity x).andThen (writePieces_steady capacity l)

/-- The same for a whole file. -/
theorem writeFile_more (capacity : Nat) (l : List (List UInt8)) (rs rs' : List Response) :
    ((writeFile capacity l [] rs).1 ≠ .killed → writeFile capacity l [] (rs ++ rs') =
      ((writeFile capacity l [] rs).1, (writeFile capacity l [] rs).2.1, (writeFile capacity l [] rs).2.2 ++ rs')) ∧
    ((writeFile capacity l [] rs).1 = .killed → (writeFile capacity l [] rs).2.1 <+: (writeFile capacity l [] (rs ++ rs')).2.1) ∧
    ((writeFile capacity l [] rs).1 ≠ .killed → ∃ p, rs = p ++ (writeFile capacity l [] rs).2.2 ∧
      writeFile capacity l [] p = ((writeFile capacity l [] rs).1, (writeFile capacity l [] rs).2.1, [])) ∧
    (writeFile capacity l [] []).2.1 = [] := by
  have S := writePieces_steady capacity l
  have F := flush_steady
  unfold writeFile
  dsimp only
  refine ⟨fun h => ?_, fun h => ?_, fun h => ?_, ?_⟩
  · by_cases h1 : (Writer.writePieces capacity ⟨[], [], rs⟩ l).1 = .killed
    · rw [if_pos h1] at h
      exact absurd rfl h
    · rw [if_neg h1] at h ⊢
      by_cases h2 : (Writer.writePieces capacity ⟨[], [], rs⟩ l).2.flush.1 = .killed
      · rw [if_pos h2] at h
        exact absurd rfl h
      · have e1 := S.ended [] [] rs rs' h1
        have e2 := F.ended _ _ _ rs' h2
        rw [e1]
        dsimp only
        rw [if_neg h1, e2]
  · by_cases h1 : (Writer.writePieces capacity ⟨[], [], rs⟩ l).1 = .killed
    · rw [if_pos h1]
      have e1 := S.more [] [] rs rs' h1
      by_cases h3 : (Writer.writePieces capacity ⟨[], [], rs ++ rs'⟩ l).1 = .killed
      · rw [if_pos h3]
        exact e1
      · rw [if_neg h3]
        exact e1.trans (F.grows _ _ _)
    · rw [if_neg h1] at h ⊢
      by_cases h2 : (Writer.writePieces capacity ⟨[], [], rs⟩ l).2.flush.1 = .killed
      · have e1 := S.ended [] [] rs rs' h1
        have e2 := F.more _ _ _ rs' h2
        rw [e1]
        dsimp only
        rw [if_neg h1]
        exact e2
      · rw [if_neg h2] at h
        exact absurd h h1
  · by_cases h1 : (Writer.writePieces capacity ⟨[], [], rs⟩ l).1 = .killed
    · rw [if_pos h1] at h
      exact absurd rfl h
    · rw [if_neg h1] at h ⊢
      by_cases h2 : (Writer.writePieces capacity ⟨[], [], rs⟩ l).2.flush.1 = .killed
      · rw [if_pos h2] at h
        exact absurd rfl h
      · obtain ⟨p, e1, e2⟩ := S.used [] [] rs h1
        obtain ⟨p', e3, e4⟩ := F.used _ _ _ h2
        have e5 := S.ended [] [] p p' (by rw [e2]; exact h1)
        rw [e2] at e5
        refine ⟨p ++ p', ?_, ?_⟩
        · rw [List.append_assoc, ← e3]
          exact e1
        · rw [e5]
          dsimp only
          rw [if_neg h1, List.nil_append, e4]
  · obtain ⟨h1, h2⟩ := S.idle [] []
    by_cases h : (Writer.writePieces capacity ⟨[], [], []⟩ l).1 = .killed
    · rw [if_pos h]
      exact h1
    · rw [if_neg h]
      have e : (Writer.writePieces capacity ⟨[], [], []⟩ l).2 = ⟨(Writer.writePieces capacity ⟨[], [], []⟩ l).2.buffer, [], []⟩ := by
        exact writer_eta h1 h2
      rw [e]
      exact (F.idle _ _).1

theorem createFile_more : ∀ rs file rs',
    ((createFile rs file).1 ≠ .killed → createFile (rs ++ rs') file = ((createFile rs file).1, (createFile rs file).2.1, (createFile rs file).2.2 ++ rs')) ∧
    ((createFile rs file).1 ≠ .killed → ∃ p, rs = p ++ (createFile rs file).2.2 ∧ createFile p file = ((createFile rs file).1, (createFile rs file).2.1, []))
  | [], _, _ => ⟨fun h => absurd rfl h, fun h => absurd rfl h⟩
  | .done n :: rs, _, _ => ⟨fun _ => rfl, fun _ => ⟨[.done n], rfl, rfl⟩⟩
  | .interrupted :: rs, file, rs' => by
    obtain ⟨h1, h2⟩ := createFile_more rs file rs'
    refine ⟨h1, fun h => ?_⟩
    obtain ⟨p, e1, e2⟩ := h2 h
    exact ⟨.interrupted :: p, congrArg _ e1, e2⟩
  | .failed :: rs, _, _ => ⟨fun _ => rfl, fun _ => ⟨[.failed], rfl, rfl⟩⟩

/-! ## One run -/

/-- The four ways a run can be: it has not created the first file, or not the second, or it writes the first, or the second. -/
theorem writeParamsRun_cases (capacity : Nat) (pk vk : List (List UInt8)) (old : Files) (rs : List Response) :
    ((createFile rs none).1 ≠ .ok ∧ (writeParamsRun capacity pk vk old rs).2 = old ∧
      (writeParamsRun capacity pk vk old rs).1 = if (createFile rs none).1 = .killed then .killed else .error) ∨
    (∃ rs₁, createFile rs none = (.ok, some [], rs₁) ∧
      (createFile rs₁ none).1 ≠ .ok ∧ (writeParamsRun capacity pk vk old rs).2 = ⟨some [], old.vk⟩ ∧
        (writeParamsRun capacity pk vk old rs).1 = if (createFile rs₁ none).1 = .killed then .killed else .error) ∨
    ∃ rs₁ rs₂, createFile rs none = (.ok, some [], rs₁) ∧ createFile rs₁ none = (.ok, some [], rs₂) ∧
      (((writeFile capacity pk [] rs₂).1 ≠ .ok ∧ (writeParamsRun capacity pk vk old rs).2 = ⟨some (writeFile capacity pk [] rs₂).2.1, some []⟩ ∧
        (writeParamsRun capacity pk vk old rs).1 = if (writeFile capacity pk [] rs₂).1 = .killed then .killed else .panicked) ∨
      ((writeFile capacity pk [] rs₂).1 = .ok ∧ (writeParamsRun capacity pk vk old rs).2 =
          ⟨some (writeFile capacity pk [] rs₂).2.1, some (writeFile capacity vk [] (writeFile capacity pk [] rs₂).2.2).2.1⟩ ∧
        (writeParamsRun capacity pk vk old rs).1 = match (writeFile capacity vk [] (writeFile capacity pk [] rs₂).2.2).1 with
          | .ok => .ok | .error => .panicked | .killed => .killed)) := by
  have any : ∀ (file : Option (List UInt8)) (rs : List Response), (createFile rs file).1 = (createFile rs none).1 ∧
      (createFile rs file).2.2 = (createFile rs none).2.2 := by
    intro file rs
    induction rs with
    | nil => exact ⟨rfl, rfl⟩
    | cons r rs ih => cases r with
      | done n => exact ⟨rfl, rfl⟩
      | interrupted => exact ih
      | failed => exact ⟨rfl, rfl⟩
  rcases createFile_cases rs old.pk with ⟨rs₁, h⟩ | ⟨rs', h⟩ | h
  · have hn : createFile rs none = (.ok, some [], rs₁) := by
      obtain ⟨h1, h2⟩ := any old.pk rs
      rw [h] at h1 h2
      rcases createFile_cases rs none with ⟨rs₁', h'⟩ | ⟨rs', h'⟩ | h'
      · rw [h'] at h2
        rw [h']
        exact congrArg (fun r => (Status.ok, some [], r)) h2.symm
      · rw [h'] at h1
        cases h1
      · rw [h'] at h1
        cases h1
    right
    rcases createFile_cases rs₁ old.vk with ⟨rs₂, g⟩ | ⟨rs', g⟩ | g
    · have gn : createFile rs₁ none = (.ok, some [], rs₂) := by
        obtain ⟨h1, h2⟩ := any old.vk rs₁
        rw [g] at h1 h2
        rcases createFile_cases rs₁ none with ⟨rs₁', h'⟩ | ⟨rs', h'⟩ | h'
        · rw [h'] at h2
          rw [h']
          exact congrArg (fun r => (Status.ok, some [], r)) h2.symm
        · rw [h'] at h1
          cases h1
        · rw [h'] at h1
          cases h1
      refine .inr ⟨rs₁, rs₂, hn, gn, ?_⟩
      unfold writeParamsRun
      simp only [h, g]
      rcases hw : writeFile capacity pk [] rs₂ with ⟨s, a, rs₃⟩
      cases s
      · right
        dsimp only
        rcases hv : writeFile capacity vk [] rs₃ with ⟨s', b, rs₄⟩
        cases s' <;> exact ⟨rfl, rfl, rfl⟩
      · left
        exact ⟨by simp, rfl, rfl⟩
      · left
        exact ⟨by simp, rfl, rfl⟩
    · refine .inl ⟨rs₁, hn, ?_⟩
      have h1 := (any old.vk rs₁).1
      rw [g] at h1
      unfold writeParamsRun
      simp only [h, g, ← h1]
      exact ⟨by simp, by simp⟩
    · refine .inl ⟨rs₁, hn, ?_⟩
      have h1 := (any old.vk rs₁).1
      rw [g] at h1
      unfold writeParamsRun
      simp only [h, g, ← h1]
      exact ⟨by simp, by simp⟩
  · have h1 := (any old.pk rs).1
    rw [h] at h1
    unfold writeParamsRun
    simp only [h, ← h1]
    exact .inl ⟨by simp, by simp⟩
  · have h1 := (any old.pk rs).1
    rw [h] at h1
    unfold writeParamsRun
    simp only [h, ← h1]
    exact .inl ⟨by simp, by simp⟩

/-- A run with other files before it. -/
theorem writeParamsRun_old (capacity : Nat) (pk vk : List (List UInt8)) (old : Files) (rs : List Response) :
    writeParamsRun capacity pk vk old rs = ((writeParamsRun capacity pk vk ⟨none, none⟩ rs).1,
      ⟨applyCall none (ownFiles capacity pk vk rs).pk old.pk, applyCall none (ownFiles capacity pk vk rs).vk old.vk⟩) := by
  unfold ownFiles
  refine Prod.ext ?_ ?_
  · rcases writeParamsRun_cases capacity pk vk old rs with ⟨h1, -, h3⟩ | ⟨rs₁, h1, h2, -, h3⟩ | ⟨rs₁, rs₂, h1, h2, ⟨h3, -, h5⟩ | ⟨h3, -, h5⟩⟩ <;>
    rcases writeParamsRun_cases capacity pk vk ⟨none, none⟩ rs with ⟨k1, -, k3⟩ | ⟨rs₁', k1, k2, -, k3⟩ | ⟨rs₁', rs₂', k1, k2, ⟨k3, -, k5⟩ | ⟨k3, -, k5⟩⟩ <;>
    simp_all
  · rcases writeParamsRun_cases capacity pk vk old rs with ⟨h1, h3, -⟩ | ⟨rs₁, h1, h2, h3, -⟩ | ⟨rs₁, rs₂, h1, h2, ⟨h3, h5, -⟩ | ⟨h3, h5, -⟩⟩ <;>
    rcases writeParamsRun_cases capacity pk vk ⟨none, none⟩ rs with ⟨k1, k3, -⟩ | ⟨rs₁', k1, k2, k3, -⟩ | ⟨rs₁', rs₂', k1, k2, ⟨k3, k5, -⟩ | ⟨k3, k5, -⟩⟩ <;>
    simp_all [applyCall]

/-- What a run has made of a file before and after more answers. -/
def Grows : Option (List UInt8) → Option (List UInt8) → Prop
  | none, _ => True
  | some a, some a' => a <+: a'
  | some _, none => False

theorem own_grows (capacity : Nat) (pk vk : List (List UInt8)) (rs rs' : List Response) :
    Grows (ownFiles capacity pk vk rs).pk (ownFiles capacity pk vk (rs ++ rs')).pk ∧
    Grows (ownFiles capacity pk vk rs).vk (ownFiles capacity pk vk (rs ++ rs')).vk := by
  unfold ownFiles
  rcases writeParamsRun_cases capacity pk vk ⟨none, none⟩ rs with ⟨h1, h3, -⟩ | ⟨rs₁, h1, h2, h3, -⟩ | ⟨rs₁, rs₂, h1, h2, ⟨h3, h5, -⟩ | ⟨h3, h5, -⟩⟩
  · rw [h3]
    exact ⟨trivial, trivial⟩
  · rw [h3]
    refine ⟨?_, trivial⟩
    have e := (createFile_more rs none rs').1 (by rw [h1]; exact nofun)
    rw [h1] at e
    rcases writeParamsRun_cases capacity pk vk ⟨none, none⟩ (rs ++ rs') with ⟨k1, k3, -⟩ | ⟨rs₁', k1, k2, k3, -⟩ | ⟨rs₁', rs₂', k1, k2, ⟨k3, k5, -⟩ | ⟨k3, k5, -⟩⟩
    · rw [e] at k1
      exact absurd rfl k1
    · rw [k3]
      exact List.prefix_rfl
    · rw [k5]
      exact List.nil_prefix
    · rw [k5]
      exact List.nil_prefix
  · have e1 := (createFile_more rs none rs').1 (by rw [h1]; exact nofun)
    rw [h1] at e1
    have e2 := (createFile_more rs₁ none rs').1 (by rw [h2]; exact nofun)
    rw [h2] at e2
    rw [h5]
    rcases writeParamsRun_cases capacity pk vk ⟨none, none⟩ (rs ++ rs') with ⟨k1, k3, -⟩ | ⟨rs₁', k1, k2, k3, -⟩ | ⟨rs₁', rs₂', k1, k2, ⟨k3, k5, -⟩ | ⟨k3, k5, -⟩⟩
    · rw [e1] at k1
      exact absurd rfl k1
    · rw [e1] at k1
      cases k1
      rw [e2] at k2
      exact absurd rfl k2
    all_goals
      rw [e1] at k1
      cases k1
      rw [e2] at k2
      cases k2
      rw [k5]
      refine ⟨?_, List.nil_prefix⟩
      show (writeFile capacity pk [] rs₂).2.1 <+: _
      by_cases hk : (writeFile capacity pk [] rs₂).1 = .killed
      · exact (writeFile_more capacity pk rs₂ rs').2.1 hk
      · rw [(writeFile_more capacity pk rs₂ rs').1 hk]
  · have e1 := (createFile_more rs none rs').1 (by rw [h1]; exact nofun)
    rw [h1] at e1
    have e2 := (createFile_more rs₁ none rs').1 (by rw [h2]; exact nofun)
    rw [h2] at e2
    have e3 := (writeFile_more capacity pk rs₂ rs').1 (by rw [h3]; exact nofun)
    rw [h3] at e3
    rw [h5]
    rcases writeParamsRun_cases capacity pk vk ⟨none, none⟩ (rs ++ rs') with ⟨k1, k3, -⟩ | ⟨rs₁', k1, k2, k3, -⟩ | ⟨rs₁', rs₂', k1, k2, ⟨k3, k5, -⟩ | ⟨k3, k5, -⟩⟩
    · rw [e1] at k1
      exact absurd rfl k1
    · rw [e1] at k1
      cases k1
      rw [e2] at k2
      exact absurd rfl k2
    · rw [e1] at k1
      cases k1
      rw [e2] at k2
      cases k2
      rw [e3] at k3
      exact absurd rfl k3
    · rw [e1] at k1
      cases k1
      rw [e2] at k2
      cases k2
      rw [k5, e3]
      refine ⟨List.prefix_rfl, ?_⟩
      show (writeFile capacity vk [] (writeFile capacity pk [] rs₂).2.2).2.1 <+: _
      by_cases hk : (writeFile capacity vk [] (writeFile capacity pk [] rs₂).2.2).1 = .killed
      · exact (writeFile_more capacity vk _ rs').2.1 hk
      · rw [(writeFile_more capacity vk _ rs').1 hk]

theorem own_prefix (capacity : Nat) (pk vk : List (List UInt8)) (rs : List Response) :
    (∀ a, (ownFiles capacity pk vk rs).pk = some a → a <+: pk.flatten) ∧ ∀ b, (ownFiles capacity pk vk rs).vk = some b → b <+: vk.flatten := by
  unfold ownFiles
  rcases writeParamsRun_cases capacity pk vk ⟨none, none⟩ rs with ⟨h1, h3, -⟩ | ⟨rs₁, h1, h2, h3, -⟩ | ⟨rs₁, rs₂, h1, h2, ⟨h3, h5, -⟩ | ⟨h3, h5, -⟩⟩
  · rw [h3]
    exact ⟨nofun, nofun⟩
  · rw [h3]
    exact ⟨fun a h => by cases h; exact List.nil_prefix, nofun⟩
  · rw [h5]
    exact ⟨fun a h => by cases h; exact writeFile_prefix _ _ _, fun a h => by cases h; exact List.nil_prefix⟩
  · rw [h5]
    exact ⟨fun a h => by cases h; exact writeFile_prefix _ _ _, fun a h => by cases h; exact writeFile_prefix _ _ _⟩

/-- A run that returned `Ok` had, at some moment, written all it would write of the first file and nothing of the second. -/
theorem own_phase (capacity : Nat) (pk vk : List (List UInt8)) (rs : List Response) (h : (writeParamsRun capacity pk vk ⟨none, none⟩ rs).1 = .ok) :
    ∃ p p', rs = p ++ p' ∧ (ownFiles capacity pk vk p).pk = (ownFiles capacity pk vk rs).pk ∧ (ownFiles capacity pk vk p).vk = some [] := by
  unfold ownFiles
  rcases writeParamsRun_cases capacity pk vk ⟨none, none⟩ rs with ⟨h1, h3, h4⟩ | ⟨rs₁, h1, h2, h3, h4⟩ | ⟨rs₁, rs₂, h1, h2, ⟨h3, h5, h4⟩ | ⟨h3, h5, h4⟩⟩
  · rw [h4] at h
    split_ifs at h
  · rw [h4] at h
    split_ifs at h
  · rw [h4] at h
    split_ifs at h
  · obtain ⟨p1, a1, b1⟩ := (createFile_more rs none []).2 (by rw [h1]; exact nofun)
    obtain ⟨p2, a2, b2⟩ := (createFile_more rs₁ none []).2 (by rw [h2]; exact nofun)
    obtain ⟨p3, a3, b3⟩ := (writeFile_more capacity pk rs₂ []).2.2.1 (by rw [h3]; exact nofun)
    rw [h1] at a1 b1
    rw [h2] at a2 b2
    rw [h3] at b3
    refine ⟨p1 ++ p2 ++ p3, (writeFile capacity pk [] rs₂).2.2, by simp only at a1 a2; rw [a1, a2, List.append_assoc, List.append_assoc, ← a3], ?_⟩
    have c1 := (createFile_more p1 none (p2 ++ p3)).1 (by rw [b1]; exact nofun)
    rw [b1] at c1
    have c2 := (createFile_more p2 none p3).1 (by rw [b2]; exact nofun)
    rw [b2] at c2
    rw [h5]
    rcases writeParamsRun_cases capacity pk vk ⟨none, none⟩ (p1 ++ p2 ++ p3) with ⟨k1, k3, -⟩ | ⟨rs₁', k1, k2, k3, -⟩ | ⟨rs₁', rs₂', k1, k2, ⟨k3, k5, -⟩ | ⟨k3, k5, -⟩⟩
    · rw [List.append_assoc, c1] at k1
      exact absurd rfl k1
    · rw [List.append_assoc, c1] at k1
      cases k1
      rw [List.nil_append, c2] at k2
      exact absurd rfl k2
    · rw [List.append_assoc, c1] at k1
      cases k1
      rw [List.nil_append, c2] at k2
      cases k2
      rw [List.nil_append, b3] at k3
      exact absurd rfl k3
    · rw [List.append_assoc, c1] at k1
      cases k1
      rw [List.nil_append, c2] at k2
      cases k2
      rw [k5, List.nil_append, b3]
      exact ⟨rfl, congrArg some (writeFile_more capacity vk [] []).2.2.2⟩

/-! ## A file and several calls -/

theorem writeAt_next_write (f : List UInt8) (o : Nat) (w w' : List UInt8) :
    writeAt (writeAt f o w) (o + w.length) w' = writeAt f o (w ++ w') := by
  refine List.ext_getElem? fun i => ?_
  rw [writeAt_getElem?, writeAt_getElem?, writeAt_getElem?, writeAt_length, List.length_append]
  by_cases h1 : i < o
  · rw [if_pos (show i < o + w.length by omega), if_pos (show i < max (o + w.length) f.length by omega), if_pos h1, if_pos h1]
  · rw [if_neg h1, if_neg h1]
    by_cases h2 : i < o + w.length
    · rw [if_pos h2, if_pos (show i < max (o + w.length) f.length by omega), if_pos h2, if_pos (show i < o + (w.length + w'.length) by omega),
        List.getElem?_append_left (by omega)]
    · rw [if_neg h2, if_neg h2]
      by_cases h3 : i < o + w.length + w'.length
      · rw [if_pos h3, if_pos (show i < o + (w.length + w'.length) by omega), List.getElem?_append_right (by omega)]
        congr 1
        omega
      · rw [if_neg h3, if_neg (show ¬ i < o + (w.length + w'.length) by omega)]

/-- Calls of one run without calls of others between them. -/
theorem applyCall_trans {o o' o'' : Option (List UInt8)} (h : Grows o o') (h' : Grows o' o'') (file : Option (List UInt8)) :
    applyCall o' o'' (applyCall o o' file) = applyCall o o'' file := by
  cases o with
  | none => cases o' with
    | none => rfl
    | some a => cases o'' with
      | none => exact h'.elim
      | some a' =>
        obtain ⟨w, rfl⟩ := h'
        show applyCall (some a) (some (a ++ w)) (some a) = some (a ++ w)
        unfold applyCall
        dsimp only
        split_ifs with hl
        · show some (writeAt a a.length ((a ++ w).drop a.length)) = _
          rw [List.drop_left]
          unfold writeAt
          rw [List.take_append_of_le_length le_rfl, List.take_length, List.drop_eq_nil_of_le (by omega), List.append_nil]
        · rw [List.length_append] at hl
          have : w = [] := List.eq_nil_of_length_eq_zero (by omega)
          rw [this, List.append_nil]
  | some a => cases o' with
    | none => exact h.elim
    | some a' => cases o'' with
      | none => exact h'.elim
      | some a'' =>
        obtain ⟨w, rfl⟩ := h
        obtain ⟨w', rfl⟩ := h'
        unfold applyCall
        dsimp only
        simp only [List.length_append]
        by_cases h1 : w = []
        · subst h1
          simp
        · have hl : 0 < w.length := List.length_pos_iff.2 h1
          rw [if_pos (show a.length < a.length + w.length by omega), if_pos (show a.length < a.length + w.length + w'.length by omega)]
          split_ifs with h2
          · cases file with
            | none => rfl
            | some f =>
              show some (writeAt (writeAt f _ _) _ _) = some (writeAt f _ _)
              rw [List.drop_left, List.append_assoc a w w', List.drop_left, ← List.append_assoc, ← List.length_append, List.drop_left, List.length_append,
                writeAt_next_write]
          · have : w' = [] := List.eq_nil_of_length_eq_zero (by omega)
            rw [this, List.append_nil]

theorem applyCall_self (o file : Option (List UInt8)) : applyCall o o file = file := by
  cases o with
  | none => rfl
  | some a => exact if_neg (lt_irrefl _)

variable {ι : Type} [DecidableEq ι]

theorem Crowd.run_append (capacity : Nat) (pk vk : ι → List (List UInt8)) : ∀ (l l' : List (ι × Response)) (m : Crowd ι),
    Crowd.run capacity pk vk (l ++ l') m = Crowd.run capacity pk vk l' (Crowd.run capacity pk vk l m)
  | [], _, _ => rfl
  | (i, r) :: l, l', m => Crowd.run_append capacity pk vk l l' (m.step capacity pk vk i r)

/-- Answers to one run. -/
theorem Crowd.feed (capacity : Nat) (pk vk : ι → List (List UInt8)) (i : ι) : ∀ (p : List Response) (m : Crowd ι),
    Crowd.run capacity pk vk (p.map (i, ·)) m = ⟨Function.update m.responses i (m.responses i ++ p),
      ⟨applyCall (ownFiles capacity (pk i) (vk i) (m.responses i)).pk (ownFiles capacity (pk i) (vk i) (m.responses i ++ p)).pk m.files.pk,
       applyCall (ownFiles capacity (pk i) (vk i) (m.responses i)).vk (ownFiles capacity (pk i) (vk i) (m.responses i ++ p)).vk m.files.vk⟩⟩
  | [], m => by
    show m = _
    rw [List.append_nil, applyCall_self, applyCall_self, Function.update_eq_self]
  | r :: p, m => by
    show Crowd.run capacity pk vk (p.map (i, ·)) (m.step capacity pk vk i r) = _
    rw [Crowd.feed capacity pk vk i p]
    have e : (m.step capacity pk vk i r).responses i = m.responses i ++ [r] := Function.update_self ..
    have g := own_grows capacity (pk i) (vk i) (m.responses i) [r]
    have g' := own_grows capacity (pk i) (vk i) (m.responses i ++ [r]) p
    rw [e]
    have e2 : m.responses i ++ r :: p = m.responses i ++ [r] ++ p := by simp
    rw [e2]
    congr 1
    · show Function.update (Function.update m.responses i _) i _ = _
      rw [Function.update_idem]
    · show Files.mk (applyCall _ _ (applyCall _ _ m.files.pk)) (applyCall _ _ (applyCall _ _ m.files.vk)) = _
      rw [applyCall_trans g.1 g'.1, applyCall_trans g.2 g'.2]

theorem Crowd.other (capacity : Nat) (pk vk : ι → List (List UInt8)) (i : ι) : ∀ (l : List (ι × Response)) (m : Crowd ι), (∀ x ∈ l, x.1 ≠ i) →
    (Crowd.run capacity pk vk l m).responses i = m.responses i
  | [], _, _ => rfl
  | (j, r) :: l, m, h => by
    show (Crowd.run capacity pk vk l (m.step capacity pk vk j r)).responses i = _
    rw [Crowd.other capacity pk vk i l _ fun x hx => h x (by simp [hx])]
    exact Function.update_of_ne (h (j, r) (by simp)).symm _ _

/-! ## The invariant -/

/-- One of the two files: no run has created it, or some run's bytes are there as far as this run is, as bytes of some run. -/
def Shared (key : ι → List UInt8) (L : Nat) (own : ι → Option (List UInt8)) (old file : Option (List UInt8)) : Prop :=
  (∀ j, own j = none) ∧ file = old ∨ ∃ x w f, own x = some w ∧ file = some f ∧ f.length ≤ L ∧ Filled key w.length f

theorem Shared.step {key : ι → List UInt8} {L : Nat} {own : ι → Option (List UInt8)} {old file : Option (List UInt8)} (h : Shared key L own old file)
    (hL : ∀ j, (key j).length ≤ L) (i : ι) (own' : Option (List UInt8)) (hg : Grows (own i) own') (hp : ∀ a, own' = some a → a <+: key i)
    (h0 : own i = none → ∀ a, own' = some a → a = []) :
    Shared key L (Function.update own i own') old (applyCall (own i) own' file) := by
  cases hi : own i with
  | none =>
    cases own' with
    | none =>
      have : Function.update own i none = own := by rw [← hi, Function.update_eq_self]
      rw [this]
      exact h
    | some a =>
      cases h0 hi a rfl
      exact .inr ⟨i, [], [], Function.update_self .., rfl, Nat.zero_le _, Filled.nil key⟩
  | some a =>
    cases own' with
    | none => rw [hi] at hg; exact hg.elim
    | some a' =>
      rw [hi] at hg
      obtain ⟨w, rfl⟩ := hg
      rcases h with ⟨h1, -⟩ | ⟨x, wx, f, h1, h2, h3, h4⟩
      · rw [h1 i] at hi
        cases hi
      · obtain ⟨t, ht⟩ := hp _ rfl
        by_cases hw : w = []
        · subst hw
          rw [List.append_nil, applyCall_self]
          have : Function.update own i (some a) = own := by rw [← hi, Function.update_eq_self]
          rw [this]
          exact .inr ⟨x, wx, f, h1, h2, h3, h4⟩
        · have hl : 0 < w.length := List.length_pos_iff.2 hw
          have e : w = ((key i).drop a.length).take w.length := by
            rw [← ht, List.append_assoc, List.drop_left, List.take_left]
          have hk : a.length + w.length ≤ (key i).length := by
            rw [← ht]
            simp only [List.length_append]
            omega
          have hc : applyCall (some a) (some (a ++ w)) file = some (writeAt f a.length w) := by
            unfold applyCall
            dsimp only
            rw [if_pos (by rw [List.length_append]; omega), List.drop_left, h2]
            rfl
          rw [hc]
          obtain ⟨g1, g2⟩ := h4.write i a.length w.length
          rw [← e] at g1 g2
          have hlen : (writeAt f a.length w).length ≤ L := by
            rw [writeAt_length]
            have := hL i
            omega
          by_cases hx : x = i
          · subst hx
            rw [hi] at h1
            cases h1
            refine .inr ⟨x, a ++ w, _, Function.update_self .., rfl, hlen, ?_⟩
            rw [List.length_append]
            exact g2 rfl
          · exact .inr ⟨x, wx, _, by rw [Function.update_of_ne hx]; exact h1, rfl, hlen, g1⟩

theorem createFile_killed : ∀ rs file rs', (createFile rs file).1 = .killed → createFile (rs ++ rs') file = createFile rs' file
  | [], _, _, _ => rfl
  | .done _ :: _, _, _, h => by cases h
  | .interrupted :: rs, file, rs', h => createFile_killed rs file rs' h
  | .failed :: _, _, _, h => by cases h

/-- A file is created empty. -/
theorem own_created (capacity : Nat) (pk vk : List (List UInt8)) (rs : List Response) (r : Response) :
    ((ownFiles capacity pk vk rs).pk = none → ∀ a, (ownFiles capacity pk vk (rs ++ [r])).pk = some a → a = []) ∧
    ((ownFiles capacity pk vk rs).vk = none → ∀ a, (ownFiles capacity pk vk (rs ++ [r])).vk = some a → a = []) := by
  unfold ownFiles
  have one : ∀ file rs', createFile [r] file = (.ok, some [], rs') → rs' = [] := by
    intro file rs' h
    cases r with
    | done n => cases h; rfl
    | interrupted => cases h
    | failed => cases h
  -- an answer that creates the first file
  have first : (createFile rs none).1 ≠ .ok → ∀ rs', createFile (rs ++ [r]) none = (.ok, some [], rs') → rs' = [] := by
    intro h1 rs' h
    by_cases hk : (createFile rs none).1 = .killed
    · rw [createFile_killed rs none [r] hk] at h
      exact one none rs' h
    · have e := (createFile_more rs none [r]).1 hk
      rw [h] at e
      exact absurd (congrArg Prod.fst e).symm h1
  rcases writeParamsRun_cases capacity pk vk ⟨none, none⟩ rs with ⟨h1, h3, -⟩ | ⟨rs₁, h1, h2, h3, -⟩ | ⟨rs₁, rs₂, h1, h2, ⟨h3, h5, -⟩ | ⟨h3, h5, -⟩⟩
  · rcases writeParamsRun_cases capacity pk vk ⟨none, none⟩ (rs ++ [r]) with ⟨k1, k3, -⟩ | ⟨rs₁', k1, k2, k3, -⟩ | ⟨rs₁', rs₂', k1, k2, -⟩
    · rw [k3]
      exact ⟨nofun, nofun⟩
    · rw [k3]
      exact ⟨fun _ a h => by cases h; rfl, nofun⟩
    · cases first h1 _ k1
      cases k2
  · rw [h3]
    refine ⟨nofun, fun _ => ?_⟩
    have e1 := (createFile_more rs none [r]).1 (by rw [h1]; exact nofun)
    rw [h1] at e1
    rcases writeParamsRun_cases capacity pk vk ⟨none, none⟩ (rs ++ [r]) with ⟨k1, k3, -⟩ | ⟨rs₁', k1, k2, k3, -⟩ | ⟨rs₁', rs₂', k1, k2, ⟨k3, k5, -⟩ | ⟨k3, k5, -⟩⟩
    · rw [k3]
      exact nofun
    · rw [k3]
      exact nofun
    · rw [k5]
      exact fun a h => by cases h; rfl
    · rw [e1] at k1
      cases k1
      have : rs₂' = [] := by
        by_cases hk : (createFile rs₁ none).1 = .killed
        · rw [createFile_killed rs₁ none [r] hk] at k2
          exact one none rs₂' k2
        · have e := (createFile_more rs₁ none [r]).1 hk
          rw [k2] at e
          exact absurd (congrArg Prod.fst e).symm h2
      subst this
      rw [k5]
      intro a h
      have : (writeFile capacity pk [] []).2.2 = [] := by
        obtain ⟨p, e1, e2⟩ := (writeFile_more capacity pk [] []).2.2.1 (by rw [k3]; decide)
        exact (List.append_eq_nil_iff.1 e1.symm).2
      rw [this] at h
      cases h
      exact (writeFile_more capacity vk [] []).2.2.2
  · rw [h5]
    exact ⟨nofun, nofun⟩
  · rw [h5]
    exact ⟨nofun, nofun⟩

/-- The invariant, of both files. -/
theorem Crowd.shared (capacity : Nat) (pk vk : ι → List (List UInt8)) (L L' : Nat) (hL : ∀ j, (pk j).flatten.length ≤ L)
    (hL' : ∀ j, (vk j).flatten.length ≤ L') (old : Files) : ∀ (l : List (ι × Response)) (m : Crowd ι),
    Shared (fun j => (pk j).flatten) L (fun j => (ownFiles capacity (pk j) (vk j) (m.responses j)).pk) old.pk m.files.pk ∧
    Shared (fun j => (vk j).flatten) L' (fun j => (ownFiles capacity (pk j) (vk j) (m.responses j)).vk) old.vk m.files.vk →
    Shared (fun j => (pk j).flatten) L (fun j => (ownFiles capacity (pk j) (vk j) ((Crowd.run capacity pk vk l m).responses j)).pk) old.pk
      (Crowd.run capacity pk vk l m).files.pk ∧
    Shared (fun j => (vk j).flatten) L' (fun j => (ownFiles capacity (pk j) (vk j) ((Crowd.run capacity pk vk l m).responses j)).vk) old.vk
      (Crowd.run capacity pk vk l m).files.vk
  | [], _, h => h
  | (i, r) :: l, m, h => by
    refine Crowd.shared capacity pk vk L L' hL hL' old l (m.step capacity pk vk i r) ?_
    have g := own_grows capacity (pk i) (vk i) (m.responses i) [r]
    have p := own_prefix capacity (pk i) (vk i) (m.responses i ++ [r])
    have c := own_created capacity (pk i) (vk i) (m.responses i) r
    have s1 := h.1.step hL i _ g.1 p.1 c.1
    have s2 := h.2.step hL' i _ g.2 p.2 c.2
    have e : ∀ F : Files → Option (List UInt8), (fun j => F (ownFiles capacity (pk j) (vk j) ((m.step capacity pk vk i r).responses j))) =
        Function.update (fun j => F (ownFiles capacity (pk j) (vk j) (m.responses j))) i (F (ownFiles capacity (pk i) (vk i) (m.responses i ++ [r]))) := by
      intro F
      funext j
      by_cases hj : j = i
      · subst hj
        rw [Function.update_self]
        show F (ownFiles _ _ _ (Function.update m.responses j _ j)) = _
        rw [Function.update_self]
      · rw [Function.update_of_ne hj]
        show F (ownFiles _ _ _ (Function.update m.responses i _ j)) = _
        rw [Function.update_of_ne hj]
    rw [e Files.pk, e Files.vk]
    exact ⟨s1, s2⟩

omit [DecidableEq ι] in
theorem Crowd.shared_init (capacity : Nat) (pk vk : ι → List (List UInt8)) (L L' : Nat) (old : Files) :
    Shared (fun j => (pk j).flatten) L (fun j => (ownFiles capacity (pk j) (vk j) ((Crowd.init (ι := ι) old).responses j)).pk) old.pk
      (Crowd.init (ι := ι) old).files.pk ∧
    Shared (fun j => (vk j).flatten) L' (fun j => (ownFiles capacity (pk j) (vk j) ((Crowd.init (ι := ι) old).responses j)).vk) old.vk
      (Crowd.init (ι := ι) old).files.vk :=
  ⟨.inl ⟨fun _ => rfl, rfl⟩, .inl ⟨fun _ => rfl, rfl⟩⟩

end Poseidon.Groth16
