import Verif.Spec.WriteParams
import Mathlib.Data.List.Infix
import Mathlib.Tactic.Ring

/-!
# Invariants of buffered writing
-/

namespace Poseidon.Groth16

theorem effective_cons_done (n : Nat) (rs : List Response) : effective (.done n :: rs) = effective rs + 1 := by
  unfold effective
  rw [List.countP_cons_of_pos (by simp)]

theorem effective_cons_interrupted (rs : List Response) : effective (.interrupted :: rs) = effective rs := by
  unfold effective
  rw [List.countP_cons_of_neg (by simp)]

theorem writeLoop_bytes : ∀ rs bytes file, (writeLoop rs bytes file).2.2.1 ++ (writeLoop rs bytes file).2.1 = file ++ bytes ∧
    ((writeLoop rs bytes file).1 = .ok → (writeLoop rs bytes file).2.1 = []) ∧
    ((writeLoop rs bytes file).1 = .killed → (writeLoop rs bytes file).2.1 ≠ [] ∧ (writeLoop rs bytes file).2.2.2 = [])
  | rs, [], file => by
    cases rs with
    | nil => exact ⟨rfl, fun _ => rfl, nofun⟩
    | cons r rs => cases r with
      | done n => cases n <;> exact ⟨rfl, fun _ => rfl, nofun⟩
      | interrupted => exact ⟨rfl, fun _ => rfl, nofun⟩
      | failed => exact ⟨rfl, fun _ => rfl, nofun⟩
  | [], b :: bytes, file => ⟨rfl, nofun, fun _ => ⟨by rw [writeLoop]; simp, rfl⟩⟩
  | .done 0 :: rs, b :: bytes, file => ⟨rfl, nofun, nofun⟩
  | .done (n + 1) :: rs, b :: bytes, file => by
    have h := writeLoop_bytes rs ((b :: bytes).drop (n + 1)) (file ++ (b :: bytes).take (n + 1))
    rw [List.append_assoc, List.take_append_drop] at h
    exact h
  | .interrupted :: rs, b :: bytes, file => writeLoop_bytes rs (b :: bytes) file
  | .failed :: rs, b :: bytes, file => ⟨rfl, nofun, nofun⟩

theorem writeLoop_left : ∀ rs bytes file, (writeLoop rs bytes file).2.1.length ≤ bytes.length
  | rs, [], file => by
    cases rs with
    | nil => exact le_rfl
    | cons r rs => cases r with
      | done n => cases n <;> exact le_rfl
      | interrupted => exact le_rfl
      | failed => exact le_rfl
  | [], b :: bytes, file => le_rfl
  | .done 0 :: rs, b :: bytes, file => le_rfl
  | .done (n + 1) :: rs, b :: bytes, file => by
    refine (writeLoop_left rs ((b :: bytes).drop (n + 1)) (file ++ (b :: bytes).take (n + 1))).trans ?_
    rw [List.length_drop]
    omega
  | .interrupted :: rs, b :: bytes, file => writeLoop_left rs (b :: bytes) file
  | .failed :: rs, b :: bytes, file => le_rfl

theorem writeLoop_good : ∀ rs bytes file, (∀ r ∈ rs, r.Good) → (writeLoop rs bytes file).1 ≠ .error ∧
    (∀ r ∈ (writeLoop rs bytes file).2.2.2, r.Good) ∧
    effective rs + file.length ≤ effective (writeLoop rs bytes file).2.2.2 + (writeLoop rs bytes file).2.2.1.length
  | rs, [], file, h => by
    have e : writeLoop rs [] file = (.ok, [], file, rs) := by
      cases rs with
      | nil => rfl
      | cons r rs => cases r with
        | done n => cases n <;> rfl
        | interrupted => rfl
        | failed => rfl
    rw [e]
    exact ⟨by simp, h, le_rfl⟩
  | [], b :: bytes, file, h => ⟨by rw [writeLoop]; simp, h, le_rfl⟩
  | .done 0 :: rs, b :: bytes, file, h => absurd (h _ List.mem_cons_self) (lt_irrefl 0)
  | .done (n + 1) :: rs, b :: bytes, file, h => by
    obtain ⟨h1, h2, h3⟩ := writeLoop_good rs ((b :: bytes).drop (n + 1)) (file ++ (b :: bytes).take (n + 1))
      fun r hr => h r (List.mem_cons_of_mem _ hr)
    refine ⟨h1, h2, le_trans ?_ h3⟩
    rw [effective_cons_done, List.length_append, List.length_take, List.length_cons]
    omega
  | .interrupted :: rs, b :: bytes, file, h => by
    rw [effective_cons_interrupted]
    exact writeLoop_good rs (b :: bytes) file fun r hr => h r (List.mem_cons_of_mem _ hr)
  | .failed :: rs, b :: bytes, file, h => absurd (h _ List.mem_cons_self) id

/-- All bytes that were given to the writer. -/
def Writer.all (w : Writer) : List UInt8 := w.file ++ w.buffer

theorem flush_bytes (w : Writer) : w.flush.2.all = w.all ∧ (w.flush.1 = .ok → w.flush.2.buffer = []) ∧
    (w.flush.1 = .killed → w.flush.2.buffer ≠ [] ∧ w.flush.2.responses = []) := writeLoop_bytes w.responses w.buffer w.file

theorem writeLoop_nil (rs : List Response) (file : List UInt8) : writeLoop rs [] file = (.ok, [], file, rs) := by
  cases rs with
  | nil => rfl
  | cons r rs => cases r with
    | done n => cases n <;> rfl
    | interrupted => rfl
    | failed => rfl

theorem makeRoom_bytes {capacity n : Nat} {w v : Writer} {s : Status} (h : w.makeRoom capacity n = (s, v)) : v.all = w.all ∧
    (s = .ok → capacity ≤ n → capacity - w.buffer.length ≤ n → v.buffer = [] ∨ n = 0) ∧
    (s = .killed → v.buffer ≠ [] ∧ v.responses = []) := by
  unfold Writer.makeRoom at h
  split_ifs at h with hn
  · obtain ⟨k1, k2, k3⟩ := flush_bytes w
    rw [h] at k1 k2 k3
    exact ⟨k1, fun hs _ _ => .inl (k2 hs), k3⟩
  · cases h
    refine ⟨rfl, fun _ h1 h2 => ?_, nofun⟩
    by_cases hc : n = 0
    · exact .inr hc
    · exact .inl (List.length_eq_zero_iff.1 (by omega))

/-- What the writer has been given is kept, in order; after an error or a kill the file has a part of it. -/
theorem writeAll_bytes (capacity : Nat) (w : Writer) (bytes : List UInt8) :
    ((w.writeAll capacity bytes).1 = .ok → (w.writeAll capacity bytes).2.all = w.all ++ bytes) ∧
    (w.writeAll capacity bytes).2.all <+: w.all ++ bytes ∧
    ((w.writeAll capacity bytes).1 = .killed → (w.writeAll capacity bytes).2.responses = [] ∧
      (w.writeAll capacity bytes).2.file.length < (w.all ++ bytes).length) := by
  unfold Writer.writeAll
  by_cases h1 : bytes.length < capacity - w.buffer.length
  · rw [if_pos h1]
    refine ⟨fun _ => (List.append_assoc _ _ _).symm, ?_, nofun⟩
    show w.file ++ (w.buffer ++ bytes) <+: w.file ++ w.buffer ++ bytes
    rw [List.append_assoc]
  rw [if_neg h1]
  rcases hr : w.makeRoom capacity bytes.length with ⟨s, v⟩
  obtain ⟨k1, k2, k3⟩ := makeRoom_bytes hr
  cases s with
  | ok =>
    dsimp only
    split_ifs with h3
    · obtain ⟨l1, l2, l3⟩ := writeLoop_bytes v.responses bytes v.file
      rcases k2 rfl h3 (Nat.le_of_not_lt h1) with hb | hb
      · have hv : v.all = v.file := by rw [Writer.all, hb, List.append_nil]
        rw [hb, ← k1, hv]
        refine ⟨fun h => ?_, ?_, fun h => ⟨(l3 h).2, ?_⟩⟩
        · show _ ++ [] = _
          rw [List.append_nil, ← l1, l2 h, List.append_nil]
        · show _ ++ [] <+: _
          rw [List.append_nil, ← l1]
          exact List.prefix_append _ _
        · have := List.length_pos_of_ne_nil (l3 h).1
          rw [← l1, List.length_append]
          dsimp only
          omega
      · rw [List.length_eq_zero_iff.1 hb, writeLoop_nil, List.append_nil]
        exact ⟨fun _ => k1, k1 ▸ List.prefix_refl _, nofun⟩
    · have : ({ v with buffer := v.buffer ++ bytes } : Writer).all = w.all ++ bytes := by
        rw [← k1]
        exact (List.append_assoc _ _ _).symm
      exact ⟨fun _ => this, by rw [this], nofun⟩
  | error => exact ⟨nofun, k1 ▸ List.prefix_append _ _, nofun⟩
  | killed =>
    refine ⟨nofun, k1 ▸ List.prefix_append _ _, fun _ => ⟨(k3 rfl).2, ?_⟩⟩
    have := List.length_pos_of_ne_nil (k3 rfl).1
    rw [← k1, Writer.all, List.length_append, List.length_append]
    dsimp only
    omega

theorem writePieces_bytes (capacity : Nat) : ∀ (l : List (List UInt8)) (w : Writer),
    ((w.writePieces capacity l).1 = .ok → (w.writePieces capacity l).2.all = w.all ++ l.flatten) ∧
    (w.writePieces capacity l).2.all <+: w.all ++ l.flatten ∧
    ((w.writePieces capacity l).1 = .killed → (w.writePieces capacity l).2.responses = [] ∧
      (w.writePieces capacity l).2.file.length < (w.all ++ l.flatten).length)
  | [], w => by
    refine ⟨fun _ => (List.append_nil _).symm, ?_, nofun⟩
    show w.all <+: w.all ++ []
    rw [List.append_nil]
  | x :: l, w => by
    obtain ⟨h1, h2, h3⟩ := writeAll_bytes capacity w x
    rw [Writer.writePieces, List.flatten_cons, ← List.append_assoc]
    split_ifs with h
    · refine ⟨fun h' => absurd h' h, h2.trans (List.prefix_append _ _), fun h' => ⟨(h3 h').1, ?_⟩⟩
      rw [List.length_append]
      exact (h3 h').2.trans_le (Nat.le_add_right _ _)
    · rw [not_not] at h
      have ih := writePieces_bytes capacity l (w.writeAll capacity x).2
      rw [h1 h] at ih
      exact ih

theorem writeAll_good {capacity : Nat} {w : Writer} (bytes : List UInt8) (h : ∀ r ∈ w.responses, r.Good) :
    (w.writeAll capacity bytes).1 ≠ .error ∧ (∀ r ∈ (w.writeAll capacity bytes).2.responses, r.Good) ∧
    effective w.responses + w.file.length ≤ effective (w.writeAll capacity bytes).2.responses + (w.writeAll capacity bytes).2.file.length := by
  have hf : w.flush.1 ≠ .error ∧ (∀ r ∈ w.flush.2.responses, r.Good) ∧
      effective w.responses + w.file.length ≤ effective w.flush.2.responses + w.flush.2.file.length := writeLoop_good w.responses w.buffer w.file h
  have hr : (w.makeRoom capacity bytes.length).1 ≠ .error ∧ (∀ r ∈ (w.makeRoom capacity bytes.length).2.responses, r.Good) ∧
      effective w.responses + w.file.length ≤ effective (w.makeRoom capacity bytes.length).2.responses + (w.makeRoom capacity bytes.length).2.file.length := by
    unfold Writer.makeRoom
    split_ifs
    · exact hf
    · exact ⟨by simp, h, le_rfl⟩
  unfold Writer.writeAll
  by_cases h1 : bytes.length < capacity - w.buffer.length
  · rw [if_pos h1]
    exact ⟨by simp, h, le_rfl⟩
  rw [if_neg h1]
  rcases e : w.makeRoom capacity bytes.length with ⟨s, v⟩
  rw [e] at hr
  obtain ⟨k1, k2, k3⟩ := hr
  cases s with
  | ok =>
    dsimp only
    split_ifs
    · obtain ⟨l1, l2, l3⟩ := writeLoop_good v.responses bytes v.file k2
      exact ⟨l1, l2, k3.trans l3⟩
    · exact ⟨by simp, k2, k3⟩
  | error => exact absurd rfl k1
  | killed => exact ⟨by simp, k2, k3⟩

theorem writePieces_good {capacity : Nat} : ∀ (l : List (List UInt8)) {w : Writer}, (∀ r ∈ w.responses, r.Good) →
    (w.writePieces capacity l).1 ≠ .error ∧ (∀ r ∈ (w.writePieces capacity l).2.responses, r.Good) ∧
    effective w.responses + w.file.length ≤ effective (w.writePieces capacity l).2.responses + (w.writePieces capacity l).2.file.length
  | [], w, h => ⟨by simp [Writer.writePieces], h, le_rfl⟩
  | x :: l, w, h => by
    obtain ⟨h1, h2, h3⟩ := writeAll_good (capacity := capacity) x h
    rw [Writer.writePieces]
    split_ifs with hs
    · exact ⟨h1, h2, h3⟩
    · obtain ⟨i1, i2, i3⟩ := writePieces_good l h2
      exact ⟨i1, i2, h3.trans i3⟩

/-- A file that was written contains a part of what should be written, from the beginning. -/
theorem writeFile_prefix (capacity : Nat) (l : List (List UInt8)) (rs : List Response) :
    (writeFile capacity l [] rs).2.1 <+: l.flatten := by
  obtain ⟨h1, h2, h3⟩ := writePieces_bytes capacity l ⟨[], [], rs⟩
  have e : (⟨[], [], rs⟩ : Writer).all = [] := rfl
  rw [e, List.nil_append] at h2
  unfold writeFile
  dsimp only
  split_ifs with h
  · exact (List.prefix_append _ _).trans h2
  all_goals
    rw [← (flush_bytes _).1] at h2
    exact (List.prefix_append _ _).trans h2

/-- Without errors, the file is complete unless the process is killed, and it is not if there are calls enough. -/
theorem writeFile_good (capacity : Nat) (l : List (List UInt8)) {rs : List Response} (h : ∀ r ∈ rs, r.Good) :
    (writeFile capacity l [] rs).1 ≠ .error ∧ ((writeFile capacity l [] rs).1 = .ok → (writeFile capacity l [] rs).2.1 = l.flatten) ∧
    (∀ r ∈ (writeFile capacity l [] rs).2.2, r.Good) ∧
    effective rs ≤ effective (writeFile capacity l [] rs).2.2 + (writeFile capacity l [] rs).2.1.length ∧
    ((writeFile capacity l [] rs).1 = .killed → effective rs < l.flatten.length) := by
  obtain ⟨h1, h2, h3⟩ := writePieces_bytes capacity l ⟨[], [], rs⟩
  have e : (⟨[], [], rs⟩ : Writer).all = [] := rfl
  rw [e, List.nil_append] at h1 h2 h3
  obtain ⟨g1, g2, g3⟩ := writePieces_good (capacity := capacity) l (w := ⟨[], [], rs⟩) h
  have g3' : effective rs ≤ _ := g3
  unfold writeFile
  dsimp only
  split_ifs with hk hd
  · refine ⟨by simp, nofun, g2, g3', fun _ => ?_⟩
    have := h3 hk
    rw [this.1] at g3'
    exact (g3'.trans_eq (Nat.zero_add _)).trans_lt this.2
  · obtain ⟨k1, k2, k3⟩ := flush_bytes (Writer.writePieces capacity ⟨[], [], rs⟩ l).2
    obtain ⟨f1, f2, f3⟩ := writeLoop_good _ (Writer.writePieces capacity ⟨[], [], rs⟩ l).2.buffer (Writer.writePieces capacity ⟨[], [], rs⟩ l).2.file g2
    refine ⟨by simp, nofun, f2, g3'.trans f3, fun _ => ?_⟩
    have hlt := List.length_pos_of_ne_nil (k3 hd).1
    have hle := h2.length_le
    rw [← k1, Writer.all, List.length_append] at hle
    have h4 := g3'.trans f3
    have h5 : effective (Writer.writePieces capacity ⟨[], [], rs⟩ l).2.flush.2.responses = 0 := by rw [(k3 hd).2]; rfl
    have h6 : effective rs ≤ effective (Writer.writePieces capacity ⟨[], [], rs⟩ l).2.flush.2.responses +
      (Writer.writePieces capacity ⟨[], [], rs⟩ l).2.flush.2.file.length := h4
    omega
  · obtain ⟨k1, k2, k3⟩ := flush_bytes (Writer.writePieces capacity ⟨[], [], rs⟩ l).2
    obtain ⟨f1, f2, f3⟩ := writeLoop_good _ (Writer.writePieces capacity ⟨[], [], rs⟩ l).2.buffer (Writer.writePieces capacity ⟨[], [], rs⟩ l).2.file g2
    refine ⟨g1, fun hok => ?_, f2, g3'.trans f3, fun h => absurd h hk⟩
    have hf : (Writer.writePieces capacity ⟨[], [], rs⟩ l).2.flush.1 = .ok := by
      cases hs : (Writer.writePieces capacity ⟨[], [], rs⟩ l).2.flush.1 with
      | ok => rfl
      | error => exact absurd hs f1
      | killed => exact absurd hs hd
    rw [← h1 hok, ← k1, Writer.all, k2 hf, List.append_nil]

/-! ### The buffer is never fuller than its capacity -/

theorem writeAll_buffer {capacity : Nat} {w : Writer} {bytes : List UInt8} (hw : w.buffer.length ≤ capacity)
    (h : (w.writeAll capacity bytes).1 = .ok) : (w.writeAll capacity bytes).2.buffer.length ≤ capacity := by
  unfold Writer.writeAll at h ⊢
  by_cases h1 : bytes.length < capacity - w.buffer.length
  · rw [if_pos h1]
    show (w.buffer ++ bytes).length ≤ capacity
    rw [List.length_append]
    omega
  rw [if_neg h1] at h ⊢
  rcases hr : w.makeRoom capacity bytes.length with ⟨s, v⟩
  rw [hr] at h
  have hv : s = .ok → v.buffer.length ≤ capacity ∧ (bytes.length < capacity → v.buffer.length + bytes.length ≤ capacity) := by
    intro hs
    unfold Writer.makeRoom at hr
    split_ifs at hr with hn
    · have k2 := (flush_bytes w).2.1
      rw [hr] at k2
      rw [k2 hs, List.length_nil]
      omega
    · cases hr
      omega
  cases s with
  | ok =>
    dsimp only at h ⊢
    split_ifs at h ⊢ with h3
    · exact (hv rfl).1
    · show (v.buffer ++ bytes).length ≤ capacity
      rw [List.length_append]
      exact (hv rfl).2 (Nat.lt_of_not_le h3)
  | error => cases h
  | killed => cases h

theorem writePieces_buffer {capacity : Nat} : ∀ (l : List (List UInt8)) {w : Writer}, w.buffer.length ≤ capacity →
    (w.writePieces capacity l).1 = .ok → (w.writePieces capacity l).2.buffer.length ≤ capacity
  | [], w, hw, _ => hw
  | x :: l, w, hw, h => by
    rw [Writer.writePieces] at h ⊢
    split_ifs at h ⊢ with hs
    · exact absurd h hs
    · rw [not_not] at hs
      exact writePieces_buffer l (writeAll_buffer hw hs) h

/-- What is missing when writing a file returns without an error was in the buffer at its end. -/
theorem writeFile_missing {capacity : Nat} {l : List (List UInt8)} {rs : List Response} (h : (writeFile capacity l [] rs).1 = .ok) :
    l.flatten.length ≤ (writeFile capacity l [] rs).2.1.length + capacity := by
  obtain ⟨h1, -, -⟩ := writePieces_bytes capacity l ⟨[], [], rs⟩
  have hb := writePieces_buffer (capacity := capacity) l (w := ⟨[], [], rs⟩) (Nat.zero_le _)
  unfold writeFile at h ⊢
  dsimp only at h ⊢
  split_ifs at h ⊢ with hk hd
  have e := h1 h
  have k := (flush_bytes (Writer.writePieces capacity ⟨[], [], rs⟩ l).2).1
  have hbuf := hb h
  have e' : (⟨[], [], rs⟩ : Writer).all ++ l.flatten = l.flatten := rfl
  rw [e'] at e
  have hle : (Writer.writePieces capacity ⟨[], [], rs⟩ l).2.flush.2.buffer.length ≤ (Writer.writePieces capacity ⟨[], [], rs⟩ l).2.buffer.length :=
    writeLoop_left _ _ _
  show l.flatten.length ≤ (Writer.writePieces capacity ⟨[], [], rs⟩ l).2.flush.2.file.length + capacity
  rw [← e, ← k, Writer.all, List.length_append]
  omega

/-! ### Creating files -/

theorem createFile_cases : ∀ rs file, (∃ rs', createFile rs file = (.ok, some [], rs')) ∨ (∃ rs', createFile rs file = (.error, file, rs')) ∨
    createFile rs file = (.killed, file, [])
  | [], _ => .inr (.inr rfl)
  | .done _ :: rs, _ => .inl ⟨rs, rfl⟩
  | .interrupted :: rs, file => createFile_cases rs file
  | .failed :: rs, _ => .inr (.inl ⟨rs, rfl⟩)

theorem createFile_good : ∀ rs file, (∀ r ∈ rs, r.Good) →
    (∃ rs', createFile rs file = (.ok, some [], rs') ∧ (∀ r ∈ rs', r.Good) ∧ effective rs = effective rs' + 1) ∨
    createFile rs file = (.killed, file, []) ∧ effective rs = 0
  | [], _, _ => .inr ⟨rfl, rfl⟩
  | .done n :: rs, _, h => .inl ⟨rs, rfl, fun r hr => h r (List.mem_cons_of_mem _ hr), effective_cons_done n rs⟩
  | .interrupted :: rs, file, h => by
    rw [effective_cons_interrupted]
    exact createFile_good rs file fun r hr => h r (List.mem_cons_of_mem _ hr)
  | .failed :: rs, _, h => absurd (h _ List.mem_cons_self) id

/-! ### A run in which only the last write fails -/

theorem writeAll_run {capacity N : Nat} (hN : capacity ≤ N) {x buffer : List UInt8} (file : List UInt8) (hx : x.length < capacity)
    (hb : buffer.length ≤ capacity) : ∃ k buffer' file', (∀ rest, (⟨buffer, file, List.replicate k (.done N) ++ rest⟩ : Writer).writeAll capacity x =
      (.ok, ⟨buffer', file', rest⟩)) ∧ (buffer ++ x ≠ [] → buffer' ≠ []) ∧ buffer'.length ≤ capacity := by
  by_cases h1 : x.length < capacity - buffer.length
  · refine ⟨0, buffer ++ x, file, fun rest => ?_, id, ?_⟩
    · unfold Writer.writeAll
      dsimp only
      rw [if_pos h1]
      rfl
    · rw [List.length_append]
      omega
  · by_cases h2 : x.length > capacity - buffer.length
    · refine ⟨1, x, file ++ buffer, fun rest => ?_, fun _ hx0 => ?_, hx.le⟩
      · unfold Writer.writeAll
        dsimp only
        rw [if_neg h1]
        have hr : (⟨buffer, file, List.replicate 1 (.done N) ++ rest⟩ : Writer).makeRoom capacity x.length = (.ok, ⟨[], file ++ buffer, rest⟩) := by
          unfold Writer.makeRoom
          dsimp only
          rw [if_pos h2]
          cases buffer with
          | nil =>
            rw [List.length_nil] at h2
            omega
          | cons b buffer =>
            obtain ⟨n, rfl⟩ : ∃ n, N = n + 1 := ⟨N - 1, by omega⟩
            have e : writeLoop (.done (n + 1) :: rest) (b :: buffer) file = (.ok, [], file ++ b :: buffer, rest) := by
              rw [writeLoop, List.drop_eq_nil_of_le (by omega), List.take_of_length_le (by omega), writeLoop_nil]
            unfold Writer.flush
            dsimp only
            rw [List.replicate_one, List.singleton_append, e]
        rw [hr]
        dsimp only
        rw [if_neg (by omega)]
        rfl
      · rw [hx0, List.length_nil] at h2
        omega
    · refine ⟨0, buffer ++ x, file, fun rest => ?_, id, ?_⟩
      · unfold Writer.writeAll Writer.makeRoom
        dsimp only
        rw [if_neg h1, if_neg h2]
        dsimp only
        rw [if_neg (by omega)]
        rfl
      · rw [List.length_append]
        omega

theorem writePieces_run {capacity N : Nat} (hN : capacity ≤ N) : ∀ (l : List (List UInt8)) (buffer file : List UInt8), (∀ x ∈ l, x.length < capacity) →
    buffer.length ≤ capacity → ∃ k buffer' file', (∀ rest, (⟨buffer, file, List.replicate k (.done N) ++ rest⟩ : Writer).writePieces capacity l =
      (.ok, ⟨buffer', file', rest⟩)) ∧ (buffer ++ l.flatten ≠ [] → buffer' ≠ [])
  | [], buffer, file, _, _ => ⟨0, buffer, file, fun _ => rfl, fun h => by simpa using h⟩
  | x :: l, buffer, file, h, hb => by
    obtain ⟨k, b1, f1, h1, h2, h3⟩ := writeAll_run hN file (h x List.mem_cons_self) hb
    obtain ⟨k', b2, f2, h4, h5⟩ := writePieces_run hN l b1 f1 (fun y hy => h y (List.mem_cons_of_mem _ hy)) h3
    refine ⟨k + k', b2, f2, fun rest => ?_, fun hne => h5 fun hn => ?_⟩
    · rw [Writer.writePieces, List.replicate_add, List.append_assoc, h1]
      dsimp only
      rw [if_neg (by simp), h4]
    · rw [List.append_eq_nil_iff] at hn
      rw [List.flatten_cons, ← List.append_assoc, hn.2, List.append_nil] at hne
      exact h2 hne hn.1

/-- The file can be written except for its end, and the program does not notice. -/
theorem writeFile_silent {capacity : Nat} {l : List (List UInt8)} (hl : ∀ x ∈ l, x.length < capacity) (hne : l.flatten ≠ []) :
    ∃ k a, a <+: l.flatten ∧ a ≠ l.flatten ∧ ∀ rest, writeFile capacity l [] (List.replicate k (.done capacity) ++ .failed :: rest) = (.ok, a, rest) := by
  obtain ⟨k, b, f, h1, h2⟩ := writePieces_run (le_refl capacity) l [] [] hl (Nat.zero_le _)
  have hb := h2 (by rwa [List.nil_append])
  have hall := (writePieces_bytes capacity l ⟨[], [], List.replicate k (.done capacity) ++ [.failed]⟩).1
  rw [h1] at hall
  have hfb : f ++ b = l.flatten := hall rfl
  have hw : ∀ rest, writeFile capacity l [] (List.replicate k (.done capacity) ++ .failed :: rest) = (.ok, f, rest) := by
    intro rest
    unfold writeFile
    rw [h1]
    dsimp only
    rw [if_neg (by simp)]
    cases b with
    | nil => exact absurd rfl hb
    | cons c b => rfl
  refine ⟨k, f, hfb ▸ List.prefix_append _ _, fun e => ?_, hw⟩
  have := congrArg List.length (hfb.trans e.symm)
  rw [List.length_append] at this
  exact hb (List.length_eq_zero_iff.1 (by omega))

end Poseidon.Groth16
