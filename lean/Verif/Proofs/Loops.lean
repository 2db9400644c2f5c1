import Verif.Model.Basic
import Mathlib.Tactic.Ring
import Mathlib.Tactic.Linarith

/-! # Lemmas about the loop and array primitives -/

namespace Poseidon

variable {σ τ α : Type _}

@[simp] theorem ok_bind {β : Type _} (a : σ) (f : σ → R β) : ((Except.ok a : R σ) >>= f) = f a := rfl
@[simp] theorem pure_eq_ok (a : σ) : (pure a : R σ) = Except.ok a := rfl
@[simp] theorem error_bind {β : Type _} (e : Panic) (f : σ → R β) :
    ((Except.error e : R σ) >>= f) = Except.error e := rfl
@[simp] theorem map_ok (f : σ → τ) (a : σ) : f <$> (Except.ok a : R σ) = Except.ok (f a) := rfl
@[simp] theorem map_error (f : σ → τ) (e : Panic) : f <$> (Except.error e : R σ) = Except.error e := rfl

theorem loopN_spec (Inv : Nat → σ → Prop) (body : Nat → σ → R σ) :
    ∀ (n i : Nat) (s : σ), Inv i s →
      (∀ j s, i ≤ j → j < i + n → Inv j s → ∃ s', body j s = .ok s' ∧ Inv (j + 1) s') →
      ∃ s', loopN body n i s = .ok s' ∧ Inv (i + n) s' := by
  intro n
  induction n with
  | zero => intro i s h _; exact ⟨s, rfl, h⟩
  | succ n ih =>
    intro i s h step
    obtain ⟨s1, h1, h1'⟩ := step i s le_rfl (by omega) h
    obtain ⟨s2, h2, h2'⟩ := ih (i + 1) s1 h1' (fun j s hj hj' => step j s (by omega) (by omega))
    refine ⟨s2, ?_, by rwa [show i + (n + 1) = i + 1 + n by omega]⟩
    rw [loopN, h1]; exact h2

/-- Invariant rule for loops that never panic. -/
theorem forRange_spec (Inv : Nat → σ → Prop) {body : Nat → σ → R σ} {lo hi : Nat} (hle : lo ≤ hi)
    {s : σ} (h0 : Inv lo s)
    (step : ∀ i s, lo ≤ i → i < hi → Inv i s → ∃ s', body i s = .ok s' ∧ Inv (i + 1) s') :
    ∃ s', forRange lo hi s body = .ok s' ∧ Inv hi s' := by
  have := loopN_spec Inv body (hi - lo) lo s h0 (fun j s h1 h2 => step j s h1 (by omega))
  rwa [show lo + (hi - lo) = hi by omega] at this

theorem forRange_self (lo : Nat) (s : σ) (body : Nat → σ → R σ) : forRange lo lo s body = .ok s := by
  simp [forRange, loopN]

theorem forRange_zero_succ (n : Nat) (s : σ) (body : Nat → σ → R σ) :
    forRange 0 (n + 1) s body = body 0 s >>= fun s => forRange 1 (n + 1) s body := by
  simp only [forRange, Nat.sub_zero, Nat.add_sub_cancel, loopN]

theorem loopN_add (body : Nat → σ → R σ) : ∀ (m n i : Nat) (s : σ),
    loopN body (m + n) i s = loopN body m i s >>= loopN body n (i + m) := by
  intro m
  induction m with
  | zero => intro n i s; simp [loopN]
  | succ m ih =>
    intro n i s
    rw [show m + 1 + n = (m + n) + 1 by omega, loopN, loopN]
    cases hb : body i s with
    | error e => rfl
    | ok s1 =>
      show loopN body (m + n) (i + 1) s1 = loopN body m (i + 1) s1 >>= _
      rw [ih, show i + 1 + m = i + (m + 1) by omega]

theorem forRange_succ {lo hi : Nat} (hle : lo ≤ hi) (s : σ) (body : Nat → σ → R σ) :
    forRange lo (hi + 1) s body = forRange lo hi s body >>= body hi := by
  rw [forRange, show hi + 1 - lo = (hi - lo) + 1 by omega, loopN_add, forRange,
    show lo + (hi - lo) = hi by omega]
  congr 1
  funext s
  simp only [loopN]
  cases body hi s <;> rfl

theorem loopN_map (f : τ → σ) (body : Nat → σ → R σ) (step : Nat → τ → R τ) :
    ∀ (n i : Nat) (x : τ),
      (∀ j x, i ≤ j → j < i + n → body j (f x) = f <$> step j x) →
      loopN body n i (f x) = f <$> loopN step n i x := by
  intro n
  induction n with
  | zero => intro i x _; rfl
  | succ n ih =>
    intro i x h
    rw [loopN, loopN, h i x le_rfl (by omega)]
    cases step i x with
    | error e => rfl
    | ok y =>
      show loopN body n (i + 1) (f y) = f <$> loopN step n (i + 1) y
      exact ih _ _ (fun j x h1 h2 => h j x (by omega) (by omega))

/-- A loop on representations simulates the loop on represented values (including panics). -/
theorem forRange_map (f : τ → σ) {body : Nat → σ → R σ} {step : Nat → τ → R τ} {lo hi : Nat} (x : τ)
    (h : ∀ j x, lo ≤ j → j < hi → body j (f x) = f <$> step j x) :
    forRange lo hi (f x) body = f <$> forRange lo hi x step :=
  loopN_map f body step _ _ _ (fun j x h1 h2 => h j x h1 (by omega))

theorem loopN_congr {b1 b2 : Nat → σ → R σ} : ∀ (n i : Nat) (s : σ),
    (∀ j s, i ≤ j → j < i + n → b1 j s = b2 j s) → loopN b1 n i s = loopN b2 n i s := by
  intro n
  induction n with
  | zero => intros; rfl
  | succ n ih =>
    intro i s h
    rw [loopN, loopN, h i s le_rfl (by omega)]
    cases b2 i s with
    | error e => rfl
    | ok y => exact ih _ _ (fun j x h1 h2 => h j x (by omega) (by omega))

theorem forRange_congr {b1 b2 : Nat → σ → R σ} {lo hi : Nat} {s : σ}
    (h : ∀ j s, lo ≤ j → j < hi → b1 j s = b2 j s) : forRange lo hi s b1 = forRange lo hi s b2 :=
  loopN_congr _ _ _ (fun j s h1 h2 => h j s h1 (by omega))

/-- Invariant rule for `for x in list`. -/
theorem forList_spec (Inv : Nat → σ → Prop) {body : α → σ → R σ} :
    ∀ (l : List α) (k : Nat) (s : σ), Inv k s →
      (∀ (j : Nat) (hj : j < l.length) s, Inv (k + j) s → ∃ s', body l[j] s = .ok s' ∧ Inv (k + j + 1) s') →
      ∃ s', forList l s body = .ok s' ∧ Inv (k + l.length) s' := by
  intro l
  induction l with
  | nil => intro k s h _; exact ⟨s, rfl, h⟩
  | cons x xs ih =>
    intro k s h step
    obtain ⟨s1, h1, h1'⟩ := step 0 (by simp) s h
    obtain ⟨s2, h2, h2'⟩ := ih (k + 1) s1 h1' (fun j hj s hs => by
      have := step (j + 1) (by simpa using hj) s (by rwa [show k + (j + 1) = k + 1 + j by omega])
      simpa [show k + (j + 1) = k + 1 + j by omega] using this)
    refine ⟨s2, ?_, by rwa [List.length_cons, show k + (xs.length + 1) = k + 1 + xs.length by omega]⟩
    have h1 : body x s = .ok s1 := h1
    rw [forList, h1]; exact h2

theorem aget_lt {n : Nat} (v : Vector α n) {i : Nat} (h : i < n) : aget v i = .ok v[i] := by
  simp [aget, h]

theorem aset_lt {n : Nat} (v : Vector α n) {i : Nat} (x : α) (h : i < n) :
    aset v i x = .ok (v.set i x h) := by
  simp [aset, h]

theorem aget_ge {n : Nat} (v : Vector α n) {i : Nat} (h : n ≤ i) : aget v i = .error .indexOOB := by
  simp [aget, Nat.not_lt.2 h]

theorem aset_ge {n : Nat} (v : Vector α n) {i : Nat} (x : α) (h : n ≤ i) :
    aset v i x = .error .indexOOB := by
  simp [aset, Nat.not_lt.2 h]

theorem lget_lt (l : List α) {i : Nat} (h : i < l.length) : lget l i = .ok l[i] := by
  simp [lget, h]

theorem lget_ge (l : List α) {i : Nat} (h : l.length ≤ i) : lget l i = .error .indexOOB := by
  simp [lget, h]

/-- The buffer `s.1` has been filled with `g 0, …, g (idx-1)` and `s.2` is the next index. -/
def Filled {n : Nat} (g : Nat → α) (idx : Nat) (s : Vector α n × Nat) : Prop :=
  s.2 = idx ∧ ∀ p (h : p < n), p < idx → s.1[p] = g p

theorem Filled.zero {n : Nat} (g : Nat → α) (v : Vector α n) : Filled g 0 (v, 0) :=
  ⟨rfl, fun _ _ h => by omega⟩

/-- One `buf[index] = x; index += 1`. -/
theorem Filled.step {n : Nat} {g : Nat → α} {idx : Nat} {s : Vector α n × Nat} (h : Filled g idx s)
    (hlt : idx < n) {x : α} (hx : x = g idx) :
    ∃ s', (do let els ← aset s.1 s.2 x; return (els, s.2 + 1) : R (Vector α n × Nat)) = .ok s' ∧
      Filled g (idx + 1) s' := by
  obtain ⟨h1, h2⟩ := h
  refine ⟨(s.1.set s.2 x (by omega), s.2 + 1), ?_, by simp [h1], ?_⟩
  · rw [aset_lt _ _ (by omega)]; rfl
  · intro p hp hp'
    show (s.1.set s.2 x (by omega))[p] = g p
    rw [Vector.getElem_set]
    split
    · next heq => rw [hx, ← h1, heq]
    · next hne => exact h2 p hp (by omega)

theorem Filled.full {n : Nat} {g : Nat → α} {idx : Nat} {s : Vector α n × Nat} (h : Filled g idx s)
    (hn : n ≤ idx) : s.1 = Vector.ofFn (fun p : Fin n => g p) := by
  ext p hp
  simp [h.2 p hp (by omega)]

/-- A loop that appends one value per iteration. -/
theorem forRange_fill {n : Nat} {g : Nat → α} {lo hi idx : Nat} {s : Vector α n × Nat}
    (hle : lo ≤ hi) (h : Filled g idx s) (hn : idx + (hi - lo) ≤ n) (v : Nat → R α)
    (hv : ∀ i, lo ≤ i → i < hi → v i = .ok (g (idx + (i - lo))))
    {body : Nat → Vector α n × Nat → R (Vector α n × Nat)}
    (hbody : ∀ i s, lo ≤ i → i < hi → body i s = (v i >>= fun x => do
      let els ← aset s.1 s.2 x; return (els, s.2 + 1))) :
    ∃ s', forRange lo hi s body = .ok s' ∧ Filled g (idx + (hi - lo)) s' := by
  apply forRange_spec (fun i s => Filled g (idx + (i - lo)) s) hle (by simpa using h)
  intro i s h1 h2 hf
  rw [hbody i s h1 h2, hv i h1 h2, ok_bind, show i + 1 - lo = (i - lo) + 1 by omega]
  exact hf.step (by omega) rfl

/-- The double loop `for i { for j { buf[index] = v i j; index += 1 } }` filling the whole buffer. -/
theorem forRange_fill2 {n ilo ihi jlo jhi : Nat} {g : Nat → α} {s : Vector α n × Nat} {idx : Nat}
    (hi : ilo ≤ ihi) (hj : jlo ≤ jhi) (h : Filled g idx s)
    (hn : idx + (ihi - ilo) * (jhi - jlo) ≤ n) (v : Nat → Nat → R α)
    (hv : ∀ i j, ilo ≤ i → i < ihi → jlo ≤ j → j < jhi →
      v i j = .ok (g (idx + (i - ilo) * (jhi - jlo) + (j - jlo))))
    {body : Nat → Nat → Vector α n × Nat → R (Vector α n × Nat)}
    (hbody : ∀ i j s, ilo ≤ i → i < ihi → jlo ≤ j → j < jhi →
      body i j s = (v i j >>= fun x => do let els ← aset s.1 s.2 x; return (els, s.2 + 1))) :
    ∃ s', forRange ilo ihi s (fun i s => forRange jlo jhi s (body i)) = .ok s' ∧
      Filled g (idx + (ihi - ilo) * (jhi - jlo)) s' := by
  apply forRange_spec (fun i s => Filled g (idx + (i - ilo) * (jhi - jlo)) s) hi (by simpa using h)
  intro i s h1 h2 hf
  have hw : idx + (i - ilo) * (jhi - jlo) + (jhi - jlo) ≤ idx + (ihi - ilo) * (jhi - jlo) := by
    have : (i - ilo + 1) * (jhi - jlo) ≤ (ihi - ilo) * (jhi - jlo) :=
      Nat.mul_le_mul_right _ (by omega)
    linarith [Nat.succ_mul (i - ilo) (jhi - jlo)]
  obtain ⟨s', hs', hf'⟩ := forRange_fill hj hf (by omega) (v i)
    (fun j h3 h4 => hv i j h1 h2 h3 h4) (fun j s h3 h4 => hbody i j s h1 h2 h3 h4)
  refine ⟨s', hs', ?_⟩
  rwa [show i + 1 - ilo = (i - ilo) + 1 by omega, Nat.succ_mul, ← Nat.add_assoc]

theorem fsum_eq_sum {F : Type _} [AddCommMonoid F] (l : List F) : fsum l = l.sum := by
  rw [fsum, List.sum_eq_foldl]

/-! ### `chunks` -/

theorem chunksAux_length {k : Nat} (hk : 0 < k) : ∀ (fuel : Nat) (l : List α) (m : Nat),
    l.length = m * k → m ≤ fuel → (chunksAux k fuel l).length = m := by
  intro fuel
  induction fuel with
  | zero => intro l m _ h2; simp [chunksAux]; omega
  | succ fuel ih =>
    intro l m h1 h2
    cases l with
    | nil =>
      have : m * k = 0 := by simpa using h1.symm
      have : m = 0 := by rcases Nat.mul_eq_zero.1 this with h | h <;> omega
      simp [chunksAux, this]
    | cons x xs =>
      cases m with
      | zero => simp at h1
      | succ m =>
        rw [chunksAux, List.length_cons, ih _ m _ (by omega)]
        rw [List.length_drop, h1, Nat.succ_mul]; omega

theorem chunksAux_get {k : Nat} (hk : 0 < k) : ∀ (fuel : Nat) (l : List α) (m : Nat),
    l.length = m * k → m ≤ fuel → ∀ i, i < m →
    (chunksAux k fuel l)[i]? = some ((l.drop (i * k)).take k) := by
  intro fuel
  induction fuel with
  | zero => intro l m _ h2 i hi; omega
  | succ fuel ih =>
    intro l m h1 h2 i hi
    cases l with
    | nil =>
      have : m * k = 0 := by simpa using h1.symm
      rcases Nat.mul_eq_zero.1 this with h | h <;> omega
    | cons x xs =>
      cases m with
      | zero => omega
      | succ m =>
        rw [chunksAux]
        cases i with
        | zero => simp
        | succ i =>
          rw [List.getElem?_cons_succ, ih _ m _ (by omega) i (by omega)]
          · rw [List.drop_drop, Nat.succ_mul, Nat.add_comm]
          · rw [List.length_drop, h1, Nat.succ_mul]; omega

/-- Rows of a well-formed row-major list. -/
theorem chunks_eq {k m : Nat} (hk : 0 < k) (l : List α) (hl : l.length = m * k) :
    chunks k l = .ok (List.ofFn fun i : Fin m => (l.drop (i * k)).take k) := by
  have hm : m ≤ l.length := by rw [hl]; exact Nat.le_mul_of_pos_right _ hk
  rw [chunks, if_neg (by omega)]
  congr 1
  apply List.ext_getElem?
  intro i
  by_cases hi : i < m
  · rw [chunksAux_get hk _ _ m hl hm i hi]; simp [hi]
  · have := chunksAux_length hk _ l m hl hm
    rw [List.getElem?_eq_none (by omega), List.getElem?_eq_none (by simpa using hi)]

end Poseidon
