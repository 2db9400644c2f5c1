import Verif.Proofs.GenBuild
import Verif.Props.GenerateV1

/-!
# Properties of the code generator (C44, C55)

`Spec/RustText.lean` has the reader that says what the text denotes.
-/

set_option linter.unusedSectionVars false

namespace Poseidon

open Spec

variable {p : Nat} [NeZero p]

/-! ## C44: the text denotes the parameters -/

/-- C44: numbers are written in decimal without superfluous zeros: they read back before any non-digit. -/
theorem C44_number (n : Nat) (rest : List Char) (h : ∀ c ∈ rest.head?, c.isDigit = false) :
    readNat (decimal n ++ rest) = some (n, rest) := readsNum_decimal n rest h

/-- C44: a field element reads back as itself, whatever follows. -/
theorem C44_element (x : ZMod p) (rest : List Char) : readField p (serializeF x ++ rest) = some (x, rest) :=
  reads_field x rest

/-- C44: a non-empty list reads back as the same elements in the same order. -/
theorem C44_list (l : List (ZMod p)) (hl : l ≠ []) (rest : List Char) :
    readVec (readField p) (serializeSliceF l ++ rest) = some (l, rest) := reads_slice l hl rest

/-- C44: a list of rows is written as one list, row after row. -/
theorem C44_rows (l : List (List (ZMod p))) (hl : l.flatten ≠ []) (rest : List Char) :
    readVec (readField p) (serializeSliceOfVecsF l ++ rest) = some (l.flatten, rest) := by
  rw [serializeSliceOfVecsF_eq]
  exact reads_slice _ hl rest

/-- Finding: for an empty list the text is malformed. -/
theorem C44_empty : serializeSliceF ([] : List (ZMod p)) = "vec]".toList ∧
    ∀ rest, readVec (readField p) (serializeSliceF ([] : List (ZMod p)) ++ rest) = none := by
  have e : serializeSliceF ([] : List (ZMod p)) = "vec]".toList := by
    unfold serializeSliceF
    simp
  refine ⟨e, fun rest => ?_⟩
  rw [e]
  unfold readVec
  rw [bind_apply]
  have : expect "vec![" ("vec]".toList ++ rest) = none := by
    unfold expect
    simp [expectL]
  rw [this]
  rfl

/-- C44: a whole parameter set reads back: security level, width, S-box, round numbers and all matrices with
their dimensions and elements. -/
theorem C44_params {t tm1 nmds nhat rows cols nround npart : Nat}
    (P : Params (ZMod p) t tm1 nmds nhat rows cols nround npart) (h1 : 0 < npart) (h2 : 0 < tm1) (h3 : 0 < nmds) (h4 : 0 < nhat)
    (h5 : nround = rows * cols) (h6 : 0 < nround) (h7 : 1 ≤ t) :
    ∃ text, displayParams P = .ok text ∧ ∀ rest, readParams p (text ++ rest) = some (paramsData P, rest) :=
  reads_params P h1 h2 h3 h4 h5 h6 h7

/-- C44: two parameter sets (of the same type) with the same text are equal. -/
theorem C44_injective {t tm1 nmds nhat rows cols nround npart : Nat}
    (P Q : Params (ZMod p) t tm1 nmds nhat rows cols nround npart) (h1 : 0 < npart) (h2 : 0 < tm1) (h3 : 0 < nmds) (h4 : 0 < nhat)
    (h5 : nround = rows * cols) (h6 : 0 < nround) (h7 : 1 ≤ t) (h : displayParams P = displayParams Q) : P = Q := by
  obtain ⟨s, hs, rs⟩ := reads_params P h1 h2 h3 h4 h5 h6 h7
  obtain ⟨s', hs', rs'⟩ := reads_params Q h1 h2 h3 h4 h5 h6 h7
  obtain rfl : s = s' := Except.ok.inj (hs.symm.trans (h.trans hs'))
  have e : paramsData P = paramsData Q := by
    have := (rs []).symm.trans (rs' [])
    injection this with this
    injection this
  have vec : ∀ {α : Type} {n : Nat} {a b : Vector α n}, a.toList = b.toList → a = b := fun h => Vector.toList_inj.1 h
  have mat : ∀ {r c n : Nat} {a b : Mat (ZMod p) r c n}, matData a = matData b → a = b := by
    intro r c n a b h
    unfold matData at h
    injection h with _ _ h
    cases a; cases b
    exact congrArg _ (vec h)
  have mats : ∀ {r c n k : Nat} {a b : Vector (Mat (ZMod p) r c n) k}, a.toList.map matData = b.toList.map matData → a = b := by
    intro r c n k a b h
    exact vec (List.map_injective_iff.2 (fun _ _ h => mat h) h)
  unfold paramsData at e
  injection e with _ e1 _ e2 e3 e4 e5 e6 e7 e8
  unfold optimizedData at e7
  injection e7 with o1 o2 o3 o4 o5 o6 o7 o8 o9 o10 o11
  obtain ⟨a1, a2, ⟨a3, a4⟩, ⟨a5⟩, a6, a7, ⟨b1, b2, b3, b4, b5, b6, b7, b8, b9, b10, b11⟩⟩ := P
  obtain ⟨c1, c2, ⟨c3, c4⟩, ⟨c5⟩, c6, c7, ⟨d1, d2, d3, d4, d5, d6, d7, d8, d9, d10, d11⟩⟩ := Q
  dsimp only at e1 e2 e3 e4 e5 e6 e8 o1 o2 o3 o4 o5 o6 o7 o8 o9 o10 o11
  rw [e1, mat e2, vec e3, e4, e5, e6, mat e8, mat o1, mat o2, mat o3, mat o4, mat o5, mat o6, mat o7, o8, mat o9, mats o10, mats o11]

/-- A parameter set whose text is well-formed. -/
structure AnyParams.Printable (P : AnyParams p) : Prop where
  part : 0 < P.npart
  width : 1 ≤ P.t
  minus1 : 0 < P.tm1
  mds : 0 < P.nmds
  hat : 0 < P.nhat
  arc : P.nround = P.rows * P.cols
  arc_pos : 0 < P.nround

/-- C44: the generated file reads back as exactly the generated parameter sets in the order of the widths asked for. -/
theorem C44_file (gen : Nat → R (AnyParams p)) (tValues : List Nat) (P : Nat → AnyParams p)
    (hgen : ∀ t ∈ tValues, gen t = .ok (P t)) (hP : ∀ t ∈ tValues, (P t).Printable) :
    ∃ text, v1Compile gen tValues = .ok text ∧
      readFile p text = some (tValues.map fun t => paramsData (P t).params) := by
  have key : ∀ (ts : List Nat), (∀ t ∈ ts, gen t = .ok (P t)) → (∀ t ∈ ts, (P t).Printable) → ∀ code : List Char,
      ∃ text, forList ts code (fun t code => do
        let P ← gen t
        let text ← displayParams P.params
        return code ++ text) = .ok (code ++ text) ∧ ts.length ≤ text.length ∧
        ∀ n, ts.length ≤ n → readAll p n text = some (ts.map fun t => paramsData (P t).params) := by
    intro ts
    induction ts with
    | nil =>
      intro _ _ code
      refine ⟨[], by rw [List.append_nil]; rfl, le_rfl, fun n _ => ?_⟩
      cases n <;> rfl
    | cons t ts ih =>
      intro hg hp code
      have hpt := hp t (by simp)
      obtain ⟨s, hs, rs⟩ := reads_params (P t).params hpt.part hpt.minus1 hpt.mds hpt.hat hpt.arc hpt.arc_pos hpt.width
      obtain ⟨text, e1, e2, e3⟩ := ih (fun t h => hg t (by simp [h])) (fun t h => hp t (by simp [h])) (code ++ s)
      have hne : s ≠ [] := by
        rintro rfl
        have := rs []
        rw [List.append_nil] at this
        unfold readParams at this
        rw [bind_apply] at this
        have h0 : expect "/// Parameters for the rate-" [] = none := by
          unfold expect
          simp [expectL]
        rw [h0] at this
        cases this
      have hlen : 1 ≤ s.length := List.length_pos_iff.2 hne
      refine ⟨s ++ text, ?_, ?_, ?_⟩
      · rw [forList, hg t (by simp), ok_bind, hs, ok_bind]
        refine Eq.trans e1 ?_
        rw [List.append_assoc]
      · rw [List.length_cons, List.length_append]; omega
      · intro n hn
        obtain ⟨n, rfl⟩ : ∃ m, n = m + 1 := ⟨n - 1, by rw [List.length_cons] at hn; omega⟩
        cases h : s ++ text with
        | nil => exact absurd (List.append_eq_nil_iff.1 h).1 hne
        | cons c cs =>
          unfold readAll
          rw [← h]
          have := rs text
          rw [this]
          have h3 := e3 n (by simpa using hn)
          show (readAll p n text >>= fun Ps => pure (paramsData (P t).params :: Ps)) = _
          rw [h3]
          rfl
  unfold v1Compile readFile
  obtain ⟨text, e1, e2, e3⟩ := key tValues hgen hP _
  refine ⟨_, e1, ?_⟩
  have := reads_expect "use ark_ff::PrimeField;\n\nuse poseidon_parameters::v1::{Alpha, ArcMatrix, RoundNumbers, SquareMatrix, Matrix, MdsMatrix, OptimizedArcMatrix, OptimizedMdsMatrices, PoseidonParameters, MatrixOperations};\n\n" text
  rw [this]
  exact e3 _ e2

/-- C44: what `v1::generate` returns over a prime field is always printable and reads back. -/
theorem C44_generated {p : Nat} [Fact p.Prime] {k nmds nhat rows nround npart : Nat} (L : Libm) (hL : L.Accurate)
    (hl2 : L.log2 2 = 1) (debug : Bool) (nlimbs : Nat) (hn : nlimbs < 2 ^ 28) (hp : numBits p < 2 ^ 32) (security : Nat)
    (allow : Bool) (hm : nmds = (k + 1) * (k + 1)) (hh : nhat = k * k) (ha : nround = rows * (k + 1))
    (P : Params (ZMod p) (k + 1) k nmds nhat rows (k + 1) nround npart)
    (h : v1Generate L debug (ZMod p) nlimbs k nmds nhat rows nround npart security p allow = .ok P) :
    ∃ text, displayParams P = .ok text ∧ ∀ rest, readParams p (text ++ rest) = some (paramsData P, rest) := by
  obtain r := v1Generate_result hL hl2 debug hn hp hm hh ha h
  have hk : 1 ≤ k := by have := r.width.1; omega
  have hr : 1 ≤ rows := by
    have h1 := r.rows_eq
    have h2 := r.part
    rw [h1]
    show 1 ≤ P.rounds.rP + P.rounds.rF
    omega
  refine reads_params P ?_ hk ?_ ?_ ha ?_ (by omega)
  · rw [r.npart_eq]; exact r.part
  · rw [hm]; positivity
  · rw [hh]; positivity
  · rw [ha]; positivity

/-- C44: the text of each shipped parameter set reads back as it. -/
theorem C44_shipped (i : Fin 7) : ∃ text, displayParams (shippedParams i) = .ok text ∧
    ∀ rest, readParams q (text ++ rest) = some (paramsData (shippedParams i), rest) := by
  have : NeZero q := ⟨by decide +kernel⟩
  exact reads_params (shippedParams i) (by norm_num) (by omega) (by positivity) (by positivity) rfl (by positivity) (by omega)

/-- Non-vacuity of `C44_file`: the file with the shipped parameters of rates 1 to 7. -/
example : ∃ text, v1Compile (p := q) (fun t => if h : t - 2 < 7 then .ok ⟨shippedParams ⟨t - 2, h⟩⟩ else .error .explicit)
    [2, 3, 4, 5, 6, 7, 8] = .ok text ∧
    readFile q text = some ([2, 3, 4, 5, 6, 7, 8].map fun t => paramsData (shippedParams (Fin.ofNat 7 (t - 2)))) := by
  have : NeZero q := ⟨by decide +kernel⟩
  refine C44_file _ _ (fun t => ⟨shippedParams (Fin.ofNat 7 (t - 2))⟩) ?_ ?_
  · intro t ht
    simp only [List.mem_cons, List.not_mem_nil, or_false] at ht
    rcases ht with rfl | rfl | rfl | rfl | rfl | rfl | rfl <;> rfl
  · intro t _
    exact ⟨by norm_num, by simp, by simp, by positivity, by positivity, rfl, by positivity⟩

/-! ## C55: no Poseidon2 code is ever generated -/

/-- C55: `v2_compile` panics for every non-empty list of widths, whatever the parameter generation does, -/
theorem C55_v2_compile {α : Type} (gen : Nat → R α) (t : Nat) (ts : List Nat) :
    ∃ e, v2Compile gen (t :: ts) = .error e := by
  unfold v2Compile
  rw [forList]
  cases gen t with
  | error e => exact ⟨e, rfl⟩
  | ok x => exact ⟨_, rfl⟩

/-- C55: with `todo!()` where generation succeeded, e.g. for the curve's field and widths 2, 3. -/
theorem C55_todo {α : Type} (gen : Nat → R α) (t : Nat) (ts : List Nat) (x : α) (h : gen t = .ok x) :
    v2Compile gen (t :: ts) = .error .unimplemented := by
  unfold v2Compile
  rw [forList, h]
  rfl

/-- C55: without widths the text is the two `use` lines only. -/
theorem C55_empty {α : Type} (gen : Nat → R α) : v2Compile gen [] =
    .ok "use ark_ff::PrimeField;\n\nuse poseidon_parameters::v2::{Alpha, ArcMatrix, RoundNumbers, SquareMatrix, Matrix, PoseidonParameters, MatrixOperations};\n\n".toList := rfl

end Poseidon
