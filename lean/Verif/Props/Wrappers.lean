import Verif.Spec.Wrappers
import Verif.Proofs.Matrix
import Mathlib.Data.ZMod.Basic
import Mathlib.Algebra.Field.ZMod

/-!
# C93: the five matrix types behave alike, and like two-dimensional arrays
-/

namespace Poseidon

open Spec

variable {F : Type} [Field F] [DecidableEq F] {r c n : Nat}

/-! ### Lemmas -/

omit [Field F] [DecidableEq F] in
theorem flat_elements (h : n = r * c) (A : Table F r c) : (Mat.ofM h (Matrix.of A)).elements.toList = A.flat := by
  subst h
  rw [Mat.ofM, Vector.toList_ofFn, List.ofFn_mul, Table.flat, Table.rows]
  congr 2
  funext i
  congr 1
  funext j
  have hj := j.isLt
  simp only [Matrix.of_apply]
  congr 1
  · ext; simp [Nat.div_eq_of_lt hj, Nat.mul_add_div (show 0 < c by omega), Nat.mul_comm i.val c]
  · ext; simp [Nat.mod_eq_of_lt hj, Nat.mul_comm i.val c]

theorem new_flat (h : n = r * c) (A : Table F r c) : Mat.new r c n A.flat = .ok (Mat.ofM h (Matrix.of A)) :=
  Mat.new_list h _ _ (flat_elements h A).symm

/-- One call on a `Matrix` that holds the array `A`. -/
theorem exec_table (hc : 0 < c) (h : n = r * c) (A : Table F r c) (call : TableCall F r c) :
    call.toCall.exec (Mat.ofM h (Matrix.of A)) = .ok (A.answer call, Mat.ofM h (Matrix.of (A.after call))) := by
  cases call with
  | elements =>
    change Except.ok _ = _
    rw [show MatrixOperations.elements (Mat.ofM h (Matrix.of A)) = A.flat from flat_elements h A]; rfl
  | get i j =>
    change (do let x ← (Mat.ofM h (Matrix.of A)).get i j; return (MatrixAnswer.value x, _)) = _
    rw [Mat.get_eq h _ i.isLt j.isLt, Mat.toM_ofM]; rfl
  | set i j x =>
    change (do let m' ← (Mat.ofM h (Matrix.of A)).set i j x; return (MatrixAnswer.unit, m')) = _
    rw [Mat.set_eq h _ i.isLt j.isLt, Mat.toM_ofM]
    simp only [ok_bind, pure_eq_ok, Table.answer, Table.after]
    congr 4
    funext a b
    rcases eq_or_ne a i with rfl | ha
    · rcases eq_or_ne b j with rfl | hb
      · simp
      · simp [hb]
    · simp [ha]
  | iterRows =>
    change (do let l ← (Mat.ofM h (Matrix.of A)).iterRows; return (MatrixAnswer.rows l, _)) = _
    rw [iterRows_eq hc h, Mat.toM_ofM]; rfl
  | nRows => rfl
  | nCols => rfl
  | hadamard B =>
    have hp : (MatrixOperations.hadamardProduct (Mat.ofM h (Matrix.of A)) (Mat.ofM h (Matrix.of B)) :
        R (Except ParamError (Mat F r c n))) = .ok (.ok (Mat.ofM h (Matrix.of fun i j => A i j * B i j))) := by
      change (do let x ← (Mat.ofM h (Matrix.of A)).hadamard (Mat.ofM h (Matrix.of B)); return Except.ok x) = _
      rw [hadamard_eq h, Mat.toM_ofM, Mat.toM_ofM]; rfl
    simp only [TableCall.toCall, MatrixCall.exec]
    rw [show (MatrixOperations.new B.flat : R (Mat F r c n)) = _ from new_flat h B, ok_bind, hp]
    rfl

/-- If the methods of `M` and `N` agree up to `f`, so does every sequence of calls. -/
structure MatrixAgree (M N : Type) [MatrixOperations F M] [MatrixOperations F N] (f : M → N) : Prop where
  new (els : List F) : (MatrixOperations.new els : R N) = f <$> (MatrixOperations.new els : R M)
  elements (m : M) : MatrixOperations.elements (f m) = MatrixOperations.elements m
  get (m : M) (i j : Nat) : MatrixOperations.getElement (f m) i j = MatrixOperations.getElement m i j
  set (m : M) (i j : Nat) (x : F) : MatrixOperations.setElement (f m) i j x = f <$> MatrixOperations.setElement m i j x
  nRows (m : M) : MatrixOperations.nRows (f m) = MatrixOperations.nRows m
  nCols (m : M) : MatrixOperations.nCols (f m) = MatrixOperations.nCols m
  hadamard (m m' : M) : MatrixOperations.hadamardProduct (f m) (f m') =
    (fun x : Except ParamError M => f <$> x) <$> MatrixOperations.hadamardProduct m m'

section
variable {M N : Type} [MatrixOperations F M] [MatrixOperations F N] {f : M → N}

omit [Field F] [DecidableEq F] in
theorem MatrixAgree.exec (h : MatrixAgree M N f) (m : M) (call : MatrixCall F) :
    call.exec (f m) = (fun p : MatrixAnswer F × M => (p.1, f p.2)) <$> call.exec m := by
  cases call with
  | elements => simp only [MatrixCall.exec, h.elements]; rfl
  | get i j => simp only [MatrixCall.exec, h.get]; cases MatrixOperations.getElement m i j <;> rfl
  | set i j x => simp only [MatrixCall.exec, h.set]; cases MatrixOperations.setElement m i j x <;> rfl
  | iterRows =>
    simp only [MatrixCall.exec, MatrixOperations.iterRows, h.elements, h.nCols]
    cases chunks (MatrixOperations.nCols m) (MatrixOperations.elements m) <;> rfl
  | nRows => simp only [MatrixCall.exec, h.nRows]; rfl
  | nCols => simp only [MatrixCall.exec, h.nCols]; rfl
  | hadamard els =>
    simp only [MatrixCall.exec, h.new]
    cases (MatrixOperations.new els : R M) with
    | error e => rfl
    | ok rhs =>
      simp only [map_ok, ok_bind, h.hadamard]
      cases MatrixOperations.hadamardProduct m rhs with
      | error e => rfl
      | ok x => cases x <;> rfl

omit [Field F] [DecidableEq F] in
theorem MatrixAgree.execAll (h : MatrixAgree M N f) (calls : List (MatrixCall F)) (m : M) :
    MatrixCall.execAll (f m) calls = MatrixCall.execAll m calls := by
  induction calls generalizing m with
  | nil => rfl
  | cons call calls ih =>
    rw [MatrixCall.execAll, MatrixCall.execAll, h.exec]
    cases call.exec m with
    | error e => rfl
    | ok p => simp only [map_ok, ih]

omit [Field F] [DecidableEq F] in
theorem MatrixAgree.session (h : MatrixAgree M N f) (els : List F) (calls : List (MatrixCall F)) :
    matrixSession N els calls = matrixSession M els calls := by
  rw [matrixSession, matrixSession, h.new]
  cases (MatrixOperations.new els : R M) with
  | error e => rfl
  | ok m => exact h.execAll calls m
end

omit [DecidableEq F] in
theorem agree_square (k n : Nat) : MatrixAgree (Mat F k k n) (SquareMatrix F k n) SquareMatrix.mk where
  new _ := rfl
  elements _ := rfl
  get _ _ _ := rfl
  set _ _ _ _ := rfl
  nRows _ := rfl
  nCols _ := rfl
  hadamard m m' := by
    change (Bind.bind (MatrixOperations.hadamardProduct m m') _ : R _) = _
    cases MatrixOperations.hadamardProduct m m' with
    | error e => rfl
    | ok x => cases x <;> rfl

omit [DecidableEq F] in
theorem mds_new (t tm1 n nhat : Nat) (els : List F) : (MatrixOperations.new els : R (MdsMatrix F t tm1 n nhat)) =
    if t ≠ tm1 + 1 then .error .assertFailed
    else if t * t ≠ n then .error .assertFailed
    else if tm1 * tm1 ≠ nhat then .error .assertFailed
    else MdsMatrix.fromElements els := rfl

omit [DecidableEq F] in
theorem agree_mds {t tm1 n nhat : Nat} (h : t = tm1 + 1 ∧ n = t * t ∧ nhat = tm1 * tm1) :
    MatrixAgree (SquareMatrix F t n) (MdsMatrix F t tm1 n nhat) MdsMatrix.mk where
  new els := by
    rw [mds_new, if_neg (not_not.2 h.1), if_neg (not_not.2 h.2.1.symm), if_neg (not_not.2 h.2.2.symm)]; rfl
  elements _ := rfl
  get _ _ _ := rfl
  set _ _ _ _ := rfl
  nRows _ := rfl
  nCols _ := rfl
  hadamard m m' := by
    change (Bind.bind (MatrixOperations.hadamardProduct m m') _ : R _) = _
    cases MatrixOperations.hadamardProduct m m' with
    | error e => rfl
    | ok x => cases x <;> rfl

omit [DecidableEq F] in
theorem agree_arc (r c n : Nat) : MatrixAgree (Mat F r c n) (ArcMatrix F r c n) ArcMatrix.mk where
  new _ := rfl
  elements _ := rfl
  get _ _ _ := rfl
  set _ _ _ _ := rfl
  nRows _ := rfl
  nCols _ := rfl
  hadamard m m' := by
    change (Bind.bind (MatrixOperations.hadamardProduct m m') _ : R _) = _
    cases MatrixOperations.hadamardProduct m m' with
    | error e => rfl
    | ok x => cases x <;> rfl

omit [DecidableEq F] in
theorem agree_optimized (r c n : Nat) : MatrixAgree (ArcMatrix F r c n) (OptimizedArcMatrix F r c n) OptimizedArcMatrix.mk where
  new _ := rfl
  elements _ := rfl
  get _ _ _ := rfl
  set _ _ _ _ := rfl
  nRows _ := rfl
  nCols _ := rfl
  hadamard m m' := by
    change (Bind.bind (MatrixOperations.hadamardProduct m m') _ : R _) = _
    cases MatrixOperations.hadamardProduct m m' with
    | error e => rfl
    | ok x => cases x <;> rfl

/-! ### C93 -/

omit [DecidableEq F] in
/-- The same elements and the same calls, within the dimensions or not: the wrapped types answer what `Matrix` answers, and panic
where and how it panics.  No hypothesis on the const generics, except for the three asserts of `MdsMatrix::new`. -/
theorem C93_same (els : List F) (calls : List (MatrixCall F)) :
    (∀ k n, matrixSession (SquareMatrix F k n) els calls = matrixSession (Mat F k k n) els calls) ∧
    (∀ r c n, matrixSession (ArcMatrix F r c n) els calls = matrixSession (Mat F r c n) els calls) ∧
    (∀ r c n, matrixSession (OptimizedArcMatrix F r c n) els calls = matrixSession (Mat F r c n) els calls) ∧
    (∀ t tm1 n nhat, t = tm1 + 1 ∧ n = t * t ∧ nhat = tm1 * tm1 →
      matrixSession (MdsMatrix F t tm1 n nhat) els calls = matrixSession (Mat F t t n) els calls) ∧
    (∀ t tm1 n nhat, ¬ (t = tm1 + 1 ∧ n = t * t ∧ nhat = tm1 * tm1) →
      matrixSession (MdsMatrix F t tm1 n nhat) els calls = ([], some .assertFailed)) := by
  refine ⟨fun k n => (agree_square k n).session els calls, fun r c n => (agree_arc r c n).session els calls,
    fun r c n => ((agree_optimized r c n).session els calls).trans ((agree_arc r c n).session els calls),
    fun t tm1 n nhat h => ((agree_mds h).session els calls).trans ((agree_square t n).session els calls), fun t tm1 n nhat h => ?_⟩
  rw [matrixSession, mds_new]
  by_cases h1 : t = tm1 + 1
  · rw [if_neg (not_not.2 h1)]
    by_cases h2 : t * t = n
    · rw [if_neg (not_not.2 h2), if_pos fun h3 => h ⟨h1, h2.symm, h3.symm⟩]
    · rw [if_pos h2]
  · rw [if_pos h1]

/-- `Matrix` under any sequence of calls within the dimensions: the answers of the two-dimensional array, and no panic. -/
theorem C93_array (hc : 0 < c) (h : n = r * c) (A : Table F r c) (calls : List (TableCall F r c)) :
    matrixSession (Mat F r c n) A.flat (calls.map TableCall.toCall) = (A.answers calls, none) := by
  rw [matrixSession, show (MatrixOperations.new A.flat : R (Mat F r c n)) = _ from new_flat h A]
  dsimp only
  induction calls generalizing A with
  | nil => rfl
  | cons call calls ih =>
    rw [List.map_cons, MatrixCall.execAll, exec_table hc h]
    simp only [ih, Table.answers]

/-- The other four types under any sequence of calls within the dimensions. -/
theorem C93_arrays (A : Table F r c) (calls : List (TableCall F r c)) (B : Table F (c + 1) (c + 1))
    (calls' : List (TableCall F (c + 1) (c + 1))) (hc : 0 < c) :
    matrixSession (ArcMatrix F r c (r * c)) A.flat (calls.map TableCall.toCall) = (A.answers calls, none) ∧
    matrixSession (OptimizedArcMatrix F r c (r * c)) A.flat (calls.map TableCall.toCall) = (A.answers calls, none) ∧
    matrixSession (SquareMatrix F (c + 1) ((c + 1) * (c + 1))) B.flat (calls'.map TableCall.toCall) = (B.answers calls', none) ∧
    matrixSession (MdsMatrix F (c + 1) c ((c + 1) * (c + 1)) (c * c)) B.flat (calls'.map TableCall.toCall) =
      (B.answers calls', none) := by
  refine ⟨?_, ?_, ?_, ?_⟩
  · rw [(C93_same _ _).2.1, C93_array hc rfl]
  · rw [(C93_same _ _).2.2.1, C93_array hc rfl]
  · rw [(C93_same _ _).1, C93_array (Nat.succ_pos c) rfl]
  · rw [(C93_same _ _).2.2.2.1 _ _ _ _ ⟨rfl, rfl, rfl⟩, C93_array (Nat.succ_pos c) rfl]

/-- `transpose` of every type swaps rows and columns. -/
theorem C93_transpose (h : n = r * c) (A : Table F r c) (k n' : Nat) (h' : n' = k * k) (B : Table F k k) (tm1 nhat : Nat) :
    ∃ (a : ArcMatrix F r c n) (a' : ArcMatrix F c r n) (o : OptimizedArcMatrix F r c n) (o' : OptimizedArcMatrix F c r n)
      (s s' : SquareMatrix F k n') (m m' : MdsMatrix F k tm1 n' nhat),
      MatrixOperations.new A.flat = .ok a ∧ a.transpose = .ok a' ∧
        MatrixOperations.new (Table.flat fun j i => A i j) = .ok a' ∧
      MatrixOperations.new A.flat = .ok o ∧ o.transpose = .ok o' ∧
        MatrixOperations.new (Table.flat fun j i => A i j) = .ok o' ∧
      MatrixOperations.new B.flat = .ok s ∧ s.transpose = .ok s' ∧
        MatrixOperations.new (Table.flat fun j i => B i j) = .ok s' ∧
      MdsMatrix.fromElements B.flat = .ok m ∧ m.transpose = .ok m' ∧
        MdsMatrix.fromElements (Table.flat fun j i => B i j) = .ok m' := by
  have hT : n = c * r := h.trans (Nat.mul_comm _ _)
  have ha := new_flat h A
  have ha' := new_flat hT fun j i => A i j
  have hb := new_flat h' B
  have hb' := new_flat h' fun j i => B i j
  have ta : (Mat.ofM h (Matrix.of A)).transpose = .ok (Mat.ofM hT (Matrix.of fun j i => A i j)) := by
    rw [transpose_eq h, Mat.toM_ofM]; rfl
  have tb : (Mat.ofM h' (Matrix.of B)).transpose = .ok (Mat.ofM h' (Matrix.of fun j i => B i j)) := by
    rw [transpose_eq h', Mat.toM_ofM]; rfl
  refine ⟨⟨Mat.ofM h (Matrix.of A)⟩, ⟨Mat.ofM hT (Matrix.of fun j i => A i j)⟩, ⟨⟨Mat.ofM h (Matrix.of A)⟩⟩,
    ⟨⟨Mat.ofM hT (Matrix.of fun j i => A i j)⟩⟩, ⟨Mat.ofM h' (Matrix.of B)⟩, ⟨Mat.ofM h' (Matrix.of fun j i => B i j)⟩,
    ⟨⟨Mat.ofM h' (Matrix.of B)⟩⟩, ⟨⟨Mat.ofM h' (Matrix.of fun j i => B i j)⟩⟩, ?_, ?_, ?_, ?_, ?_, ?_, ?_, ?_, ?_, ?_, ?_, ?_⟩
  · change (do let m ← Mat.new r c n A.flat; return ArcMatrix.mk m) = _
    rw [ha]; rfl
  · rw [ArcMatrix.transpose]
    dsimp only
    rw [ta]; rfl
  · change (do let m ← Mat.new c r n _; return ArcMatrix.mk m) = _
    rw [ha']; rfl
  · change (do let m ← (do let m ← Mat.new r c n A.flat; return ArcMatrix.mk m); return OptimizedArcMatrix.mk m) = _
    rw [ha]; rfl
  · rw [OptimizedArcMatrix.transpose, ArcMatrix.transpose]
    dsimp only
    rw [ta]; rfl
  · change (do let m ← (do let m ← Mat.new c r n _; return ArcMatrix.mk m); return OptimizedArcMatrix.mk m) = _
    rw [ha']; rfl
  · change (do let m ← Mat.new k k n' B.flat; return SquareMatrix.mk m) = _
    rw [hb]; rfl
  · rw [SquareMatrix.transpose]
    dsimp only
    rw [tb]; rfl
  · change (do let m ← Mat.new k k n' _; return SquareMatrix.mk m) = _
    rw [hb']; rfl
  · change (do let m ← (do let m ← Mat.new k k n' B.flat; return SquareMatrix.mk m); return MdsMatrix.mk m) = _
    rw [hb]; rfl
  · rw [MdsMatrix.transpose, SquareMatrix.transpose]
    dsimp only
    rw [tb]; rfl
  · change (do let m ← (do let m ← Mat.new k k n' _; return SquareMatrix.mk m); return MdsMatrix.mk m) = _
    rw [hb']; rfl

omit [Field F] [DecidableEq F] in
theorem newFromKnown_eq_new (r c n : Nat) (v : Vector F n) : Mat.newFromKnown r c n v = Mat.new r c n v.toList := by
  rw [Mat.newFromKnown, Mat.new]
  split
  · rfl
  · rw [dif_pos (by simp)]
    cases v; simp

omit [DecidableEq F] in
/-- `new_from_known` of every type is `new` of the same elements, panics included; only `MdsMatrix::new_from_known` and
`MdsMatrix::from_elements` skip the asserts of `MdsMatrix::new`.  `inner_elements` and `elements` give the elements back. -/
theorem C93_known (v : Vector F n) :
    (∀ r c, Mat.newFromKnown r c n v = MatrixOperations.new v.toList) ∧
    (∀ k, (SquareMatrix.newFromKnown v : R (SquareMatrix F k n)) = MatrixOperations.new v.toList) ∧
    (∀ r c, (ArcMatrix.newFromKnown v : R (ArcMatrix F r c n)) = MatrixOperations.new v.toList) ∧
    (∀ r c, (OptimizedArcMatrix.newFromKnown v : R (OptimizedArcMatrix F r c n)) = MatrixOperations.new v.toList) ∧
    (∀ t tm1 nhat, (MdsMatrix.newFromKnown v : R (MdsMatrix F t tm1 n nhat)) = MdsMatrix.fromElements v.toList) ∧
    (∀ tm1, n = (tm1 + 1) * (tm1 + 1) → (MdsMatrix.newFromKnown v : R (MdsMatrix F (tm1 + 1) tm1 n (tm1 * tm1))) =
      MatrixOperations.new v.toList) ∧
    (∀ r c, ∀ m : ArcMatrix F r c n, ArcMatrix.newFromKnown v = .ok m → m.innerElements = v ∧
      MatrixOperations.elements m = v.toList) := by
  refine ⟨fun r c => newFromKnown_eq_new r c n v, fun k => ?_, fun r c => ?_, fun r c => ?_, fun t tm1 nhat => ?_,
    fun tm1 h => ?_, fun r c m hm => ?_⟩
  · rw [SquareMatrix.newFromKnown, newFromKnown_eq_new]; rfl
  · rw [ArcMatrix.newFromKnown, newFromKnown_eq_new]; rfl
  · rw [OptimizedArcMatrix.newFromKnown, ArcMatrix.newFromKnown, newFromKnown_eq_new]; rfl
  · rw [MdsMatrix.newFromKnown, SquareMatrix.newFromKnown, newFromKnown_eq_new]; rfl
  · rw [(agree_mds ⟨rfl, h, rfl⟩).new, MdsMatrix.newFromKnown, SquareMatrix.newFromKnown, newFromKnown_eq_new]; rfl
  · rw [ArcMatrix.newFromKnown, Mat.newFromKnown] at hm
    split at hm
    · exact absurd hm nofun
    · cases hm; exact ⟨rfl, rfl⟩

/-- Any sequence of writes through `full_mut` and `partial_mut`: `full` and `partial` are the last values written, or the values
before, and `total` is their sum in a debug build that does not panic; it panics exactly when the sum needs more than a word, and a release
build then wraps. -/
theorem C93_rounds (x : RoundNumbers) (ws : List RoundsWrite) (W : Nat) :
    let y := ws.foldl RoundNumbers.write x
    y.full = (lastFull ws).getD x.full ∧ y.partialRounds = (lastPartial ws).getD x.partialRounds ∧
    y.total = y.full + y.partialRounds ∧
    (y.full + y.partialRounds < W → y.totalMachine (.checked W) = .ok y.total ∧ y.totalMachine (.wrapping W) = .ok y.total) ∧
    (W ≤ y.full + y.partialRounds → y.totalMachine (.checked W) = .error .overflow ∧
      y.totalMachine (.wrapping W) = .ok (y.total % W)) := by
  intro y
  have key : y.rF = (lastFull ws).getD x.rF ∧ y.rP = (lastPartial ws).getD x.rP := by
    change (ws.foldl RoundNumbers.write x).rF = _ ∧ (ws.foldl RoundNumbers.write x).rP = _
    clear y
    induction ws generalizing x with
    | nil => exact ⟨rfl, rfl⟩
    | cons w ws ih =>
      rw [List.foldl_cons]
      cases w with
      | full v =>
        obtain ⟨h1, h2⟩ := ih (x.write (.full v))
        rw [h1, h2]
        refine ⟨?_, rfl⟩
        rw [lastFull]; cases lastFull ws <;> rfl
      | partialRounds v =>
        obtain ⟨h1, h2⟩ := ih (x.write (.partialRounds v))
        rw [h1, h2]
        refine ⟨rfl, ?_⟩
        rw [lastPartial]; cases lastPartial ws <;> rfl
  refine ⟨key.1, key.2, Nat.add_comm _ _, fun h => ?_, fun h => ?_⟩
  · have h' : y.rP + y.rF < W := by rw [Nat.add_comm]; exact h
    exact ⟨if_pos h', congrArg Except.ok (Nat.mod_eq_of_lt h')⟩
  · have h' : ¬ y.rP + y.rF < W := by rw [Nat.add_comm]; exact not_lt.2 h
    exact ⟨if_neg h', rfl⟩

/-- The two errors print different texts. -/
theorem C93_messages (e e' : ParamError) (h : e.display = e'.display) : e = e' := by
  cases e <;> cases e' <;> first | rfl | exact absurd h (by decide)

/-! ### The hypotheses are met -/

instance fact3 : Fact (Nat.Prime 3) := ⟨by decide⟩

/-- A session with an `OptimizedArcMatrix` over the field of three elements: a write, a product, and reads. -/
example : matrixSession (OptimizedArcMatrix (ZMod 3) 2 2 4) [1, 2, 0, 1]
    [.set 1 0 2, .hadamard [2, 2, 1, 0], .get 1 0, .iterRows, .elements, .nRows, .get 0 3, .get 2 0, .nCols] =
    ([.unit, .unit, .value 2, .rows [[2, 1], [2, 0]], .list [2, 1, 2, 0], .size 2, .value 0], some .indexOOB) := by
  decide +kernel

/-- Calls within the dimensions, as in `C93_arrays`, with the elements and the answers written out. -/
example :
    let A : Table (ZMod 3) 2 2 := ![![1, 2], ![0, 1]]
    let calls : List (TableCall (ZMod 3) 2 2) := [.set 1 0 2, .hadamard ![![2, 2], ![1, 0]], .get 1 0, .iterRows]
    A.flat = [1, 2, 0, 1] ∧ A.answers calls = [.unit, .unit, .value 2, .rows [[2, 1], [2, 0]]] ∧
    matrixSession (MdsMatrix (ZMod 3) 2 1 4 1) A.flat (calls.map TableCall.toCall) = (A.answers calls, none) := by
  intro A calls
  exact ⟨by decide +kernel, by decide +kernel,
    (C93_arrays (F := ZMod 3) (r := 1) (c := 1) (fun _ _ => 0) [] A calls Nat.one_pos).2.2.2⟩

/-- An `MdsMatrix` whose third const generic is wrong: `new` panics, `from_elements` does not. -/
example : (MatrixOperations.new [1, 2, 0, 1] : R (MdsMatrix (ZMod 3) 2 1 4 7)) = .error .assertFailed ∧
    (MdsMatrix.fromElements [1, 2, 0, 1] : R (MdsMatrix (ZMod 3) 2 1 4 7)) = .ok ⟨⟨⟨#v[1, 2, 0, 1]⟩⟩⟩ := by
  decide +kernel

/-- The round numbers of rate 1, changed twice; and a sum that does not fit a word of 64 bits. -/
example : ([RoundsWrite.full 10, .partialRounds 3, .full 8].foldl RoundNumbers.write ⟨31, 8⟩).total = 11 ∧
    ([RoundsWrite.full (2 ^ 64 - 1)].foldl RoundNumbers.write ⟨31, 8⟩).totalMachine (.checked (2 ^ 64)) = .error .overflow := by
  decide +kernel

end Poseidon
