import Verif.Proofs.Inverse
import Verif.Proofs.Mds
import Mathlib.Algebra.Field.ZMod
import Mathlib.Tactic.NormNum.Prime

/-!
# Properties of the matrix API (C21–C30)

All statements range over every field and every choice of the const generics; a matrix is
*well-formed* when its number of elements is rows × columns (what `Matrix::new` enforces).
Entries are observed through `get_element` (`Mat.get`) or, where a mathematical operation is named,
through `Mat.toM`, which reads the row-major array as a Mathlib matrix (`Spec/Matrix.lean`).
-/

set_option linter.unusedSectionVars false

namespace Poseidon

variable {F : Type} [Field F] [DecidableEq F] {r c n k : Nat}

/-! ### C21: construction -/

/-- `Matrix::new` returns exactly for matching dimensions, -/
theorem C21_new (r c n : Nat) (elements : List F) :
    (∃ m, Mat.new r c n elements = .ok m) ↔ n = r * c ∧ elements.length = n := by
  rw [Mat.new]
  split
  · next h => simp [h]
  · next h =>
    push Not at h
    split
    · next h' => exact ⟨fun _ => ⟨h, h'⟩, fun _ => ⟨_, rfl⟩⟩
    · next h' => simp [h']

/-- and then stores the elements unchanged. -/
theorem C21_new_elements (elements : List F) (m : Mat F r c n) (h : Mat.new r c n elements = .ok m) :
    m.elements.toList = elements := by
  rw [Mat.new] at h
  split at h
  · simp at h
  · split at h
    · simp only [Except.ok.injEq] at h; subst h; rfl
    · simp at h

/-- The message of the panic tells which of the two does not match. -/
theorem C21_panics (r c n : Nat) (elements : List F) :
    (n ≠ r * c → Mat.new r c n elements = .error .badDims) ∧
    (n = r * c → elements.length ≠ n → Mat.new r c n elements = .error .sliceLen) :=
  ⟨fun h => by rw [Mat.new, if_pos h], fun h h' => by rw [Mat.new, if_neg (not_not.2 h), dif_neg h']⟩

/-- `new_from_known` -/
theorem C21_new_from_known (r c : Nat) (elements : Vector F n) :
    ((∃ m, Mat.newFromKnown r c n elements = .ok m) ↔ n = r * c) ∧
    ∀ m, Mat.newFromKnown r c n elements = .ok m → m.elements = elements := by
  rw [Mat.newFromKnown]
  split
  · next h => simp [h]
  · next h =>
    push Not at h
    refine ⟨⟨fun _ => h, fun _ => ⟨_, rfl⟩⟩, fun m hm => ?_⟩
    simp only [Except.ok.injEq] at hm; subst hm; rfl

/-- `MdsMatrix::new` -/
theorem C21_mds_new (t tm1 n nhat : Nat) (elements : List F) :
    ((∃ m, mdsNew t tm1 n nhat elements = .ok m) ↔
      t = tm1 + 1 ∧ (t - 1) ^ 2 = nhat ∧ n = t * t ∧ elements.length = n) ∧
    ∀ m, mdsNew t tm1 n nhat elements = .ok m → m.elements.toList = elements := by
  rw [mdsNew]
  split
  · next h => simp [h]
  · next h =>
    push Not at h
    subst h
    split
    · next h => exact ⟨⟨by simp, fun hh => absurd hh.2.2.1.symm h⟩, by simp⟩
    · next h =>
      split
      · next h' => exact ⟨⟨by simp, fun hh => absurd (by rw [← hh.2.1, Nat.add_sub_cancel, sq]) h'⟩, by simp⟩
      · next h' =>
        push Not at h'
        refine ⟨⟨fun hh => ?_, fun hh => (C21_new _ _ _ _).2 ⟨hh.2.2.1, hh.2.2.2⟩⟩, fun m hm => C21_new_elements _ m hm⟩
        have := (C21_new _ _ _ _).1 hh
        exact ⟨rfl, by rw [Nat.add_sub_cancel, sq, h'], this.1, this.2⟩

/-! ### C22: element access -/

/-- In-range reads and writes never panic; a write is seen by the next read of the same position and
by no other in-range position. -/
theorem C22_set_get (h : n = r * c) (m : Mat F r c n) (i j : Nat) (hi : i < r) (hj : j < c) (x : F) :
    ∃ m', m.set i j x = .ok m' ∧ m'.get i j = .ok x ∧
      ∀ i' j', i' < r → j' < c → (i', j') ≠ (i, j) →
        m'.get i' j' = m.get i' j' ∧ ∃ y, m.get i' j' = .ok y := by
  refine ⟨_, Mat.set_eq h m hi hj x, ?_, ?_⟩
  · rw [Mat.get_eq h _ hi hj, Mat.toM_ofM]; simp
  · intro i' j' hi' hj' hne
    rw [Mat.get_eq h _ hi' hj', Mat.get_eq h _ hi' hj', Mat.toM_ofM]
    refine ⟨?_, _, rfl⟩
    rw [Matrix.of_apply, if_neg]
    simp only [Fin.mk.injEq]
    intro hh; exact hne (by rw [hh.1, hh.2])

/-- A row index past the end panics, whatever the column index. -/
theorem C22_row_out_of_range (h : n = r * c) (m : Mat F r c n) (i j : Nat) (hi : r ≤ i) (x : F) :
    m.get i j = .error .indexOOB ∧ m.set i j x = .error .indexOOB := by
  have : ¬ i * c + j < n := by
    have := Nat.mul_le_mul_right c hi
    omega
  rw [Mat.get, Mat.set, aget, aset, dif_neg this, dif_neg this]
  exact ⟨rfl, rfl⟩

/-- A column index past the end is not detected: it reads and writes the entry of a later row. -/
theorem C22_column_alias (m : Mat F r c n) (i j : Nat) (x : F) :
    m.get i j = m.get (i + j / c) (j % c) ∧ m.set i j x = m.set (i + j / c) (j % c) x := by
  have e : (i + j / c) * c + j % c = i * c + j := by rw [Nat.add_mul, Nat.add_assoc, Nat.div_add_mod']
  rw [Mat.get, Mat.get, Mat.set, Mat.set, e]
  exact ⟨rfl, rfl⟩

/-! ### C23: transpose -/

theorem C23_transpose (h : n = r * c) (m : Mat F r c n) :
    ∃ m', m.transpose = .ok m' ∧ (∀ i j, i < r → j < c → m'.get j i = m.get i j) ∧
      m'.transpose = .ok m := by
  refine ⟨_, transpose_eq h m, ?_, ?_⟩
  · intro i j hi hj
    rw [Mat.get_eq (h.trans (Nat.mul_comm _ _)) _ hj hi, Mat.get_eq h _ hi hj, Mat.toM_ofM]; rfl
  · rw [transpose_eq (h.trans (Nat.mul_comm _ _)), Mat.toM_ofM, Matrix.transpose_transpose, Mat.ofM_toM]

/-! ### C24: products -/

/-- `mat_mul` (and `square_mat_mul`) return the mathematical product. -/
theorem C24_product {lr lc ln rc rn resN : Nat} (hl : ln = lr * lc) (hr : rn = lc * rc)
    (hres : resN = lr * rc) (hlc : 0 < lc) (lhs : Mat F lr lc ln) (rhs : Mat F lc rc rn) :
    ∃ m, matMul resN lhs rhs = .ok m ∧ m.toM hres = lhs.toM hl * rhs.toM hr :=
  ⟨_, matMul_eq hl hr hres hlc lhs rhs, Mat.toM_ofM _ _⟩

theorem bind_ok {α β : Type _} {x : R α} {f : α → R β} {b : β} (h : (x >>= f) = .ok b) :
    ∃ a, x = .ok a ∧ f a = .ok b := by
  cases x with
  | error e => exact absurd h (by simp [bind, Except.bind])
  | ok a => exact ⟨a, rfl, h⟩

/-- On non-empty well-formed operands it returns if and only if the dimensions match; otherwise it
panics. -/
theorem C24_dimensions {lr lc ln rr rc rn resN : Nat} (hl : ln = lr * lc) (hr : rn = rr * rc)
    (h0 : 0 < lr ∧ 0 < lc ∧ 0 < rr ∧ 0 < rc) (lhs : Mat F lr lc ln) (rhs : Mat F rr rc rn) :
    (∃ m, matMul resN lhs rhs = .ok m) ↔ lc = rr ∧ resN = lr * rc := by
  obtain ⟨h1, h2, h3, h4⟩ := h0
  constructor
  · rintro ⟨m, hm⟩
    rw [matMul, transpose_eq hr, ok_bind, iterRows_eq h2 hl, ok_bind] at hm
    obtain ⟨s, hs, hm⟩ := bind_ok hm
    refine ⟨?_, ((C21_new _ _ _ _).1 ⟨_, hm⟩).1⟩
    by_contra hne
    obtain ⟨a, rfl⟩ : ∃ a, lr = a + 1 := ⟨lr - 1, by omega⟩
    obtain ⟨b, rfl⟩ : ∃ b, rc = b + 1 := ⟨rc - 1, by omega⟩
    rw [List.ofFn_succ, forList] at hs
    obtain ⟨s1, hs1, -⟩ := bind_ok hs
    rw [iterRows_eq h3 (hr.trans (Nat.mul_comm _ _)), ok_bind, List.ofFn_succ, forList] at hs1
    obtain ⟨s2, hs2, -⟩ := bind_ok hs1
    obtain ⟨d, hd, -⟩ := bind_ok hs2
    rw [dotProduct, if_pos (by simpa using hne)] at hd
    exact absurd hd (by simp)
  · rintro ⟨rfl, hres⟩
    exact ⟨_, matMul_eq hl hr hres h2 lhs rhs⟩

/-- Inner dimensions that differ are reported as vectors of different lengths, whatever the size of the result. -/
theorem C24_mismatch {lr lc ln rr rc rn resN : Nat} (hl : ln = lr * lc) (hr : rn = rr * rc)
    (h0 : 0 < lr ∧ 0 < lc ∧ 0 < rr ∧ 0 < rc) (hne : lc ≠ rr) (lhs : Mat F lr lc ln) (rhs : Mat F rr rc rn) :
    matMul resN lhs rhs = .error .vecLen := by
  obtain ⟨h1, h2, h3, h4⟩ := h0
  obtain ⟨a, rfl⟩ : ∃ a, lr = a + 1 := ⟨lr - 1, by omega⟩
  obtain ⟨b, rfl⟩ : ∃ b, rc = b + 1 := ⟨rc - 1, by omega⟩
  rw [matMul, transpose_eq hr, ok_bind, iterRows_eq h2 hl, ok_bind, List.ofFn_succ, forList, iterRows_eq h3 (hr.trans (Nat.mul_comm _ _)),
    ok_bind, List.ofFn_succ, forList]
  dsimp only
  rw [dotProduct, if_pos (by simpa using hne)]
  rfl

/-- The same with empty operands: a left operand without columns panics, and so does a right operand
without rows unless there is no row to multiply. This covers all well-formed operands. -/
theorem C24_returns {lr lc ln rr rc rn resN : Nat} (hl : ln = lr * lc) (hr : rn = rr * rc)
    (lhs : Mat F lr lc ln) (rhs : Mat F rr rc rn) :
    (∃ m, matMul resN lhs rhs = .ok m) ↔
      0 < lc ∧ resN = lr * rc ∧ (lr = 0 ∨ 0 < rr ∧ (rc = 0 ∨ lc = rr)) := by
  rcases Nat.eq_zero_or_pos lc with rfl | h2
  · simp only [lt_irrefl, false_and, iff_false]
    rintro ⟨m, hm⟩
    rw [matMul, transpose_eq hr, ok_bind] at hm
    obtain ⟨s, hs, -⟩ := bind_ok hm
    simp [Mat.iterRows, chunks] at hs
  rcases Nat.eq_zero_or_pos lr with rfl | h1
  · rw [matMul, transpose_eq hr, ok_bind, iterRows_eq h2 hl, ok_bind, List.ofFn_zero, forList, ok_bind, C21_new]
    simp [h2]
  rcases Nat.eq_zero_or_pos rr with rfl | h3
  · simp only [lt_irrefl, false_and, or_false, h1.ne', and_false, iff_false]
    rintro ⟨m, hm⟩
    rw [matMul, transpose_eq hr, ok_bind, iterRows_eq h2 hl, ok_bind] at hm
    obtain ⟨s, hs, -⟩ := bind_ok hm
    obtain ⟨a, rfl⟩ : ∃ a, lr = a + 1 := ⟨lr - 1, by omega⟩
    rw [List.ofFn_succ, forList] at hs
    obtain ⟨s1, hs1, -⟩ := bind_ok hs
    simp [Mat.iterRows, chunks, bind, Except.bind] at hs1
  rcases Nat.eq_zero_or_pos rc with rfl | h4
  · have hloop : ∀ (t : Mat F 0 rr rn) (l : List (List F)) (s : Vector F resN × Nat), forList l s (fun row s => do
        let cols ← t.iterRows
        forList cols s fun column (els, index) => do
          let d ← dotProduct row column
          let els ← aset els index d
          return (els, index + 1)) = .ok s := by
      intro t l
      induction l with
      | nil => intro s; rfl
      | cons x xs ih =>
        intro s
        rw [iterRows_eq h3 (hr.trans (Nat.mul_comm _ _)), List.ofFn_zero] at ih ⊢
        rw [forList, ok_bind, forList, ok_bind]
        exact ih s
    rw [matMul, transpose_eq hr, ok_bind, iterRows_eq h2 hl, ok_bind, hloop, ok_bind, C21_new]
    simp [h2, h3]
  · rw [C24_dimensions hl hr ⟨h1, h2, h3, h4⟩]
    have : lr ≠ 0 := h1.ne'
    have : rc ≠ 0 := h4.ne'
    tauto

/-- The product is associative, -/
theorem C24_assoc {a b d e nab nbd nde nad nbe nae : Nat} (h1 : nab = a * b) (h2 : nbd = b * d) (h3 : nde = d * e)
    (h4 : nad = a * d) (h5 : nbe = b * e) (h6 : nae = a * e) (hb : 0 < b) (hd : 0 < d)
    (x : Mat F a b nab) (y : Mat F b d nbd) (z : Mat F d e nde) :
    (do let xy ← matMul nad x y; matMul nae xy z) = (do let yz ← matMul nbe y z; matMul nae x yz) := by
  rw [matMul_eq h1 h2 h4 hb, matMul_eq h2 h3 h5 hd, ok_bind, ok_bind, matMul_eq h4 h3 h6 hd,
    matMul_eq h1 h5 h6 hb, Mat.toM_ofM, Mat.toM_ofM, Matrix.mul_assoc]

/-- and `identity()` is its unit on both sides. -/
theorem C24_unit {nl nr : Nat} (h : n = r * c) (hl : nl = r * r) (hr : nr = c * c) (h0 : 0 < r) (h0' : 0 < c)
    (m : Mat F r c n) :
    (do let one ← Mat.identity F r nl; matMul n one m) = .ok m ∧
    (do let one ← Mat.identity F c nr; matMul n m one) = .ok m := by
  rw [identity_eq hl, identity_eq hr, ok_bind, ok_bind, matMul_eq hl h h h0, matMul_eq h hr h h0',
    Mat.toM_ofM, Mat.toM_ofM, Matrix.one_mul, Matrix.mul_one, Mat.ofM_toM]
  exact ⟨rfl, rfl⟩

/-! ### C25: entry-wise operations -/

theorem C25_hadamard (h : n = r * c) (m m' : Mat F r c n) :
    ∃ p, m.hadamard m' = .ok p ∧ ∀ i j, i < r → j < c → ∃ x y,
      m.get i j = .ok x ∧ m'.get i j = .ok y ∧ p.get i j = .ok (x * y) := by
  refine ⟨_, hadamard_eq h m m', fun i j hi hj => ⟨_, _, Mat.get_eq h _ hi hj, Mat.get_eq h _ hi hj, ?_⟩⟩
  rw [Mat.get_eq h _ hi hj, Mat.toM_ofM]; rfl

theorem C25_scale (h : n = r * c) (m : Mat F r c n) (s : F) :
    ∃ p, m.scale s = .ok p ∧ ∀ i j, i < r → j < c → ∃ x, m.get i j = .ok x ∧ p.get i j = .ok (x * s) := by
  refine ⟨_, scale_eq h m s, fun i j hi hj => ⟨_, Mat.get_eq h _ hi hj, ?_⟩⟩
  rw [Mat.get_eq h _ hi hj, Mat.toM_ofM]; rfl

theorem C25_identity (h : n = k * k) :
    ∃ p, Mat.identity F k n = .ok p ∧ ∀ i j, i < k → j < k → p.get i j = .ok (if i = j then 1 else 0) := by
  refine ⟨_, identity_eq h, fun i j hi hj => ?_⟩
  rw [Mat.get_eq h _ hi hj, Mat.toM_ofM, Matrix.one_apply]; simp

/-! ### C26: determinant -/

theorem C26_determinant (h : n = k * k) (h1 : 1 ≤ k) (h8 : k ≤ 8) (m : Mat F k k n) :
    determinant k m = .ok (m.toM h).det := determinant_eq k h m h1 h8

/-- The Leibniz formula, spelled out. -/
theorem C26_leibniz (h : n = k * k) (h1 : 1 ≤ k) (h8 : k ≤ 8) (m : Mat F k k n) :
    determinant k m = .ok (∑ σ : Equiv.Perm (Fin k), ((Equiv.Perm.sign σ : ℤ) : F) *
      ∏ i, m.elements[(σ i).val * k + i.val]'(lt_of_lt_of_eq (flat_lt (σ i).isLt i.isLt) h.symm)) := by
  rw [determinant_eq k h m h1 h8, Matrix.det_apply']
  rfl

theorem C26_unsupported (m : Mat F k k n) :
    (k = 0 → determinant k m = .error .noElements) ∧ (8 < k → determinant k m = .error .unimplemented) := by
  constructor
  · rintro rfl; rfl
  · intro hk
    obtain ⟨a, rfl⟩ : ∃ a, k = a + 2 := ⟨k - 2, by omega⟩
    rw [determinant, if_pos hk]

/-! ### C27: inverse -/

/-- For sizes 2 to 8: never a panic; `Ok(B)` with `A B = B A = 1` for a non-zero determinant and
`Err(NoMatrixInverse)` otherwise, in builds with and without debug assertions. -/
theorem C27_inverse (debug : Bool) (h : n = k * k) (hk : 2 ≤ k) (h8 : k ≤ 8) (m : Mat F k k n) :
    ((m.toM h).det ≠ 0 ∧ ∃ b, m.inverse debug = .ok (.ok b) ∧
      m.toM h * b.toM h = 1 ∧ b.toM h * m.toM h = 1) ∨
    ((m.toM h).det = 0 ∧ m.inverse debug = .ok (.error .noMatrixInverse)) := by
  by_cases hd : (m.toM h).det = 0
  · exact .inr ⟨hd, inverse_singular debug h hk h8 m hd⟩
  · refine .inl ⟨hd, _, inverse_regular debug h hk h8 m hd, ?_⟩
    rw [Mat.toM_ofM]
    have hu : IsUnit (m.toM h).det := isUnit_iff_ne_zero.2 hd
    exact ⟨Matrix.mul_nonsing_inv _ hu, Matrix.nonsing_inv_mul _ hu⟩

/-- A matrix has an inverse if and only if `inverse` returns one. -/
theorem C27_iff (debug : Bool) (h : n = k * k) (hk : 2 ≤ k) (h8 : k ≤ 8) (m : Mat F k k n) :
    (∃ b, m.inverse debug = .ok (.ok b)) ↔ ∃ B, m.toM h * B = 1 := by
  rcases C27_inverse debug h hk h8 m with ⟨-, b, hb, h1, -⟩ | ⟨hd, he⟩
  · exact ⟨fun _ => ⟨_, h1⟩, fun _ => ⟨b, hb⟩⟩
  · rw [he]
    refine ⟨by simp, fun ⟨B, hB⟩ => ?_⟩
    have := congrArg Matrix.det hB
    rw [Matrix.det_mul, hd, zero_mul, Matrix.det_one] at this
    exact absurd this zero_ne_one

/-- Size 1: the reciprocal, and a panic (instead of `Err`) for the zero matrix. -/
theorem C27_one (debug : Bool) (m : Mat F 1 1 1) :
    (m.elements[0] ≠ 0 → ∃ b, m.inverse debug = .ok (.ok b) ∧ m.elements[0] * b.elements[0] = 1) ∧
    (m.elements[0] = 0 → m.inverse debug = .error .divZero) := by
  rw [inverse_one]
  constructor
  · intro h
    exact ⟨_, if_neg h, by simp [h]⟩
  · intro h; exact if_pos h

theorem C27_unsupported (debug : Bool) (h : n = k * k) (m : Mat F k k n) :
    (k = 0 → m.inverse debug = .error .noElements) ∧ (8 < k → m.inverse debug = .error .unimplemented) := by
  constructor <;> intro hk <;> rw [Mat.inverse, identity_eq h, ok_bind, if_neg (by omega)]
  · rw [(C26_unsupported m).1 hk]; rfl
  · rw [(C26_unsupported m).2 hk]; rfl

/-! ### C28: minors and cofactors -/

theorem C28_minors (h : n = (k + 1) * (k + 1)) (h1 : 2 ≤ k + 1) (h8 : k + 1 ≤ 8) (m : Mat F (k + 1) (k + 1) n) :
    ∃ p, m.minors = .ok p ∧
      ∀ i j : Fin (k + 1), p.get i j = .ok ((m.toM h).submatrix i.succAbove j.succAbove).det := by
  refine ⟨_, minors_eq h (by omega) h8 m, fun i j => ?_⟩
  rw [Mat.get_eq h _ i.isLt j.isLt, Mat.toM_ofM]
  rfl

theorem C28_minors_one (m : Mat F 1 1 1) : m.minors = .ok m := minors_one m

/-- Minors are not implemented for other sizes; the empty matrix has none. -/
theorem C28_unsupported (m : Mat F k k n) :
    (k = 0 → m.minors = .error .noElements) ∧ (8 < k → m.minors = .error .unimplemented) := by
  constructor
  · rintro rfl; rfl
  · intro hk
    obtain ⟨a, rfl⟩ : ∃ a, k = a + 3 := ⟨k - 3, by omega⟩
    rw [Mat.minors, if_pos hk]

theorem C28_cofactors (h : n = k * k) (m : Mat F k k n) :
    ∃ p, m.cofactors = .ok p ∧ ∀ i j, i < k → j < k → p.get i j = .ok ((-1) ^ (i + j)) := by
  refine ⟨_, cofactors_eq h m, fun i j hi hj => ?_⟩
  rw [Mat.get_eq h _ hi hj, Mat.toM_ofM]; rfl

/-! ### C29: `row_vector` -/

/-- `row_vector` always panics on a well-formed matrix with columns and any number of rows but one:
the stated property is false of the code.  A row that exists does not have `n` elements; one that does not is out of range. -/
theorem C29_row_vector_panics (h : n = r * c) (hr : r ≠ 1) (hc : 0 < c) (m : Mat F r c n) (i : Nat) :
    (i < r → m.rowVector i = .error .badDims) ∧ (r ≤ i → m.rowVector i = .error .indexOOB) := by
  refine ⟨fun hi => ?_, fun hi => ?_⟩
  · rw [Mat.rowVector]
    obtain ⟨s, h1, -⟩ := forRange_spec (fun _ (_ : Vector F c) => True)
      (body := fun j els => do let x ← m.get i j; aset els j x) (lo := 0) (hi := c) (by omega)
      (s := Vector.replicate c (0 : F)) trivial (by
        intro q els _ hq _
        rw [Mat.get_eq h _ hi hq, ok_bind, aset_lt _ _ hq]
        exact ⟨_, rfl, trivial⟩)
    rw [h1, ok_bind]
    refine (C21_panics _ _ _ _).1 ?_
    intro hn
    rw [h] at hn
    exact hr (Nat.eq_of_mul_eq_mul_right hc hn)
  · obtain ⟨a, rfl⟩ : ∃ a, c = a + 1 := ⟨c - 1, by omega⟩
    rw [Mat.rowVector, forRange, Nat.sub_zero, loopN, (C22_row_out_of_range h m i 0 hi 0).1]
    rfl

/-- The same for a row that does not exist of a one-row matrix. -/
theorem C29_row_vector_out_of_range (h : n = 1 * c) (hc : 0 < c) (m : Mat F 1 c n) (i : Nat) (hi : 1 ≤ i) :
    m.rowVector i = .error .indexOOB := by
  obtain ⟨a, rfl⟩ : ∃ a, c = a + 1 := ⟨c - 1, by omega⟩
  rw [Mat.rowVector, forRange, Nat.sub_zero, loopN, (C22_row_out_of_range h m i 0 hi 0).1]
  rfl

/-- What holds: on a one-row matrix, row 0 is the matrix. -/
theorem C29_row_vector_partial (h : n = 1 * c) (m : Mat F 1 c n) : m.rowVector 0 = .ok m := by
  rw [Nat.one_mul] at h
  subst h
  rw [Mat.rowVector]
  obtain ⟨s, h1, h2⟩ := forRange_spec
    (fun q (els : Vector F n) => ∀ p (hp : p < n), p < q → els[p] = m.elements[p])
    (body := fun j els => do let x ← m.get 0 j; aset els j x) (lo := 0) (hi := n) (by omega)
    (s := Vector.replicate n (0 : F)) (by intro p _ hp; omega) (by
      intro q els hq1 hq2 hinv
      rw [Mat.get, aget_lt _ (show 0 * n + q < n by omega), ok_bind, aset_lt _ _ hq2]
      refine ⟨_, rfl, ?_⟩
      intro p hp hpq
      rw [Vector.getElem_set]
      split
      · next heq => subst heq; congr 1; omega
      · next hne => exact hinv p hp (by omega))
  rw [h1, ok_bind]
  apply Mat.new_list (Nat.one_mul n).symm
  congr 1
  ext p hp
  exact h2 p hp hp

/-! ### C30: the blocks of the MDS matrix -/

theorem C30_blocks {nhat : Nat} (h : n = (k + 1) * (k + 1)) (hh : nhat = k * k) (m : Mat F (k + 1) (k + 1) n) :
    ∃ v w hat, mdsV k m = .ok v ∧ mdsW k m = .ok w ∧ mdsHat k nhat m = .ok hat ∧
      ∀ i j, i < k → j < k →
        v.get 0 j = m.get 0 (j + 1) ∧ w.get i 0 = m.get (i + 1) 0 ∧
        hat.get i j = m.get (i + 1) (j + 1) := by
  refine ⟨_, _, _, mdsV_eq h m, mdsW_eq h m, mdsHat_eq h hh m, fun i j hi hj => ⟨?_, ?_, ?_⟩⟩
  · rw [Mat.get_eq (Nat.one_mul k).symm _ (Nat.one_pos) hj,
      Mat.get_eq h _ (Nat.succ_pos k) (Nat.succ_lt_succ hj), Mat.toM_ofM]; rfl
  · rw [Mat.get_eq (Nat.mul_one k).symm _ hi (Nat.one_pos),
      Mat.get_eq h _ (Nat.succ_lt_succ hi) (Nat.succ_pos k), Mat.toM_ofM]; rfl
  · rw [Mat.get_eq hh _ hi hj, Mat.get_eq h _ (Nat.succ_lt_succ hi) (Nat.succ_lt_succ hj), Mat.toM_ofM]; rfl

/-- Corner and blocks together determine the matrix. -/
theorem C30_determined {nhat : Nat} (h : n = (k + 1) * (k + 1)) (hh : nhat = k * k) (a b : Mat F (k + 1) (k + 1) n)
    (h00 : a.get 0 0 = b.get 0 0) (hv : mdsV k a = mdsV k b) (hw : mdsW k a = mdsW k b)
    (hhat : mdsHat k nhat a = mdsHat k nhat b) : a = b := by
  rw [mdsV_eq h, mdsV_eq h] at hv
  rw [mdsW_eq h, mdsW_eq h] at hw
  rw [mdsHat_eq h hh, mdsHat_eq h hh] at hhat
  rw [Mat.get_eq h _ (Nat.succ_pos k) (Nat.succ_pos k), Mat.get_eq h _ (Nat.succ_pos k) (Nat.succ_pos k)] at h00
  simp only [Except.ok.injEq] at h00 hv hw hhat
  have hv := congrArg (Mat.toM (Nat.one_mul k).symm) hv
  have hw := congrArg (Mat.toM (Nat.mul_one k).symm) hw
  have hhat := congrArg (Mat.toM hh) hhat
  rw [Mat.toM_ofM, Mat.toM_ofM] at hv hw hhat
  apply Mat.toM_injective h
  ext i j
  refine Fin.cases ?_ (fun i => ?_) i <;> refine Fin.cases ?_ (fun j => ?_) j
  · exact h00
  · exact congrFun (congrFun hv 0) j
  · exact congrFun (congrFun hw i) 0
  · exact congrFun (congrFun hhat i) j

/-! ### Non-vacuity

Concrete matrices meeting the hypotheses above. -/

instance : Fact (Nat.Prime 7) := ⟨by norm_num⟩

/-- A 2 × 3 matrix over `ZMod 7`. -/
def ex23 : Mat (ZMod 7) 2 3 6 := ⟨#v[1, 2, 3, 4, 5, 6]⟩
/-- An invertible 3 × 3 matrix over `ZMod 7`. -/
def ex33 : Mat (ZMod 7) 3 3 9 := ⟨#v[2, 0, 1, 1, 1, 0, 0, 3, 1]⟩
/-- A singular 3 × 3 matrix over `ZMod 7`. -/
def ex33s : Mat (ZMod 7) 3 3 9 := ⟨#v[1, 2, 3, 2, 4, 6, 0, 3, 1]⟩

example : Mat.new 2 3 6 [(1 : ZMod 7), 2, 3, 4, 5, 6] = .ok ex23 := by decide
example : ∃ e, Mat.new 2 3 6 [(1 : ZMod 7), 2, 3, 4, 5] = .error e := ⟨.sliceLen, by decide⟩
example : mdsNew 3 2 9 4 [(2 : ZMod 7), 0, 1, 1, 1, 0, 0, 3, 1] = .ok ex33 := by decide
example : ex23.set 1 2 0 = .ok ⟨#v[1, 2, 3, 4, 5, 0]⟩ := by decide
example : ex23.get 0 3 = ex23.get 1 0 ∧ ex23.get 2 0 = .error .indexOOB := by decide
example : ex23.transpose = .ok ⟨#v[1, 4, 2, 5, 3, 6]⟩ := by decide
example : matMul 6 ex23 ex33 = .ok ⟨#v[4, 4, 4, 6, 2, 3]⟩ := by decide
example : ∃ e, matMul 0 (⟨#v[]⟩ : Mat (ZMod 7) 2 0 0) (⟨#v[]⟩ : Mat (ZMod 7) 0 0 0) = .error e := ⟨.chunkZero, by decide⟩
example : determinant 3 ex33 = .ok 5 ∧ determinant 3 ex33s = .ok 0 := by decide
theorem ex33_det : (ex33.toM rfl).det ≠ 0 := by
  have h1 := C26_determinant (F := ZMod 7) rfl (by omega) (by omega) ex33
  have h2 : determinant 3 ex33 = .ok 5 := by decide
  rw [h1] at h2
  simp only [Except.ok.injEq] at h2
  rw [h2]; decide
example : ∃ b, ex33.inverse true = .ok (.ok b) := by
  rcases C27_inverse true rfl (by omega) (by omega) ex33 with ⟨-, b, hb, -⟩ | ⟨h, -⟩
  · exact ⟨b, hb⟩
  · exact absurd h ex33_det
example : ex33s.inverse true = .ok (.error .noMatrixInverse) := by decide
example : ex33.minors = .ok ⟨#v[1, 1, 3, 4, 2, 6, 6, 6, 2]⟩ := by decide
example : ex23.rowVector 0 = .error .badDims ∧ ex23.rowVector 2 = .error .indexOOB :=
  ⟨(C29_row_vector_panics rfl (by omega) (by omega) _ _).1 (by omega), (C29_row_vector_panics rfl (by omega) (by omega) _ _).2 (by omega)⟩
example : mdsV 2 ex33 = .ok ⟨#v[0, 1]⟩ ∧ mdsW 2 ex33 = .ok ⟨#v[1, 0]⟩ ∧
    mdsHat 2 4 ex33 = .ok ⟨#v[1, 0, 3, 1]⟩ := by decide

end Poseidon
