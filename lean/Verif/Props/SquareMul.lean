import Verif.Props.Matrix
import Verif.Model.Wrappers

/-!
# C24 for `square_mat_mul`

The result type of `square_mat_mul` is a square matrix of the size of the left factor, so the code differs from `mat_mul`
when the factors have different sizes.  Here it is stated for the function itself, with the newtypes kept.
-/

namespace Poseidon

variable {F : Type} [Field F] [DecidableEq F]

omit [DecidableEq F] in
theorem squareMatMul_same {k ln rn : Nat} (resN : Nat) (lhs : SquareMatrix F k ln) (rhs : SquareMatrix F k rn) :
    squareMatMul resN lhs rhs = (matMul resN lhs.inner rhs.inner).map SquareMatrix.mk := by
  unfold squareMatMul matMul SquareMatrix.transpose
  cases rhs.inner.transpose with
  | error e => rfl
  | ok t =>
    rw [ok_bind, ok_bind]
    change (lhs.inner.iterRows >>= _) = _
    cases lhs.inner.iterRows with
    | error e => rfl
    | ok rows =>
      rw [ok_bind, ok_bind]
      change (forList rows (Vector.replicate resN (0 : F), 0) (fun row s => do
        let cols ← t.iterRows
        forList cols s fun column (els, index) => do
          let d ← dotProduct row column
          let els ← aset els index d
          return (els, index + 1)) >>= _) = _
      cases forList rows (Vector.replicate resN (0 : F), 0) (fun row s => do
        let cols ← t.iterRows
        forList cols s fun column (els, index) => do
          let d ← dotProduct row column
          let els ← aset els index d
          return (els, index + 1)) with
      | error e => rfl
      | ok s =>
        rw [ok_bind, ok_bind]
        change (Mat.new k k resN s.1.toList >>= fun m => Except.ok (SquareMatrix.mk m)) = (Mat.new k k resN s.1.toList).map SquareMatrix.mk
        cases Mat.new k k resN s.1.toList <;> rfl

/-- `square_mat_mul` of two non-empty well-formed matrices of the same size is their product, -/
theorem C24_square {k ln rn resN : Nat} (hl : ln = k * k) (hr : rn = k * k) (hres : resN = k * k) (hk : 0 < k)
    (lhs : SquareMatrix F k ln) (rhs : SquareMatrix F k rn) :
    ∃ m, squareMatMul resN lhs rhs = .ok m ∧ m.inner.toM hres = lhs.inner.toM hl * rhs.inner.toM hr := by
  obtain ⟨m, hm, hp⟩ := C24_product hl hr hres hk lhs.inner rhs.inner
  exact ⟨⟨m⟩, by rw [squareMatMul_same, hm]; rfl, hp⟩

/-- of two matrices of different sizes it panics, although the types allow it, -/
theorem C24_square_mismatch {l ln r rn resN : Nat} (hl : ln = l * l) (hr : rn = r * r) (h0 : 0 < l ∧ 0 < r) (hne : l ≠ r)
    (lhs : SquareMatrix F l ln) (rhs : SquareMatrix F r rn) : squareMatMul resN lhs rhs = .error .vecLen := by
  obtain ⟨h1, h2⟩ := h0
  obtain ⟨a, rfl⟩ : ∃ a, l = a + 1 := ⟨l - 1, by omega⟩
  obtain ⟨b, rfl⟩ : ∃ b, r = b + 1 := ⟨r - 1, by omega⟩
  have hrows : MatrixOperations.iterRows lhs = lhs.inner.iterRows := rfl
  rw [squareMatMul, SquareMatrix.transpose, transpose_eq hr, ok_bind, hrows, iterRows_eq h1 hl]
  dsimp only [bind, Except.bind, pure, Except.pure]
  have hcols : ∀ t : Mat F (b + 1) (b + 1) rn, MatrixOperations.iterRows (SquareMatrix.mk t) = t.iterRows := fun _ => rfl
  rw [List.ofFn_succ, forList, hcols, iterRows_eq h2 (hr.trans (Nat.mul_comm _ _))]
  dsimp only [bind, Except.bind]
  rw [List.ofFn_succ, forList, dotProduct, if_pos (by simpa using hne)]
  rfl

/-- and so it returns for well-formed operands exactly when they have the same size, the element counts fit, and there is
something to multiply. -/
theorem C24_square_returns {l ln r rn resN : Nat} (hl : ln = l * l) (hr : rn = r * r)
    (lhs : SquareMatrix F l ln) (rhs : SquareMatrix F r rn) :
    (∃ m, squareMatMul resN lhs rhs = .ok m) ↔ 0 < l ∧ l = r ∧ resN = l * l := by
  rcases Nat.eq_zero_or_pos l with rfl | h1
  · simp only [lt_irrefl, false_and, iff_false]
    rintro ⟨m, hm⟩
    rw [squareMatMul] at hm
    obtain ⟨t, -, hm⟩ := bind_ok hm
    obtain ⟨s, hs, -⟩ := bind_ok hm
    simp [MatrixOperations.iterRows, MatrixOperations.nCols, chunks] at hs
  rcases Nat.eq_zero_or_pos r with rfl | h2
  · have : l ≠ 0 := h1.ne'
    simp only [this, false_and, and_false, iff_false]
    rintro ⟨m, hm⟩
    have hrows : MatrixOperations.iterRows lhs = lhs.inner.iterRows := rfl
    rw [squareMatMul] at hm
    obtain ⟨t, -, hm⟩ := bind_ok hm
    rw [hrows, iterRows_eq h1 hl, ok_bind] at hm
    obtain ⟨s, hs, -⟩ := bind_ok hm
    obtain ⟨a, rfl⟩ : ∃ a, l = a + 1 := ⟨l - 1, by omega⟩
    rw [List.ofFn_succ, forList] at hs
    obtain ⟨s1, hs1, -⟩ := bind_ok hs
    simp [MatrixOperations.iterRows, MatrixOperations.nCols, chunks, bind, Except.bind] at hs1
  by_cases hne : l = r
  · subst hne
    rw [squareMatMul_same]
    constructor
    · rintro ⟨m, hm⟩
      refine ⟨h1, rfl, ?_⟩
      cases hx : matMul resN lhs.inner rhs.inner with
      | error e => rw [hx] at hm; exact absurd hm (by simp [Except.map])
      | ok x => exact ((C24_dimensions hl hr ⟨h1, h1, h1, h1⟩ _ _).1 ⟨x, hx⟩).2
    · rintro ⟨-, -, hres⟩
      obtain ⟨m, hm, -⟩ := C24_product hl hr hres h1 lhs.inner rhs.inner
      exact ⟨⟨m⟩, by rw [hm]; rfl⟩
  · rw [C24_square_mismatch hl hr ⟨h1, h2⟩ hne]
    simp [hne]

/-- A 2×2 and a 3×3 matrix are operands of different sizes. -/
example (lhs : SquareMatrix ℚ 2 4) (rhs : SquareMatrix ℚ 3 9) : squareMatMul 4 lhs rhs = .error .vecLen :=
  C24_square_mismatch rfl rfl ⟨by decide, by decide⟩ (by decide) lhs rhs

/-- A malformed left factor (two elements for a 3×3 matrix; the fields are public) is not covered by the theorems: there
the result type matters, and `mat_mul` would want 6 elements where `square_mat_mul` wants 9. -/
example (x y a b c d : ℚ) : ∃ m : SquareMatrix ℚ 3 9, squareMatMul 9 (⟨⟨#v[x, y]⟩⟩ : SquareMatrix ℚ 3 2) (⟨⟨#v[a, b, c, d]⟩⟩ : SquareMatrix ℚ 2 4) = .ok m :=
  ⟨_, rfl⟩

end Poseidon
