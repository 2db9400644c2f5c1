import Verif.Model.Basic

/-!
# Model of `poseidon-parameters/src/matrix.rs` and `matrix_ops.rs`

The newtypes `SquareMatrix(Matrix)`, `ArcMatrix(Matrix)`, `OptimizedArcMatrix(ArcMatrix)` and
`MdsMatrix(SquareMatrix)` are erased: their `MatrixOperations` methods only delegate to the wrapped
`Matrix` (matrix.rs:170-204, arc_matrix.rs:30-63,91-125, mds_matrix.rs:17-58).
The code is specific to `decaf377::Fq`; the model is generic in a field `F` (the generator crate is
generic too).
-/

namespace Poseidon

variable {F : Type _} [Field F] [DecidableEq F]

/-- `Matrix<N_ROWS, N_COLS, N_ELEMENTS>`, matrix.rs:12-17.  `r`, `c`, `n` are the const generics; the
type does not tie `n` to `r * c`, exactly as in Rust. -/
structure Mat (F : Type _) (r c n : Nat) where
  elements : Vector F n
  deriving DecidableEq, Repr

/-- `PoseidonParameterError`, error.rs:1-5 -/
inductive ParamError where
  | invalidMatrixDimensions
  | noMatrixInverse
  deriving DecidableEq, Repr

/-- `Matrix::new_from_known`, matrix.rs:36-42 -/
def Mat.newFromKnown {F : Type _} (r c n : Nat) (elements : Vector F n) : R (Mat F r c n) :=
  if n ≠ r * c then .error .badDims else .ok ⟨elements⟩

/-- `Matrix::new`, matrix.rs:48-61 (the argument is a slice of any length) -/
def Mat.new {F : Type _} (r c n : Nat) (elements : List F) : R (Mat F r c n) :=
  if n ≠ r * c then .error .badDims
  else if h : elements.length = n then .ok ⟨⟨elements.toArray, by simpa using h⟩⟩
  else .error .sliceLen

variable {r c n : Nat}

/-- `get_element`, matrix.rs:67-69 -/
def Mat.get {F : Type _} (m : Mat F r c n) (i j : Nat) : R F := aget m.elements (i * c + j)

/-- `set_element`, matrix.rs:71-73 -/
def Mat.set {F : Type _} (m : Mat F r c n) (i j : Nat) (val : F) : R (Mat F r c n) := do
  let els ← aset m.elements (i * c + j) val
  return ⟨els⟩

/-- `iter_rows`, matrix_ops.rs:16-18 -/
def Mat.iterRows {F : Type _} (m : Mat F r c n) : R (List (List F)) := chunks c m.elements.toList

/-- `transpose`, matrix.rs:22-33 (and 158-162, arc_matrix.rs:16-18,81-83, mds_matrix.rs:79-81) -/
def Mat.transpose (m : Mat F r c n) : R (Mat F c r n) := do
  let (els, _) ← forRange 0 c (Vector.replicate n (0 : F), 0) fun j s =>
    forRange 0 r s fun i (els, index) => do
      let x ← m.get i j
      let els ← aset els index x
      return (els, index + 1)
  Mat.new c r n els.toList

/-- `hadamard_product`, matrix.rs:83-97.  The Rust result is `Ok` or a panic, never `Err`; the outer
`Ok` is dropped. -/
def Mat.hadamard (m rhs : Mat F r c n) : R (Mat F r c n) := do
  let (els, _) ← forRange 0 r (Vector.replicate n (0 : F), 0) fun i s =>
    forRange 0 c s fun j (els, index) => do
      let x ← m.get i j
      let y ← rhs.get i j
      let els ← aset els index (x * y)
      return (els, index + 1)
  Mat.new r c n els.toList

/-- `dot_product`, matrix_ops.rs:30-36 -/
def dotProduct (a b : List F) : R F :=
  if a.length ≠ b.length then .error .vecLen
  else .ok (fsum (List.zipWith (· * ·) a b))

/-- `mat_mul`, matrix.rs:101-127 and `square_mat_mul`, matrix.rs:341-365 (same body) -/
def matMul {lr lc ln rr rc rn : Nat} (resN : Nat) (lhs : Mat F lr lc ln) (rhs : Mat F rr rc rn) :
    R (Mat F lr rc resN) := do
  let rhsT ← rhs.transpose
  let lrows ← lhs.iterRows
  let (els, _) ← forList lrows (Vector.replicate resN (0 : F), 0) fun row s => do
    let cols ← rhsT.iterRows
    forList cols s fun column (els, index) => do
      let d ← dotProduct row column
      let els ← aset els index d
      return (els, index + 1)
  Mat.new lr rc resN els.toList

/-- `Mul<Fq> for Matrix`, matrix.rs:130-143 and `Mul<Fq> for SquareMatrix`, matrix.rs:310-321 -/
def Mat.scale (m : Mat F r c n) (rhs : F) : R (Mat F r c n) := do
  let els ← forList m.elements.toList.zipIdx (Vector.replicate n (0 : F)) fun (element, i) els =>
    aset els i (element * rhs)
  Mat.new r c n els.toList

/-- `row_vector`, matrix.rs:149-155 and 325-327: note the result type `Matrix<1, N_COLS, N_ELEMENTS>` -/
def Mat.rowVector (m : Mat F r c n) (i : Nat) : R (Mat F 1 c n) := do
  let rowElements ← forRange 0 c (Vector.replicate c (0 : F)) fun j els => do
    let x ← m.get i j
    aset els j x
  Mat.new 1 c n rowElements.toList

/-- `SquareMatrix::identity`, matrix.rs:239-249 -/
def Mat.identity (F : Type _) [Field F] (k n : Nat) : R (Mat F k k n) := do
  let m ← Mat.new k k n (Vector.replicate n (0 : F)).toList
  forRange 0 k m fun i m => m.set i i 1

/-- `new_2x2`, matrix.rs:330-332 -/
def Mat.new2x2 (a b c d : F) : R (Mat F 2 2 4) := Mat.new 2 2 4 [a, b, c, d]

/-- The `elements` array built for one summand of `determinant`, matrix.rs:423-437: rows other than
`i`, columns from 1. -/
def detMinor {k n : Nat} (m : Mat F k k n) (d i : Nat) : R (Mat F d d (d * d)) := do
  let s ← forRange 0 i (Vector.replicate (d * d) (0 : F), 0) fun k' s =>
    forRange 1 k s fun l (els, index) => do
      let x ← m.get k' l
      let els ← aset els index x
      return (els, index + 1)
  let (els, _) ← forRange (i + 1) k s fun k' s =>
    forRange 1 k s fun l (els, index) => do
      let x ← m.get k' l
      let els ← aset els index x
      return (els, index + 1)
  Mat.new d d (d * d) els.toList

/-- `SquareMatrix::determinant`, matrix.rs:291-306, with the helper `determinant`, matrix.rs:411-446,
inlined.  Rust instantiates the helper at `DIM = 2..8` with `DIM_MINUS_1 = DIM - 1` and
`N_ELEMENTS_DIM_MINUS_1 = (DIM - 1)^2`; here the recursion on const generics is structural. -/
def determinant : {n : Nat} → (k : Nat) → Mat F k k n → R F
  | _, 0, _ => .error .noElements
  | _, 1, m => m.get 0 0
  | _, k + 2, m =>
    if 8 < k + 2 then .error .unimplemented
    else do
      let (det, _) ← forRange 0 (k + 2) ((0 : F), true) fun i (det, leviCivita) => do
        let minor ← detMinor m (k + 1) i
        let det ←
          if leviCivita then do
            let x ← m.get i 0
            let d ← determinant (k + 1) minor
            pure (det + x * d)
          else do
            let x ← m.get i 0
            let d ← determinant (k + 1) minor
            pure (det - x * d)
        return (det, !leviCivita)
      return det

/-- `minor_matrix`, matrix.rs:368-408 (`d = DIM_MINUS_1`, `d * d = N_ELEMENTS_DIM_MINUS_1`) -/
def minorMatrix {k n : Nat} (d : Nat) (m : Mat F k k n) : R (Mat F k k n) := do
  let (minors, _) ← forRange 0 k (Vector.replicate n (0 : F), 0) fun i s =>
    forRange 0 k s fun j (minors, outer) => do
      let copyRow := fun (k' : Nat) (s : Vector F (d * d) × Nat) => do
        let s ← forRange 0 j s fun l (els, index) => do
          let x ← m.get k' l
          let els ← aset els index x
          return (els, index + 1)
        forRange (j + 1) k s fun l (els, index) => do
          let x ← m.get k' l
          let els ← aset els index x
          return (els, index + 1)
      let s ← forRange 0 i (Vector.replicate (d * d) (0 : F), 0) copyRow
      let (els, _) ← forRange (i + 1) k s copyRow
      let minor ← Mat.new d d (d * d) els.toList
      let x ← determinant d minor
      let minors ← aset minors outer x
      return (minors, outer + 1)
  Mat.new k k n minors.toList

/-- `minors`, matrix.rs:252-273 -/
def Mat.minors {k n : Nat} (m : Mat F k k n) : R (Mat F k k n) :=
  match k with
  | 0 => .error .noElements
  | 1 => do
    let a ← m.get 0 0
    Mat.new _ _ n [a]
  | 2 => do
    let a ← m.get 0 0
    let b ← m.get 0 1
    let c ← m.get 1 0
    let d ← m.get 1 1
    Mat.new _ _ n [d, c, b, a]
  | d + 3 => if 8 < d + 3 then .error .unimplemented else minorMatrix (d + 2) m

/-- `cofactors`, matrix.rs:276-288 -/
def Mat.cofactors {k n : Nat} (_m : Mat F k k n) : R (Mat F k k n) := do
  let (els, _) ← forRange 0 k (Vector.replicate n (0 : F), 0) fun i s =>
    forRange 0 k s fun j (els, index) => do
      let els ← aset els index ((-1 : F) ^ (i + j))
      return (els, index + 1)
  Mat.new k k n els.toList

/-- `inverse`, matrix.rs:210-236.  `debug` tells whether debug assertions are compiled in
(matrix.rs:234). -/
def Mat.inverse (debug : Bool) {k n : Nat} (m : Mat F k k n) : R (Except ParamError (Mat F k k n)) := do
  let identity ← Mat.identity F k n
  if k = 1 then
    let x ← m.get 0 0
    let y ← if x = 0 then .error .divZero else .ok x⁻¹
    let res ← Mat.new k k n [y]
    return .ok res
  else
    let det ← determinant k m
    if det = 0 then return .error .noMatrixInverse
    else
      let minors ← m.minors
      let cofactorMatrix ← m.cofactors
      let signedMinors ← minors.hadamard cofactorMatrix
      let adj ← signedMinors.transpose
      let s ← fdiv 1 det
      let matrixInverse ← adj.scale s
      if debug then
        let prod ← matMul n m matrixInverse
        if prod = identity then return .ok matrixInverse else .error .assertFailed
      else return .ok matrixInverse

end Poseidon
