import Verif.Model.Params
import Verif.Model.Machine

/-!
# The five matrix types and the trait they share

Model/Matrix.lean erases the newtypes around `Matrix`.  Here they are kept: each type has its own `new`, `elements`, `get_element`,
..., and a caller who only knows the trait `MatrixOperations` can run any sequence of calls on any of them.
-/

namespace Poseidon

/-- `trait MatrixOperations`, matrix_ops.rs:6-27.  `iter_rows` has a default body there and no implementation replaces it, so it is
a function below, not a field.  A `&mut self` method returns the new value of `self`. -/
class MatrixOperations (F : outParam Type) (M : Type) where
  /-- matrix_ops.rs:8 -/
  new : List F → R M
  /-- matrix_ops.rs:10 -/
  elements : M → List F
  /-- matrix_ops.rs:12 -/
  getElement : M → Nat → Nat → R F
  /-- matrix_ops.rs:14 -/
  setElement : M → Nat → Nat → F → R M
  /-- matrix_ops.rs:20 -/
  nRows : M → Nat
  /-- matrix_ops.rs:22 -/
  nCols : M → Nat
  /-- matrix_ops.rs:24-26 -/
  hadamardProduct : M → M → R (Except ParamError M)

/-- The default method `iter_rows`, matrix_ops.rs:16-18. -/
def MatrixOperations.iterRows {F M : Type} [MatrixOperations F M] (m : M) : R (List (List F)) :=
  chunks (nCols m) (elements m)

variable {F : Type} [Field F] [DecidableEq F]

/-- `impl MatrixOperations for Matrix`, matrix.rs:45-98. -/
instance {r c n : Nat} : MatrixOperations F (Mat F r c n) where
  new := Mat.new r c n
  elements m := m.elements.toList
  getElement m := m.get
  setElement m := m.set
  nRows _ := r
  nCols _ := c
  hadamardProduct m rhs := do
    let x ← m.hadamard rhs
    return .ok x

/-- `SquareMatrix`, matrix.rs:165-168. -/
structure SquareMatrix (F : Type) (k n : Nat) where
  inner : Mat F k k n
  deriving DecidableEq

/-- `impl MatrixOperations for SquareMatrix`, matrix.rs:170-204.  Its `n_rows` and `n_cols` are written out, they do not ask the
inner matrix. -/
instance {k n : Nat} : MatrixOperations F (SquareMatrix F k n) where
  new els := do
    let m ← MatrixOperations.new els
    return ⟨m⟩
  elements m := MatrixOperations.elements m.inner
  getElement m i j := MatrixOperations.getElement m.inner i j
  setElement m i j x := do
    let m' ← MatrixOperations.setElement m.inner i j x
    return ⟨m'⟩
  nRows _ := k
  nCols _ := k
  hadamardProduct m rhs := do
    match ← MatrixOperations.hadamardProduct m.inner rhs.inner with
    | .ok x => return .ok ⟨x⟩
    | .error e => return .error e

/-- `MdsMatrix`, mds_matrix.rs:9-15. -/
structure MdsMatrix (F : Type) (t tm1 n nhat : Nat) where
  inner : SquareMatrix F t n
  deriving DecidableEq

/-- `impl MatrixOperations for MdsMatrix`, mds_matrix.rs:17-58. -/
instance {t tm1 n nhat : Nat} : MatrixOperations F (MdsMatrix F t tm1 n nhat) where
  new els :=
    if t ≠ tm1 + 1 then .error .assertFailed
    else if t * t ≠ n then .error .assertFailed
    else if tm1 * tm1 ≠ nhat then .error .assertFailed
    else do
      let m ← MatrixOperations.new els
      return ⟨m⟩
  elements m := MatrixOperations.elements m.inner
  getElement m i j := MatrixOperations.getElement m.inner i j
  setElement m i j x := do
    let m' ← MatrixOperations.setElement m.inner i j x
    return ⟨m'⟩
  nRows m := MatrixOperations.nRows m.inner
  nCols m := MatrixOperations.nCols m.inner
  hadamardProduct m rhs := do
    match ← MatrixOperations.hadamardProduct m.inner rhs.inner with
    | .ok x => return .ok ⟨x⟩
    | .error e => return .error e

/-- `ArcMatrix`, arc_matrix.rs:8-11. -/
structure ArcMatrix (F : Type) (r c n : Nat) where
  inner : Mat F r c n
  deriving DecidableEq

/-- `impl MatrixOperations for ArcMatrix`, arc_matrix.rs:30-63. -/
instance {r c n : Nat} : MatrixOperations F (ArcMatrix F r c n) where
  new els := do
    let m ← MatrixOperations.new els
    return ⟨m⟩
  elements m := MatrixOperations.elements m.inner
  getElement m i j := MatrixOperations.getElement m.inner i j
  setElement m i j x := do
    let m' ← MatrixOperations.setElement m.inner i j x
    return ⟨m'⟩
  nRows m := MatrixOperations.nRows m.inner
  nCols m := MatrixOperations.nCols m.inner
  hadamardProduct m rhs := do
    match ← MatrixOperations.hadamardProduct m.inner rhs.inner with
    | .ok x => return .ok ⟨x⟩
    | .error e => return .error e

/-- `OptimizedArcMatrix`, arc_matrix.rs:73-76. -/
structure OptimizedArcMatrix (F : Type) (r c n : Nat) where
  inner : ArcMatrix F r c n
  deriving DecidableEq

/-- `impl MatrixOperations for OptimizedArcMatrix`, arc_matrix.rs:91-125. -/
instance {r c n : Nat} : MatrixOperations F (OptimizedArcMatrix F r c n) where
  new els := do
    let m ← MatrixOperations.new els
    return ⟨m⟩
  elements m := MatrixOperations.elements m.inner
  getElement m i j := MatrixOperations.getElement m.inner i j
  setElement m i j x := do
    let m' ← MatrixOperations.setElement m.inner i j x
    return ⟨m'⟩
  nRows m := MatrixOperations.nRows m.inner
  nCols m := MatrixOperations.nCols m.inner
  hadamardProduct m rhs := do
    match ← MatrixOperations.hadamardProduct m.inner rhs.inner with
    | .ok x => return .ok ⟨x⟩
    | .error e => return .error e

/-! ### The methods that are not in the trait -/

/-- `SquareMatrix::transpose`, matrix.rs:158-162. -/
def SquareMatrix.transpose {k n : Nat} (m : SquareMatrix F k n) : R (SquareMatrix F k n) := do
  let x ← m.inner.transpose
  return ⟨x⟩

/-- `square_mat_mul`, matrix.rs:341-365.  The result has the dimensions of the left factor, whatever the right one is. -/
def squareMatMul {l ln r rn : Nat} (resN : Nat) (lhs : SquareMatrix F l ln) (rhs : SquareMatrix F r rn) :
    R (SquareMatrix F l resN) := do
  let rhsT ← rhs.transpose
  let lrows ← MatrixOperations.iterRows lhs
  let (els, _) ← forList lrows (Vector.replicate resN (0 : F), 0) fun row s => do
    let cols ← MatrixOperations.iterRows rhsT
    forList cols s fun column (els, index) => do
      let d ← dotProduct row column
      let els ← aset els index d
      return (els, index + 1)
  MatrixOperations.new els.toList

/-- `MdsMatrix::transpose`, mds_matrix.rs:79-81. -/
def MdsMatrix.transpose {t tm1 n nhat : Nat} (m : MdsMatrix F t tm1 n nhat) : R (MdsMatrix F t tm1 n nhat) := do
  let x ← m.inner.transpose
  return ⟨x⟩

/-- `ArcMatrix::transpose`, arc_matrix.rs:16-18. -/
def ArcMatrix.transpose {r c n : Nat} (m : ArcMatrix F r c n) : R (ArcMatrix F c r n) := do
  let x ← m.inner.transpose
  return ⟨x⟩

/-- `OptimizedArcMatrix::transpose`, arc_matrix.rs:81-83. -/
def OptimizedArcMatrix.transpose {r c n : Nat} (m : OptimizedArcMatrix F r c n) : R (OptimizedArcMatrix F c r n) := do
  let x ← m.inner.transpose
  return ⟨x⟩

/-- `SquareMatrix::new_from_known`, matrix.rs:335-337. -/
def SquareMatrix.newFromKnown {k n : Nat} (elements : Vector F n) : R (SquareMatrix F k n) := do
  let x ← Mat.newFromKnown k k n elements
  return ⟨x⟩

/-- `MdsMatrix::new_from_known`, mds_matrix.rs:135-137. -/
def MdsMatrix.newFromKnown {t tm1 n nhat : Nat} (elements : Vector F n) : R (MdsMatrix F t tm1 n nhat) := do
  let x ← SquareMatrix.newFromKnown elements
  return ⟨x⟩

/-- `MdsMatrix::from_elements`, mds_matrix.rs:75-77. -/
def MdsMatrix.fromElements {t tm1 n nhat : Nat} (elements : List F) : R (MdsMatrix F t tm1 n nhat) := do
  let x ← MatrixOperations.new elements
  return ⟨x⟩

/-- `ArcMatrix::new_from_known`, arc_matrix.rs:25-27. -/
def ArcMatrix.newFromKnown {r c n : Nat} (elements : Vector F n) : R (ArcMatrix F r c n) := do
  let x ← Mat.newFromKnown r c n elements
  return ⟨x⟩

/-- `ArcMatrix::inner_elements`, arc_matrix.rs:20-22. -/
def ArcMatrix.innerElements {r c n : Nat} (m : ArcMatrix F r c n) : Vector F n := m.inner.elements

/-- `OptimizedArcMatrix::new_from_known`, arc_matrix.rs:86-88. -/
def OptimizedArcMatrix.newFromKnown {r c n : Nat} (elements : Vector F n) : R (OptimizedArcMatrix F r c n) := do
  let x ← ArcMatrix.newFromKnown elements
  return ⟨x⟩

/-! ### A caller of the trait -/

/-- One call through the trait: the methods of matrix_ops.rs:10-26.  The right-hand side of `hadamard` is given by the elements
from which the caller builds it, matrix_ops.rs:8; the caller keeps the product. -/
inductive MatrixCall (F : Type) where
  | elements
  | get (i j : Nat)
  | set (i j : Nat) (x : F)
  | iterRows
  | nRows
  | nCols
  | hadamard (rhs : List F)

/-- What one call returns, matrix_ops.rs:10-26.  `failed` is an `Err`. -/
inductive MatrixAnswer (F : Type) where
  | list (l : List F)
  | value (x : F)
  | unit
  | rows (l : List (List F))
  | size (n : Nat)
  | failed (e : ParamError)
  deriving DecidableEq

/-- One call, matrix_ops.rs:6-27. -/
def MatrixCall.exec {M : Type} [MatrixOperations F M] (m : M) : MatrixCall F → R (MatrixAnswer F × M)
  | .elements => .ok (.list (MatrixOperations.elements m), m)
  | .get i j => do
    let x ← MatrixOperations.getElement m i j
    return (.value x, m)
  | .set i j x => do
    let m' ← MatrixOperations.setElement m i j x
    return (.unit, m')
  | .iterRows => do
    let l ← MatrixOperations.iterRows m
    return (.rows l, m)
  | .nRows => .ok (.size (MatrixOperations.nRows m), m)
  | .nCols => .ok (.size (MatrixOperations.nCols m), m)
  | .hadamard els => do
    let rhs : M ← MatrixOperations.new els
    match ← MatrixOperations.hadamardProduct m rhs with
    | .ok p => return (.unit, p)
    | .error e => return (.failed e, m)

/-- A sequence of calls, matrix_ops.rs:6-27: the answers in order, and the panic that ended the sequence early, if one did. -/
def MatrixCall.execAll {M : Type} [MatrixOperations F M] (m : M) : List (MatrixCall F) → List (MatrixAnswer F) × Option Panic
  | [] => ([], none)
  | call :: calls =>
    match call.exec m with
    | .error p => ([], some p)
    | .ok (a, m') => ((a :: (execAll m' calls).1), (execAll m' calls).2)

/-- A session with one of the types, matrix_ops.rs:6-27: `new`, then a sequence of calls. -/
def matrixSession (M : Type) [MatrixOperations F M] (els : List F) (calls : List (MatrixCall F)) :
    List (MatrixAnswer F) × Option Panic :=
  match (MatrixOperations.new els : R M) with
  | .error p => ([], some p)
  | .ok m => MatrixCall.execAll m calls

/-! ### `RoundNumbers` -/

/-- A write through `full_mut`, round_numbers.rs:17-19, or `partial_mut`, round_numbers.rs:27-29. -/
inductive RoundsWrite where
  | full (x : Nat)
  | partialRounds (x : Nat)

/-- `*x.full_mut() = v` and `*x.partial_mut() = v`, round_numbers.rs:17-19, 27-29. -/
def RoundNumbers.write (x : RoundNumbers) : RoundsWrite → RoundNumbers
  | .full v => { x with rF := v }
  | .partialRounds v => { x with rP := v }

/-- `RoundNumbers::total` with the addition of machine words, round_numbers.rs:32-34. -/
def RoundNumbers.totalMachine (A : Arith) (x : RoundNumbers) : R Nat := A.add x.rP x.rF

/-- `Display for PoseidonParameterError`, error.rs:7-16. -/
def ParamError.display : ParamError → String
  | .invalidMatrixDimensions => "Invalid matrix dimensions"
  | .noMatrixInverse => "No matrix inverse"

end Poseidon
