import Verif.Model.Params

/-!
# Model of the parameter generator: matrices and constants

`poseidon-paramgen/src/mds.rs` and `poseidon-paramgen/src/round_constants.rs`.

The crate `poseidon-paramgen` is generic in a prime field `F` and at the pinned commit it is excluded
from the workspace ("Temporarily excluded until refactored"): its text mixes the const-generic matrix
API of `poseidon-parameters` with an earlier API whose dimensions are run-time values
(`Matrix::new(n_rows, n_cols, elements)`, `SquareMatrix::from_vec(elements)`,
`SquareMatrix::identity(dim)`).  The model reads each such call as the const-generic function of the
same name at the dimensions the run-time values have.  In particular determinants and inverses are
those of `poseidon-parameters` (dimensions 1 to 8, a panic above).

Two more simplifications: `STATE_SIZE` is `k + 1` with `k = STATE_SIZE_MINUS_1` (so `STATE_SIZE = 0`
is not representable; `MdsMatrix::new` asserts the relation), and `N_ROUNDS`, the length of the
collections, is `rounds.partial()`.
-/

namespace Poseidon

variable {F : Type _} [Field F] [DecidableEq F]
variable {k n nmds nhat rows cols nround : Nat}

/-- `InputParameters`, input.rs:5-24, without the derived `log_2_p` (see `GenRounds.lean`) -/
structure GenInput where
  allowInverse : Bool
  /-- `M`, security level -/
  security : Nat
  /-- width -/
  t : Nat
  /-- modulus -/
  p : Nat
  deriving DecidableEq, Repr

/-- Number of bits of a big integer (`BigInteger::num_bits`, ark-ff).  mds.rs:52. -/
def numBits (x : Nat) : Nat := if x = 0 then 0 else x.log2 + 1

/-- `fixed_cauchy_matrix`, mds.rs:41-73.  `xs[i]`, `ys[i]` are `F::from(i)`, `F::from(t + i)`.  Note that the
assertion tests `xs[i] + ys[i]` while the division is by `xs[i] + ys[j]`. -/
def fixedCauchyMatrix (F : Type _) [Field F] [DecidableEq F] (nmds : Nat) (input : GenInput) :
    R (Mat F input.t input.t nmds) := do
  if numBits input.p < 128 then .error .explicit
  else
    let xs : List F := (List.range' 0 input.t).map (Nat.cast)
    let ys : List F := (List.range' input.t input.t).map (Nat.cast)
    let elements ← forRange 0 input.t [] fun i els =>
      forRange 0 input.t els fun j els => do
        let xi ← lget xs i
        let yi ← lget ys i
        if xi + yi = 0 then .error .assertFailed
        else
          let yj ← lget ys j
          let e ← fdiv 1 (xi + yj)
          return els ++ [e]
    let m ← Mat.new input.t input.t nmds elements
    let det ← determinant input.t m
    if det = 0 then .error .assertFailed else return m

/-- `v1_generate`, mds.rs:10-26 -/
def mdsGenerate (F : Type _) [Field F] [DecidableEq F] (nmds : Nat) (input : GenInput) :
    R (Mat F input.t input.t nmds) :=
  if input.p < 2 * input.t then .error .explicit else fixedCauchyMatrix F nmds input

/-- `prime`, mds.rs:204-222 -/
def prime (nres : Nat) (mHat : Mat F k k n) : R (Mat F (k + 1) (k + 1) nres) := do
  let elements ← forRange 0 (k + 1) [] fun i els =>
    forRange 0 (k + 1) els fun j els =>
      if i = 0 ∧ j = 0 then return els ++ [1]
      else if i = 0 ∨ j = 0 then return els ++ [0]
      else do
        let x ← mHat.get (i - 1) (j - 1)
        return els ++ [x]
  Mat.new (k + 1) (k + 1) nres elements

/-- `doubleprime`, mds.rs:224-250 -/
def doublePrime (nres : Nat) (mHatInverse : Mat F k k nhat) (w : Mat F k 1 k) (v : Mat F 1 k k) (m00 : F) :
    R (Mat F (k + 1) (k + 1) nres) := do
  let identity ← Mat.identity F k nhat
  let wHat ← matMul k mHatInverse w
  let elements ← forRange 0 (k + 1) [] fun i els =>
    forRange 0 (k + 1) els fun j els =>
      if i = 0 ∧ j = 0 then return els ++ [m00]
      else if i = 0 then do
        let x ← v.get 0 (j - 1)
        return els ++ [x]
      else if j = 0 then do
        let x ← wHat.get (i - 1) 0
        return els ++ [x]
      else do
        let x ← identity.get (i - 1) (j - 1)
        return els ++ [x]
  Mat.new (k + 1) (k + 1) nres elements

/-- `.inverse().expect(..)` on a square matrix, mds.rs:98-100 and 193 -/
def inverseExpect (debug : Bool) (m : Mat F k k n) : R (Mat F k k n) := do
  match ← m.inverse debug with
  | .ok x => return x
  | .error _ => .error .unwrapNone

/-- The mutable variables of the loop of `calc_equivalent_matrices`.  mds.rs:179-184. -/
structure EquivState (F : Type _) (k nmds : Nat) where
  mMul : Mat F (k + 1) (k + 1) nmds
  /-- `None` stands for the initial value `prime(&M_mul.0)`, which is a `(t + 1) × (t + 1)` matrix and
  does not have the type of the result; it is overwritten in the first iteration -/
  mI : Option (Mat F (k + 1) (k + 1) nmds)
  vCollection : List (Mat F 1 k k)
  wHatCollection : List (Mat F k 1 k)

/-- `calc_equivalent_matrices`, mds.rs:158-202.  The result for zero partial rounds, a matrix of the wrong
dimension, is a panic here. -/
def calcEquivalentMatrices (debug : Bool) (nhat : Nat) (mds : Mat F (k + 1) (k + 1) nmds) (rounds : RoundNumbers) :
    R (Mat F (k + 1) (k + 1) nmds × List (Mat F 1 k k) × List (Mat F k 1 k)) := do
  let mT ← mds.transpose
  let st ← forRange 0 rounds.partialRounds (⟨mT, none, [], []⟩ : EquivState F k nmds) fun _ st => do
    let mHat ← mdsHat k nhat st.mMul
    let w ← mdsW k st.mMul
    let v ← mdsV k st.mMul
    let inv ← inverseExpect debug mHat
    let wHat ← matMul k inv w
    let mI ← prime nmds mHat
    let mMul ← matMul nmds mT mI
    return ⟨mMul, some mI, st.vCollection ++ [v], st.wHatCollection ++ [wHat]⟩
  match st.mI with
  | none => .error .badDims
  | some mI =>
    let mI ← mI.transpose
    return (mI, st.vCollection, st.wHatCollection)

/-- Collecting a `Vec` into the array `[T; N_ROUNDS]`.  mds.rs:173-177 (types of `v_collection`, `w_hat_collection`). -/
def toArr {α : Type _} (npart : Nat) (l : List α) : R (Vector α npart) :=
  if h : l.length = npart then .ok ⟨l.toArray, by simpa using h⟩ else .error .sliceLen

/-- `generate_optimized`, mds.rs:76-156 (`t` is the state size).  The assertions on `n_cols()` hold by
typing in the model. -/
def mdsGenerateOptimized (debug : Bool) (nhat : Nat) (mds : Mat F (k + 1) (k + 1) nmds) (rounds : RoundNumbers) :
    R (OptimizedMds F rounds.rP (k + 1) k nmds nhat) := do
  let mHat ← mdsHat k nhat mds
  let mHatInverse ← inverseExpect debug mHat
  let v ← mdsV k mds
  let w ← mdsW k mds
  let mPrime ← prime nmds mHat
  let m00 ← mds.get 0 0
  let mDoublePrime ← doublePrime nmds mHatInverse w v m00
  let prod ← matMul nmds mPrime mDoublePrime
  if mds ≠ prod then .error .assertFailed
  else
    let tm1 ← usub (k + 1) 1
    let zeros ← usub (tm1 * tm1) tm1
    if (mDoublePrime.elements.toList.filter (· = 0)).length ≠ zeros then .error .assertFailed
    else if (mDoublePrime.elements.toList.filter (· = 1)).length ≠ tm1 then .error .assertFailed
    else
      let (mI, vs, ws) ← calcEquivalentMatrices debug nhat mds rounds
      let vCollection ← toArr rounds.rP vs
      let wHatCollection ← toArr rounds.rP ws
      let mInverse ← mdsInverse debug mds
      return { mHat, v, w, mPrime, mDoublePrime, mInverse, mHatInverse, m00, mI, vCollection, wHatCollection }

/-- `constants_by_round`, round_constants.rs:50-52: a row of the constants as a `1 × n_cols` matrix.  This
is what `row_vector` is documented to return; the const-generic `row_vector` of `poseidon-parameters`
panics whenever there is more than one row (property C29), so it is not used here. -/
def constantsByRound (arc : Mat F rows cols nround) (r : Nat) : R (Mat F 1 cols cols) := do
  let row ← forRange 0 cols (Vector.replicate cols (0 : F)) fun j els => do
    let x ← arc.get r j
    aset els j x
  Mat.new 1 cols cols row.toList

/-- `set_constants_by_round`, round_constants.rs:55-64 -/
def setConstantsByRound (arc : Mat F rows cols nround) (r : Nat) (constants : List F) :
    R (Mat F rows cols nround) :=
  if constants.length ≠ cols then .error .assertFailed
  else forList constants.zipIdx arc fun (value, j) arc => arc.set r j value

/-- One iteration of the loop of `generate_optimized`, round_constants.rs:80-106 -/
def arcStep (mdsInv : Mat F (k + 1) (k + 1) nmds) (r : Nat) (constants : Mat F rows (k + 1) nround) :
    R (Mat F rows (k + 1) nround) := do
  let row ← constantsByRound constants (r + 1)
  let invCip1 ← matMul (k + 1) row mdsInv
  let delta ← forRange 1 (k + 1) [0] fun j d => do
    let x ← invCip1.get 0 j
    return d ++ [x]
  let constants ← forRange 0 (k + 1) constants fun j constants => do
    let curr ← constants.get r j
    let d ← lget delta j
    constants.set r j (curr + d)
  let x ← invCip1.get 0 0
  setConstantsByRound constants (r + 1) (x :: List.replicate k 0)

/-- `for r in (lo..hi).rev() { body }`.  round_constants.rs:81, mds.rs:186. -/
def forRangeRev {σ : Type _} (lo hi : Nat) (s : σ) (body : Nat → σ → R σ) : R σ :=
  forRange 0 (hi - lo) s fun i s => body (hi - 1 - i) s

/-- `generate_optimized`, round_constants.rs:67-109 -/
def arcGenerateOptimized (debug : Bool) (arc : Mat F rows (k + 1) nround) (mds : Mat F (k + 1) (k + 1) nmds)
    (rounds : RoundNumbers) : R (Mat F rows (k + 1) nround) := do
  let rf := rounds.full / 2
  let rT := rounds.total
  let mdsT ← mds.transpose
  let mdsInv ← mdsInverse debug mdsT
  let hi ← usub rT 1
  let hi ← usub hi rf
  forRangeRev rf hi arc (arcStep mdsInv)

end Poseidon
