import Verif.Model.Params
import Mathlib.Data.ZMod.Basic

/-!
# Specification: reading the generated source text

A reader of the fragment of Rust the code generator writes, independent of the generator.  It says what the
text denotes: decimal literals, `F::from_str("…")` literals (no superfluous leading zeros, value below the
modulus, as `ark-ff` requires), `vec![a, b, …]` lists, constructor calls and struct literals.
-/

namespace Poseidon.Spec

/-- A reader consumes a prefix of the text. -/
abbrev Reader (α : Type) := StateT (List Char) Option α

/-- Consume exactly this text. -/
def expectL : List Char → List Char → Option (Unit × List Char)
  | [], cs => some ((), cs)
  | c :: s, d :: cs => if c = d then expectL s cs else none
  | _ :: _, [] => none

def expect (s : String) : Reader Unit := expectL s.toList

/-- Value of a maximal run of decimal digits. -/
def readDigits : Nat → List Char → Nat × List Char
  | acc, c :: cs => if c.isDigit then readDigits (acc * 10 + (c.toNat - '0'.toNat)) cs else (acc, c :: cs)
  | acc, [] => (acc, [])

/-- A decimal literal without superfluous leading zeros. -/
def readNat : Reader Nat := fun cs =>
  match cs with
  | [] => none
  | c :: cs =>
    if c = '0' then
      match cs with
      | d :: _ => if d.isDigit then none else some (0, cs)
      | [] => some (0, cs)
    else if c.isDigit then some (readDigits (c.toNat - '0'.toNat) cs)
    else none

/-- `F::from_str("…").map_err(|_| ()).unwrap()`: a field element. -/
def readField (p : Nat) : Reader (ZMod p) := do
  expect "F::from_str(\""
  let n ← readNat
  if p ≤ n then failure
  expect "\").map_err(|_| ()).unwrap()"
  return (n : ZMod p)

/-- The elements of a non-empty `vec!` up to the closing bracket; the first argument bounds their number. -/
def readItems {α : Type} (r : Reader α) : Nat → Reader (List α)
  | 0 => failure
  | n + 1 => do
    let x ← r
    (do expect "]"; return [x]) <|> (do expect ", "; let xs ← readItems r n; return x :: xs)

/-- `vec![…]` -/
def readVec {α : Type} (r : Reader α) : Reader (List α) := do
  expect "vec!["
  (do expect "]"; return []) <|> (do let cs ← get; readItems r cs.length)

/-- A matrix as the text gives it. -/
structure MatrixData (p : Nat) where
  rows : Nat
  cols : Nat
  elements : List (ZMod p)

/-- `Name::new(rows, cols, vec![…])` -/
def readMatrix (p : Nat) (name : String) : Reader (MatrixData p) := do
  expect name
  expect "::new("
  let rows ← readNat
  expect ", "
  let cols ← readNat
  expect ", "
  let elements ← readVec (readField p)
  expect ")"
  return { rows, cols, elements }

/-- `MdsMatrix::from_elements(vec![…])` -/
def readMds (p : Nat) : Reader (List (ZMod p)) := do
  expect "MdsMatrix::from_elements("
  let elements ← readVec (readField p)
  expect ")"
  return elements

/-- `Alpha::Exponent(n)` or `Alpha::Inverse` -/
def readAlpha : Reader Alpha :=
  (do expect "Alpha::Exponent("; let n ← readNat; expect ")"; return .exponent n) <|>
  (do expect "Alpha::Inverse"; return .inverse)

/-- The fields of `OptimizedMdsMatrices`. -/
structure OptimizedData (p : Nat) where
  mHat : MatrixData p
  v : MatrixData p
  w : MatrixData p
  mPrime : MatrixData p
  mDoublePrime : MatrixData p
  mInverse : MatrixData p
  mHatInverse : MatrixData p
  m00 : ZMod p
  mI : MatrixData p
  vCollection : List (MatrixData p)
  wHatCollection : List (MatrixData p)

def readOptimized (p : Nat) : Reader (OptimizedData p) := do
  expect "OptimizedMdsMatrices {\n                M_hat: "
  let mHat ← readMatrix p "SquareMatrix"
  expect ",\n                v: "
  let v ← readMatrix p "Matrix"
  expect ",\n                w: "
  let w ← readMatrix p "Matrix"
  expect ",\n                M_prime: "
  let mPrime ← readMatrix p "SquareMatrix"
  expect ",\n                M_doubleprime: "
  let mDoublePrime ← readMatrix p "SquareMatrix"
  expect ",\n                M_inverse: "
  let mInverse ← readMatrix p "SquareMatrix"
  expect ",\n                M_hat_inverse: "
  let mHatInverse ← readMatrix p "SquareMatrix"
  expect ",\n                M_00: "
  let m00 ← readField p
  expect ",\n                M_i: "
  let mI ← readMatrix p "Matrix"
  expect ",\n                v_collection: "
  let vCollection ← readVec (readMatrix p "Matrix")
  expect ",\n                w_hat_collection: "
  let wHatCollection ← readVec (readMatrix p "Matrix")
  expect ",\n            }"
  return { mHat, v, w, mPrime, mDoublePrime, mInverse, mHatInverse, m00, mI, vCollection, wHatCollection }

/-- One generated function and the parameters it returns. -/
structure ParamsData (p : Nat) where
  rate : Nat
  security : Nat
  t : Nat
  arc : MatrixData p
  mds : List (ZMod p)
  alpha : Alpha
  rP : Nat
  rF : Nat
  optimizedMds : OptimizedData p
  optimizedArc : MatrixData p

def readParams (p : Nat) : Reader (ParamsData p) := do
  expect "/// Parameters for the rate-"
  let rate ← readNat
  expect " instance of Poseidon.\npub fn rate_"
  let rate' ← readNat
  if rate ≠ rate' then failure
  expect "<F: PrimeField>() -> PoseidonParameters<F> {\n    PoseidonParameters {\n        M: "
  let security ← readNat
  expect ",\n        t: "
  let t ← readNat
  expect ",\n        arc: "
  let arc ← readMatrix p "ArcMatrix"
  expect ",\n        mds: "
  let mds ← readMds p
  expect ",\n        alpha: "
  let alpha ← readAlpha
  expect ",\n        rounds: RoundNumbers {r_P: "
  let rP ← readNat
  expect ", r_F: "
  let rF ← readNat
  expect "},\n        optimized_mds: "
  let optimizedMds ← readOptimized p
  expect ",\n        optimized_arc: "
  let optimizedArc ← readMatrix p "OptimizedArcMatrix"
  expect ",\n    }\n}\n"
  return { rate, security, t, arc, mds, alpha, rP, rF, optimizedMds, optimizedArc }

/-- All parameter sets up to the end of the text; the first argument bounds their number. -/
def readAll (p : Nat) : Nat → List Char → Option (List (ParamsData p))
  | _, [] => some []
  | 0, _ :: _ => none
  | n + 1, cs => do
    let (P, cs) ← readParams p cs
    let Ps ← readAll p n cs
    return P :: Ps

/-- The generated file: two `use` items, then the parameter sets. -/
def readFile (p : Nat) (cs : List Char) : Option (List (ParamsData p)) := do
  let (_, cs) ← (expect "use ark_ff::PrimeField;\n\nuse poseidon_parameters::v1::{Alpha, ArcMatrix, RoundNumbers, SquareMatrix, Matrix, MdsMatrix, OptimizedArcMatrix, OptimizedMdsMatrices, PoseidonParameters, MatrixOperations};\n\n") cs
  readAll p cs.length cs

/-! ## What the text should say -/

/-- A matrix: its dimensions and its elements in row-major order. -/
def matData {p r c n : Nat} (m : Mat (ZMod p) r c n) : MatrixData p := ⟨r, c, m.elements.toList⟩

def optimizedData {p npart t tm1 nmds nhat : Nat} (o : OptimizedMds (ZMod p) npart t tm1 nmds nhat) : OptimizedData p where
  mHat := matData o.mHat
  v := matData o.v
  w := matData o.w
  mPrime := matData o.mPrime
  mDoublePrime := matData o.mDoublePrime
  mInverse := matData o.mInverse
  mHatInverse := matData o.mHatInverse
  m00 := o.m00
  mI := matData o.mI
  vCollection := o.vCollection.toList.map matData
  wHatCollection := o.wHatCollection.toList.map matData

def paramsData {p t tm1 nmds nhat rows cols nround npart : Nat}
    (P : Params (ZMod p) t tm1 nmds nhat rows cols nround npart) : ParamsData p where
  rate := t - 1
  security := P.security
  t := t
  arc := matData P.arc
  mds := P.mds.elements.toList
  alpha := P.alpha
  rP := P.rounds.rP
  rF := P.rounds.rF
  optimizedMds := optimizedData P.optimizedMds
  optimizedArc := matData P.optimizedArc

end Poseidon.Spec
