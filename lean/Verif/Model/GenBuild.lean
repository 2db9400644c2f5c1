import Verif.Model.Params
import Verif.Model.GenV2
import Mathlib.Data.ZMod.Basic

/-!
# Model of the code generator: `poseidon-paramgen/src/poseidon_build.rs`

Text is a list of characters.  The field is `ZMod p`; `let x: BigUint = elem.into()` is the canonical
representative.
-/

namespace Poseidon

/-- `char::from_digit(d, 10)` for `d < 10`.  The formatting in poseidon_build.rs, cited at the functions below. -/
def digitChar (d : Nat) : Char := Char.ofNat ('0'.toNat + d)

/-- `format!("{}", n)` for an unsigned integer.  The formatting in poseidon_build.rs, cited at the functions below. -/
def decimal (n : Nat) : List Char :=
  if n < 10 then [digitChar n] else decimal (n / 10) ++ [digitChar (n % 10)]
termination_by n
decreasing_by omega

variable {p : Nat}

/-- The loop body of `serialize_slice_f`, poseidon_build.rs:152-157. -/
def pushElement (s : List Char) (x : ZMod p) : List Char :=
  s ++ "F::from_str(\"".toList ++ decimal x.val ++ "\").map_err(|_| ()).unwrap(), ".toList

/-- `serialize_slice_f`, poseidon_build.rs:149-164 -/
def serializeSliceF (elements : List (ZMod p)) : List Char :=
  (elements.foldl pushElement "vec![".toList).dropLast.dropLast ++ [']']

/-- `serialize_slice_of_vecs_f`, poseidon_build.rs:166-181 -/
def serializeSliceOfVecsF (elements : List (List (ZMod p))) : List Char :=
  (elements.foldl (fun s r => r.foldl pushElement s) "vec![".toList).dropLast.dropLast ++ [']']

/-- `serialize_f`, poseidon_build.rs:183-189 -/
def serializeF (x : ZMod p) : List Char :=
  "F::from_str(\"".toList ++ decimal x.val ++ "\").map_err(|_| ()).unwrap()".toList

/-- `DisplayableAlpha`, poseidon_build.rs:107-115 -/
def displayAlpha : Alpha → List Char
  | .exponent e => "Alpha::Exponent(".toList ++ decimal e ++ ")".toList
  | .inverse => "Alpha::Inverse".toList

/-- `DisplayableMatrix`, poseidon_build.rs:117-125 -/
def displayMatrix {r c n : Nat} (m : Mat (ZMod p) r c n) : List Char :=
  "Matrix::new(".toList ++ decimal r ++ ", ".toList ++ decimal c ++ ", ".toList ++
    serializeSliceF m.elements.toList ++ ")".toList

/-- `DisplayableSquareMatrix`, poseidon_build.rs:127-135 -/
def displaySquareMatrix {k n : Nat} (m : Mat (ZMod p) k k n) : List Char :=
  "SquareMatrix::new(".toList ++ decimal k ++ ", ".toList ++ decimal k ++ ", ".toList ++
    serializeSliceF m.elements.toList ++ ")".toList

/-- `serialize_slice_matrix_f`, poseidon_build.rs:137-147 -/
def serializeSliceMatrixF {r c n : Nat} (elements : List (Mat (ZMod p) r c n)) : List Char :=
  (elements.foldl (fun s m => s ++ displayMatrix m ++ ", ".toList) "vec![".toList).dropLast.dropLast ++ [']']

/-- `DisplayableOptimizedMdsMatrices`, poseidon_build.rs:191-235 -/
def displayOptimizedMds {npart t tm1 nmds nhat : Nat} (o : OptimizedMds (ZMod p) npart t tm1 nmds nhat) : List Char :=
  "OptimizedMdsMatrices {\n                M_hat: ".toList ++ displaySquareMatrix o.mHat ++
  ",\n                v: ".toList ++ displayMatrix o.v ++
  ",\n                w: ".toList ++ displayMatrix o.w ++
  ",\n                M_prime: ".toList ++ displaySquareMatrix o.mPrime ++
  ",\n                M_doubleprime: ".toList ++ displaySquareMatrix o.mDoublePrime ++
  ",\n                M_inverse: ".toList ++ displaySquareMatrix o.mInverse ++
  ",\n                M_hat_inverse: ".toList ++ displaySquareMatrix o.mHatInverse ++
  ",\n                M_00: ".toList ++ serializeF o.m00 ++
  ",\n                M_i: ".toList ++ displayMatrix o.mI ++
  ",\n                v_collection: ".toList ++ serializeSliceMatrixF o.vCollection.toList ++
  ",\n                w_hat_collection: ".toList ++ serializeSliceMatrixF o.wHatCollection.toList ++
  ",\n            }".toList

/-- `DisplayableMdsMatrix`, poseidon_build.rs:237-247 -/
def displayMds {r c n : Nat} (m : Mat (ZMod p) r c n) : List Char :=
  "MdsMatrix::from_elements(".toList ++ serializeSliceF m.elements.toList ++ [')']

/-- `optimized_arc_matrix_to_vec_vec`, poseidon_build.rs:269-281.  `DisplayableArcMatrix` converts with
`arc.into()`, for which `poseidon-parameters` has no implementation any more; it is taken to be the same
function. -/
def arcRows {r c n : Nat} (m : Mat (ZMod p) r c n) : R (List (List (ZMod p))) :=
  forRange 0 r [] fun i rows => do
    let row ← forRange 0 c [] fun j row => do
      let x ← m.get i j
      return row ++ [x]
    return rows ++ [row]

/-- `DisplayableArcMatrix`, poseidon_build.rs:249-267 -/
def displayArc {r c n : Nat} (m : Mat (ZMod p) r c n) : R (List Char) := do
  let elements ← arcRows m
  return "ArcMatrix::new(".toList ++ decimal r ++ ", ".toList ++ decimal c ++ ", ".toList ++
    serializeSliceOfVecsF elements ++ [')']

/-- `DisplayableOptimizedArcMatrix`, poseidon_build.rs:283-299 -/
def displayOptimizedArc {r c n : Nat} (m : Mat (ZMod p) r c n) : R (List Char) := do
  let elements ← arcRows m
  return "OptimizedArcMatrix::new(".toList ++ decimal r ++ ", ".toList ++ decimal c ++ ", ".toList ++
    serializeSliceOfVecsF elements ++ [')']

/-- `DisplayablePoseidonParameters`, poseidon_build.rs:61-105; the field `t` it names is the const generic
`STATE_SIZE`. -/
def displayParams {t tm1 nmds nhat rows cols nround npart : Nat}
    (P : Params (ZMod p) t tm1 nmds nhat rows cols nround npart) : R (List Char) := do
  let rate ← usub t 1
  let arc ← displayArc P.arc
  let oarc ← displayOptimizedArc P.optimizedArc
  return "/// Parameters for the rate-".toList ++ decimal rate ++ " instance of Poseidon.\npub fn rate_".toList ++
    decimal rate ++ "<F: PrimeField>() -> PoseidonParameters<F> {\n    PoseidonParameters {\n        M: ".toList ++
    decimal P.security ++ ",\n        t: ".toList ++ decimal t ++ ",\n        arc: ".toList ++ arc ++
    ",\n        mds: ".toList ++ displayMds P.mds ++ ",\n        alpha: ".toList ++ displayAlpha P.alpha ++
    ",\n        rounds: RoundNumbers {r_P: ".toList ++ decimal P.rounds.partialRounds ++ ", r_F: ".toList ++
    decimal P.rounds.full ++ "},\n        optimized_mds: ".toList ++ displayOptimizedMds P.optimizedMds ++
    ",\n        optimized_arc: ".toList ++ oarc ++ ",\n    }\n}\n".toList

/-- A parameter set of any size.  v1.rs:15-59 (`PoseidonParameters`). -/
structure AnyParams (p : Nat) where
  {t tm1 nmds nhat rows cols nround npart : Nat}
  params : Params (ZMod p) t tm1 nmds nhat rows cols nround npart

/-- `v1_compile`, poseidon_build.rs:17-33.  `gen` is `v1::generate` at the fixed `M`, `p`, `allow_inverse`: the
const generics, which the text does not mention, depend on `t`. -/
def v1Compile (gen : Nat → R (AnyParams p)) (tValues : List Nat) : R (List Char) :=
  forList tValues "use ark_ff::PrimeField;\n\nuse poseidon_parameters::v1::{Alpha, ArcMatrix, RoundNumbers, SquareMatrix, Matrix, MdsMatrix, OptimizedArcMatrix, OptimizedMdsMatrices, PoseidonParameters, MatrixOperations};\n\n".toList
    fun t code => do
      let P ← gen t
      let text ← displayParams P.params
      return code ++ text

/-- `v2_compile`, poseidon_build.rs:36-52, with `DisplayableV2PoseidonParameters`, :54-59, which is `todo!()`. -/
def v2Compile {α : Type _} (gen : Nat → R α) (tValues : List Nat) : R (List Char) :=
  forList tValues "use ark_ff::PrimeField;\n\nuse poseidon_parameters::v2::{Alpha, ArcMatrix, RoundNumbers, SquareMatrix, Matrix, PoseidonParameters, MatrixOperations};\n\n".toList
    fun t _ => do
      let _ ← gen t
      .error .unimplemented

end Poseidon
