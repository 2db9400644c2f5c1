import Verif.Model.Sha256
import Verif.Model.GenFloat
import Mathlib.LinearAlgebra.Matrix.Charpoly.Basic

/-!
# Model of `vendor/generate_mds.sage`

An edited copy of a script of StarkWare that once wrote the parameters of the crate.  `GF(p)` is any field `F` (a prime field, so that
`field(val)` is the image of an integer); `sha256` is a parameter `h` from byte strings to numbers (`Sha256.sha256` in the script).  Not
modelled: the printing, `sponge` and the functions for binary fields, which the script does not call.
-/

namespace Poseidon.Stark

open Matrix

/-- What the script raises.  generate_mds.sage:125-187. -/
inductive Err
  /-- the assertion that the values are distinct, generate_mds.sage:135-137 -/
  | notDistinct
  /-- one of the assertions about the determinant, generate_mds.sage:164, 178, 179 -/
  | badDeterminant
  /-- `raise RuntimeError`, generate_mds.sage:160 -/
  | runtimeError
  /-- `raise Exception("No good MDS found")`, generate_mds.sage:187 -/
  | noGoodMds
  /-- the assertion of `calculate_num_poseidon_rounds`, generate_mds.sage:363 -/
  | fieldTooSmall
deriving DecidableEq

/-- `("%s%d" % (fn_name, idx)).encode("utf8")`, generate_mds.sage:82, for a name of ASCII characters -/
def label (name : List Char) (idx : Nat) : List Nat := (name ++ Nat.toDigits 10 idx).map Char.toNat

/-- `generate_round_constant` for a prime field, generate_mds.sage:72-84 -/
def roundConstant (F : Type) [Field F] (h : List Nat → Nat) (name : List Char) (idx : Nat) : F := (h (label name idx) : F)

section

variable {F : Type} [Field F]

/-- `mds_proto`, generate_mds.sage:138-140 -/
def proto {m : Nat} (x y : Fin m → F) : Matrix (Fin m) (Fin m) F := Matrix.of fun i j => 1 / (x i - y j)

/-- `expected_det`, generate_mds.sage:166-176 -/
def expectedDet {m : Nat} (x y : Fin m → F) : F :=
  (if m % 4 < 2 then 1 else -1) * (∏ i, ∏ j ∈ Finset.Iio i, (x i - x j)) * (∏ i, ∏ j ∈ Finset.Iio i, (y i - y j)) /
    ∏ i, ∏ j, (x i - y j)

/-- The matrix for `m == 3`, generate_mds.sage:149-153; the entry is read from its position. -/
def near3 {m : Nat} : Matrix (Fin m) (Fin m) F :=
  Matrix.of fun i j => if (i.val, j.val) ∈ [(0, 0), (0, 2), (1, 0), (1, 1), (2, 1), (2, 2)] then 1 else 0

/-- The matrix for `m == 4`, generate_mds.sage:155-158 -/
def near4 {m : Nat} : Matrix (Fin m) (Fin m) F := Matrix.of fun y x => if x ≠ y then 1 else 0

open Classical in
/-- The loop of `generate_mds_matrix`, generate_mds.sage:125-187, with `n` attempts left; `name` without the final `x` or `y` -/
noncomputable def attempts (h : List Nat → Nat) (name : List Char) (m : Nat) (optimize : Bool) :
    Nat → Nat → Except Err (Matrix (Fin m) (Fin m) F)
  | 0, _ => .error .noGoodMds
  | n + 1, attempt =>
    let x : Fin m → F := fun i => roundConstant F h (name ++ ['x']) (attempt * m + i)
    let y : Fin m → F := fun i => roundConstant F h (name ++ ['y']) (attempt * m + i)
    if ¬ Function.Injective (Sum.elim x y) then .error .notDistinct
    else if optimize then
      if m = 3 then .ok near3 else if m = 4 then .ok near4 else .error .runtimeError
    else
      let mds := proto x y
      if mds.det = 0 then .error .badDeterminant
      else if mds.det ≠ expectedDet x y then .error .badDeterminant
      else if mds.charpoly.roots = 0 then .ok mds
      else attempts h name m optimize n (attempt + 1)

/-- `generate_mds_matrix`, generate_mds.sage:118-187 -/
noncomputable def generateMdsMatrix (F : Type) [Field F] (h : List Nat → Nat) (name : List Char) (m : Nat) (optimize : Bool) :
    Except Err (Matrix (Fin m) (Fin m) F) := attempts h name m optimize 100 0

/-- The round constants of `generate_ark_rs`, generate_mds.sage:266-272: row `i`, column `j` -/
def ark (F : Type) [Field F] (h : List Nat → Nat) (stateSize i j : Nat) : F :=
  roundConstant F h ['H', 'a', 'd', 'e', 's'] (stateSize * i + j)

end

/-- `min_num_rounds` of `calculate_num_poseidon_rounds`, generate_mds.sage:366.  Sage's logarithms are symbolic and `ceil` of them is exact;
`log(p, state_size)` is the logarithm of `p` to the base `state_size`. -/
noncomputable def minNumRounds (sec alpha stateSize p : Nat) : ℤ :=
  ⌈Real.logb alpha 2 * min (sec : ℝ) (Real.logb stateSize p)⌉ + ⌈Real.logb 2 stateSize⌉

/-- `calculate_num_poseidon_rounds`, generate_mds.sage:362-376: full and partial rounds; the function returns their sum, of which the caller
(generate_mds.sage:326-327) subtracts 8 again.  `1.075` is a number of 53 bits. -/
noncomputable def numRounds (order sec alpha capacity stateSize p : Nat) : Except Err (ℤ × ℤ) :=
  if capacity * Nat.size order ≤ sec then .error .fieldTooSmall
  else
    let fullRounds : ℤ := 6
    let partialRounds := minNumRounds sec alpha stateSize p - fullRounds
    let partialRounds := ⌈rne ((partialRounds : ℝ) * rne 1.075)⌉
    .ok (fullRounds + 2, partialRounds)

end Poseidon.Stark
