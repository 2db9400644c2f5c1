import Verif.Model.GenV2
import Verif.Model.GenAlpha
import Verif.Proofs.Eval377

/-!
# Known answers of the matrix and generator tests

Not properties: what the unit tests of `poseidon-tests/tests/parameters.rs` and of `poseidon-paramgen` expect, computed from the model
by the kernel, over the field of the tests.
-/

namespace Poseidon

/-- The entries, row by row; `none` for a panic. -/
def entries {F : Type} {r c n : Nat} : R (Mat F r c n) → Option (List F)
  | .ok m => some m.elements.toList
  | .error _ => none

def value {F : Type} : R F → Option F
  | .ok m => some m
  | .error _ => none

/-! ### poseidon-tests/tests/parameters.rs -/

/-- `identity_matrix`, lines 8-15 -/
example : entries (Mat.identity Fq 2 4) = some [1, 0, 0, 1] := by decide +kernel

/-- `square_matmul`, lines 17-35 -/
example : entries (do matMul 4 (← Mat.new 2 2 4 [(1 : Fq), 2, 3, 4]) (← Mat.identity Fq 2 4)) = some [1, 2, 3, 4] := by decide +kernel

/-- `nonsquare_matmul_happy`, lines 37-60 -/
example : entries (do
    let m ← Mat.new 3 2 6 [(1 : Fq), 2, 3, 4, 5, 6]
    matMul 9 m (← m.transpose)) = some [5, 11, 17, 11, 25, 39, 17, 39, 61] := by decide +kernel

/-- `hadamard_product`, lines 62-81 -/
example : entries (do
    let m ← Mat.new 3 2 6 [(1 : Fq), 2, 3, 4, 5, 6]
    m.hadamard m) = some [1, 4, 9, 16, 25, 36] := by decide +kernel

/-- `transpose`, lines 83-119 -/
example : entries (do (← Mat.new 3 2 6 [(1 : Fq), 2, 3, 4, 5, 6]).transpose) = some [1, 3, 5, 2, 4, 6] := by decide +kernel
example : entries (do (← Mat.new 2 2 4 [(1 : Fq), 2, 3, 4]).transpose) = some [1, 3, 2, 4] := by decide +kernel

/-- `cofactors`, lines 121-137 -/
example : entries (do (← Mat.identity Fq 1 1).cofactors) = some [1] := by decide +kernel
example : entries (do (← Mat.identity Fq 2 4).cofactors) = some [1, -1, -1, 1] := by decide +kernel

/-- `determinant`, lines 238-285 -/
example : value (do determinant 1 (← Mat.new 1 1 1 [(1 : Fq)])) = some 1 := by decide +kernel
example : value (do determinant 2 (← Mat.new 2 2 4 [(1 : Fq), 2, 3, 4])) = some (-2) := by decide +kernel
example : value (do determinant 3 (← Mat.new 3 3 9 [(1 : Fq), 2, 3, 4, 5, 6, 7, 8, 9])) = some 0 := by decide +kernel
example : value (do determinant 4 (← Mat.new 4 4 16 ([(1 : Fq), 2, 3, 4, 5, 6, 7, 8, 9] ++ List.replicate 7 10))) = some 0 := by decide +kernel
example : value (do determinant 5 (← Mat.new 5 5 25 ([(1 : Fq), 2, 3, 4, 5, 6, 7, 8, 9] ++ List.replicate 16 10))) = some 0 := by decide +kernel
example : value (do determinant 6 (← Mat.new 6 6 36 ([(1 : Fq), 2, 3, 4, 5, 6, 7, 8, 9] ++ List.replicate 27 10))) = some 0 := by decide +kernel

/-- `inverse`, lines 157-208 -/
example : value (do
    let m ← Mat.new 1 1 1 [(2 : Fq)]
    match ← m.inverse true with
    | .ok i => return entries (matMul 1 m i)
    | .error _ => .error .explicit) = some (some [1]) := by decide +kernel
example : value (do
    let m ← Mat.new 2 2 4 [(1 : Fq), 2, 3, 4]
    match ← m.inverse true with
    | .ok i => return entries (matMul 4 m i)
    | .error _ => .error .explicit) = some (some [1, 0, 0, 1]) := by decide +kernel
example : value (do
    let m ← Mat.new 3 3 9 [(3 : Fq), 0, 2, 2, 0, -2, 0, 1, 1]
    match ← m.inverse true with
    | .ok i => return (entries (matMul 9 m i), some i.elements.toList)
    | .error _ => .error .explicit) =
    some (some [1, 0, 0, 0, 1, 0, 0, 0, 1], entries (do (← Mat.new 3 3 9 [(2 : Fq), 2, 0, -2, 3, 10, 2, -3, 0]).scale (1 / 10))) := by
  decide +kernel

/-! ### poseidon-paramgen -/

/-- `internal_matrix_t_equals_2`, `internal_matrix_t_equals_3`, v2/internal.rs:52-85 -/
example : entries (internalGenerate true Fq 2 4) = some [2, 1, 1, 3] := by decide +kernel
example : entries (internalGenerate true Fq 3 9) = some [2, 1, 1, 1, 2, 1, 1, 1, 3] := by decide +kernel

/-- `external_matrix_t_equals_4`, v2/external.rs:80-108 -/
example : entries (externalGenerate Fq 4 16) = some [5, 7, 1, 3, 4, 6, 1, 1, 1, 3, 5, 7, 1, 1, 4, 6] := by decide +kernel

/-- `external_matrix_t_equals_8`, v2/external.rs:110-193 -/
example : entries (externalGenerate Fq 8 64) = some [
    10, 14, 2, 6, 5, 7, 1, 3,
    8, 12, 2, 2, 4, 6, 1, 1,
    2, 6, 10, 14, 1, 3, 5, 7,
    2, 2, 8, 12, 1, 1, 4, 6,
    5, 7, 1, 3, 10, 14, 2, 6,
    4, 6, 1, 1, 8, 12, 2, 2,
    1, 3, 5, 7, 2, 6, 10, 14,
    1, 1, 4, 6, 2, 2, 8, 12] := by decide +kernel

/-- `check_alpha_5`, alpha.rs:97-106: the scalar fields of BLS12-381 and BN254 -/
example : value (alphaGenerate 52435875175126190479447740508185965837690552500527637822603658699938581184513 true) = some (.exponent 5) := by
  decide +kernel
example : value (alphaGenerate 21888242871839275222246405745257275088548364400416034343698204186575808495617 true) = some (.exponent 5) := by
  decide +kernel

/-- `check_alpha_17`, alpha.rs:108-113 -/
example : value (alphaGenerate q true) = some (.exponent 17) := by decide +kernel

/-! `check_calc_equivalent_matrices_vs_sage`, mds.rs:292-375; the generator's values are the shipped ones (C20). -/

example : rate2_m00.canon = 5629641166285580282832549959187697687583932890102709218623488970611606159361 := by decide +kernel
example : (rate2_vCollection.take 2).map canons = [
    [6333346312071277818186618704086159898531924501365547870951425091938056929281,
     6755569399542696339399059951025237225100719468123251062348186764733927391233],
    [7740756603642672888894756193883084320427907723891225175607297334590958469121,
     7851338840837568215878966996652842667862592119946814106687401582227972161537]] := by decide +kernel
example : (rate2_wHatCollection.take 2).map canons = [
    [3, 844446174942837042424882493878154653137589933515406382793523345591740923902],
    [981, 1688892349885674084849764987756309306275179867030812765587046691183481846649]] := by decide +kernel
example : canons rate2_mI = [1, 0, 0, 0,
    1949629285152675843545617098663080067734218406516000484720630379218497119024,
    6804287869450188502728877251894011667833647269738979685488937504164506768586, 0,
    6804287869450188502728877251894011667833647269738979685488937504164506768586,
    4924677972410444052137834859533533887056104638988047570112284264367323462906] := by decide +kernel

end Poseidon
