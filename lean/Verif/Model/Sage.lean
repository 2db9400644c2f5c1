import Verif.Model.Field
import Verif.Model.Basic
import Verif.Params.Sage
import Mathlib.LinearAlgebra.Matrix.NonsingularInverse
import Mathlib.Data.Fin.Tuple.Basic

/-!
# Model of `poseidonperm_x17.sage`

The reference script at the root of the repository.  Its functions read global variables; the model passes them as
`SageGlobals`.  A list of `t` words is a function on `Fin t` and Sage's matrices are Mathlib's, so the inner loops over the
words of a state are vector operations.  Tables are lists, and an index out of range is the error it is in Python.
-/

namespace Poseidon

open scoped Matrix

variable {F : Type} [Field F] [DecidableEq F] {k : Nat}

/-- The global variables the functions of the script read, poseidonperm_x17.sage:6-13, 178-186; `t = k + 1`, and `R_f` and
`R_T` are computed from the others -/
structure SageGlobals (F : Type) (k : Nat) where
  alpha : Nat
  rF : Nat
  rP : Nat
  /-- `MDS_matrix_field` -/
  mds : Matrix (Fin (k + 1)) (Fin (k + 1)) F
  /-- `round_constants_field` -/
  roundConstants : List F

/-- `R_f = R_F / 2`, poseidonperm_x17.sage:12, 249, 308 (an exact division in the script) -/
def SageGlobals.halfFull (g : SageGlobals F k) : Nat := g.rF / 2

/-- `R_T = R_F + R_P`, poseidonperm_x17.sage:13 -/
def SageGlobals.total (g : SageGlobals F k) : Nat := g.rF + g.rP

/-- `list[i] = x`.  For instance poseidonperm_x17.sage:259. -/
def pySet {α : Type} (l : List α) (i : Nat) (x : α) : R (List α) :=
  if i < l.length then .ok (l.set i x) else .error .indexOOB

/-- `matrix.inverse()` over a field: `ZeroDivisionError` for a singular matrix.
Called in poseidonperm_x17.sage:198 and poseidonperm_x17.sage:221. -/
noncomputable def sageInverse {n : Nat} (A : Matrix (Fin n) (Fin n) F) : R (Matrix (Fin n) (Fin n) F) :=
  if A.det = 0 then .error .divZero else .ok A⁻¹

/-- `[constants[index:index+t] for index in range(0, len(constants), t)]`, poseidonperm_x17.sage:189, 302, for a list whose
length is a multiple of `t` -/
def sageRows (k : Nat) (constants : List F) : List (Fin (k + 1) → F) :=
  (List.range (constants.length / (k + 1))).map fun i j => constants.getD (i * (k + 1) + j.val) 0

/-- the body of the loop of `calc_equivalent_constants`, poseidonperm_x17.sage:198-200 -/
noncomputable def SageGlobals.constantsStep (g : SageGlobals F k) (i : Nat) (table : List (Fin (k + 1) → F)) :
    R (List (Fin (k + 1) → F)) := do
  let next ← lget table (i + 1)
  let inv ← sageInverse g.mdsᵀ
  let invCip1 := next ᵥ* inv
  let cur ← lget table i
  let table ← pySet table i (cur + Fin.cons 0 (Fin.tail invCip1))
  pySet table (i + 1) (Fin.cons (invCip1 0) 0)

/-- `calc_equivalent_constants`, poseidonperm_x17.sage:188-202; the loop counts `i` from `R_T - 2 - R_f` down to `R_f` -/
noncomputable def SageGlobals.calcEquivalentConstants (g : SageGlobals F k) (constants : List F) :
    R (List (Fin (k + 1) → F)) :=
  forRange 0 (g.total - 1 - g.halfFull - g.halfFull) (sageRows k constants) fun n table =>
    g.constantsStep (g.total - 2 - g.halfFull - n) table

/-- the variables of the loop of `calc_equivalent_matrices`.  poseidonperm_x17.sage:211-215. -/
structure SageMatrices (F : Type) (k : Nat) where
  mI : Matrix (Fin (k + 1)) (Fin (k + 1)) F
  mMul : Matrix (Fin (k + 1)) (Fin (k + 1)) F
  vCollection : List (Fin k → F)
  wHatCollection : List (Fin k → F)

/-- the body of the loop of `calc_equivalent_matrices`, poseidonperm_x17.sage:217-227 -/
noncomputable def SageGlobals.matricesStep (g : SageGlobals F k) (s : SageMatrices F k) : R (SageMatrices F k) := do
  let mHat : Matrix (Fin k) (Fin k) F := s.mMul.submatrix Fin.succ Fin.succ
  let w : Fin k → F := fun i => s.mMul i.succ 0
  let v : Fin k → F := fun j => s.mMul 0 j.succ
  let inv ← sageInverse mHat
  let wHat := inv *ᵥ w
  let mI : Matrix (Fin (k + 1)) (Fin (k + 1)) F :=
    Matrix.of (Fin.cons (Fin.cons 1 fun _ => 0) fun i => Fin.cons 0 (mHat i))
  return { mI, mMul := g.mdsᵀ * mI, vCollection := s.vCollection ++ [v], wHatCollection := s.wHatCollection ++ [wHat] }

/-- `calc_equivalent_matrices`, poseidonperm_x17.sage:204-228; the loop runs `R_P` times -/
noncomputable def SageGlobals.calcEquivalentMatrices (g : SageGlobals F k) : R (SageMatrices F k) :=
  forRange 0 g.rP { mI := 0, mMul := g.mdsᵀ, vCollection := [], wHatCollection := [] } fun _ s => g.matricesStep s

/-- `cheap_matrix_mul`, poseidonperm_x17.sage:230-237 -/
def cheapMatrixMul (stateWords : Fin (k + 1) → F) (v wHat : Fin k → F) (m00 : F) : Fin (k + 1) → F :=
  Fin.cons (∑ i, (Fin.cons m00 wHat : Fin (k + 1) → F) i * stateWords i) fun i => stateWords 0 * v i + stateWords i.succ

/-- one full round: poseidonperm_x17.sage:256-263, 288-295, 315-322, 334-341; the pair is `state_words` and
`round_constants_round_counter` -/
def SageGlobals.fullRound (g : SageGlobals F k) (table : List (Fin (k + 1) → F)) (s : (Fin (k + 1) → F) × Nat) :
    R ((Fin (k + 1) → F) × Nat) := do
  let c ← lget table s.2
  return (g.mds *ᵥ fun i => (s.1 i + c i) ^ g.alpha, s.2 + 1)

/-- one partial round of `perm_original`, poseidonperm_x17.sage:325-331 -/
def SageGlobals.partialRound (g : SageGlobals F k) (table : List (Fin (k + 1) → F)) (s : (Fin (k + 1) → F) × Nat) :
    R ((Fin (k + 1) → F) × Nat) := do
  let c ← lget table s.2
  let x := s.1 + c
  return (g.mds *ᵥ Function.update x 0 (x 0 ^ g.alpha), s.2 + 1)

/-- `perm_original`, poseidonperm_x17.sage:301-345 -/
def SageGlobals.permOriginal (g : SageGlobals F k) (inputWords : Fin (k + 1) → F) : R (Fin (k + 1) → F) := do
  let table := sageRows k g.roundConstants
  let s ← forRange 0 g.halfFull (inputWords, 0) fun _ s => g.fullRound table s
  let s ← forRange 0 g.rP s fun _ s => g.partialRound table s
  let s ← forRange 0 g.halfFull s fun _ s => g.fullRound table s
  return s.1

/-- one partial round of `perm`, poseidonperm_x17.sage:273-283 -/
def SageGlobals.cheapRound (g : SageGlobals F k) (table : List (Fin (k + 1) → F)) (m : SageMatrices F k) (r : Nat)
    (s : (Fin (k + 1) → F) × Nat) : R ((Fin (k + 1) → F) × Nat) := do
  let x := Function.update s.1 0 (s.1 0 ^ g.alpha)
  let (x, counter) ←
    if r < g.rP - 1 then do
      let c ← lget table (s.2 + 1)
      pure (Function.update x 0 (x 0 + c 0), s.2 + 1)
    else pure (x, s.2)
  let v ← lget m.vCollection (g.rP - r - 1)
  let wHat ← lget m.wHatCollection (g.rP - r - 1)
  return (cheapMatrixMul x v wHat (g.mds 0 0), counter)

/-- `perm`, poseidonperm_x17.sage:239-299 (without the timers) -/
noncomputable def SageGlobals.perm (g : SageGlobals F k) (inputWords : Fin (k + 1) → F) : R (Fin (k + 1) → F) := do
  let table ← g.calcEquivalentConstants g.roundConstants
  let m ← g.calcEquivalentMatrices
  let s ← forRange 0 g.halfFull (inputWords, 0) fun _ s => g.fullRound table s
  let c ← lget table s.2
  let x := (s.1 + c) ᵥ* m.mI
  let s ← forRange 0 g.rP (x, s.2) fun r s => g.cheapRound table m r s
  let s ← forRange 0 g.halfFull (s.1, s.2 + 1) fun _ s => g.fullRound table s
  return s.1

/-- The values of the globals, poseidonperm_x17.sage:6-13, 178-186 -/
def sageScript : SageGlobals Fq 2 where
  alpha := 17
  rF := 8
  rP := 31
  mds := Matrix.of fun i j => (((sageMdsMatrix.getD i.val []).getD j.val 0 : Nat) : Fq)
  roundConstants := (List.range ((8 + 31) * 3)).map fun i => ((sageRoundConstants.getD i 0 : Nat) : Fq)

end Poseidon
