import Verif.Model.Sage
import Verif.Spec.AuthorVectors

/-!
# Model of the scripts `vendor/hadeshash/code/poseidonperm_*.sage`

The four scripts with exponent 5 have the same text except for the values of the globals.  The script with exponent 3 has the functions of
`poseidonperm_x17.sage` (`Model/Sage.lean`), with other values of the globals; that it takes `M_0_0` from the transposed matrix makes no
difference.
-/

namespace Poseidon

open scoped Matrix

variable {F : Type} [Field F] [DecidableEq F] {t : Nat}

/-- The global variables read by `perm`, poseidonperm_x5_254_3.sage:3-20 -/
structure SimpleGlobals (F : Type) (t : Nat) where
  /-- the exponent, a literal in the scripts -/
  alpha : Nat
  rF : Nat
  rP : Nat
  /-- `MDS_matrix_field` -/
  mds : Matrix (Fin t) (Fin t) F
  /-- `round_constants_field` -/
  roundConstants : List F

/-- the loop over the words that adds the constants, poseidonperm_x5_254_3.sage:45-47, 55-57, 64-66 -/
def SimpleGlobals.addConstants (g : SimpleGlobals F t) (st : Vector F t × Nat) : R (Vector F t × Nat) :=
  forRange 0 t st fun i (s, counter) => do
    let x ← aget s i
    let c ← lget g.roundConstants counter
    let s ← aset s i (x + c)
    return (s, counter + 1)

/-- one iteration of the first and of the third loop, poseidonperm_x5_254_3.sage:43-50, 62-69 -/
def SimpleGlobals.fullRound (g : SimpleGlobals F t) (st : Vector F t × Nat) : R (Vector F t × Nat) := do
  let (s, counter) ← g.addConstants st
  let s ← forRange 0 t s fun i s => do
    let x ← aget s i
    aset s i (x ^ g.alpha)
  return (Vector.ofFn (g.mds *ᵥ fun i => s[i]), counter)

/-- one iteration of the second loop, poseidonperm_x5_254_3.sage:53-59 -/
def SimpleGlobals.partialRound (g : SimpleGlobals F t) (st : Vector F t × Nat) : R (Vector F t × Nat) := do
  let (s, counter) ← g.addConstants st
  let x ← aget s 0
  let s ← aset s 0 (x ^ g.alpha)
  return (Vector.ofFn (g.mds *ᵥ fun i => s[i]), counter)

/-- `perm`, poseidonperm_x5_254_3.sage:34-71 -/
def SimpleGlobals.perm (g : SimpleGlobals F t) (inputWords : Vector F t) : R (Vector F t) := do
  let rf := g.rF / 2
  let st ← forRange 0 rf (inputWords, 0) fun _ st => g.fullRound st
  let st ← forRange 0 g.rP st fun _ st => g.partialRound st
  let st ← forRange 0 rf st fun _ st => g.fullRound st
  return st.1

namespace Authors

/-- A matrix from the list of its rows, one after the other, poseidonperm_x5_254_3.sage:14-17 -/
def literalMatrix (F : Type) [Field F] (t : Nat) (l : List Nat) : Matrix (Fin t) (Fin t) F :=
  Matrix.of fun i j => ((l.getD (i.val * t + j.val) 0 : Nat) : F)

/-- The values of the globals of the scripts with exponent 5, poseidonperm_x5_254_3.sage:3-20 -/
def script5 (F : Type) [Field F] (t rP : Nat) (mds arc : List Nat) : SimpleGlobals F t where
  alpha := 5
  rF := 8
  rP := rP
  mds := literalMatrix F t mds
  roundConstants := arc.map (fun c : Nat => (c : F))

/-- The values of the globals, poseidonperm_x3_64_24_optimized.sage:4-29 -/
def script3 (F : Type) [Field F] : SageGlobals F 23 where
  alpha := 3
  rF := 8
  rP := 42
  mds := literalMatrix F 24 mds_64_24
  roundConstants := arc_64_24.map (fun c : Nat => (c : F))

end Authors

end Poseidon
