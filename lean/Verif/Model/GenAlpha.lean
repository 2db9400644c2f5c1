import Verif.Model.Params
import Verif.Model.GenMds

/-!
# Model of the parameter generator: choice of the S-box

`poseidon-paramgen/src/alpha.rs`.  `F` is the field with `p` elements; `F::from(n).into()` is `n mod p`.
-/

namespace Poseidon

/-- `SHORTEST_ADDITION_CHAINS.depth_2`, alpha.rs:25 -/
def depth2 : List Nat := [4, 3]
/-- `SHORTEST_ADDITION_CHAINS.depth_3`, alpha.rs:26 -/
def depth3 : List Nat := [8, 6, 5]
/-- `SHORTEST_ADDITION_CHAINS.depth_4`, alpha.rs:27 -/
def depth4 : List Nat := [16, 12, 10, 9, 7]
/-- `SHORTEST_ADDITION_CHAINS.depth_5`, alpha.rs:28 -/
def depth5 : List Nat := [32, 24, 20, 18, 17, 15, 14, 13, 11]
/-- `SHORTEST_ADDITION_CHAINS.depth_6`, alpha.rs:29 -/
def depth6 : List Nat := [64, 48, 40, 36, 34, 33, 30, 28, 27, 26, 25, 23, 22, 21, 19]
/-- `SHORTEST_ADDITION_CHAINS.depth_7`, alpha.rs:30-33 -/
def depth7 : List Nat := [
  128, 96, 80, 72, 68, 66, 65, 60, 56, 54, 52, 51, 50, 49, 46, 45, 44, 43, 42, 41, 39, 38,
  37, 35, 31, 29]

/-- `depths_in_order`, alpha.rs:37-44 -/
def depthsInOrder : List Nat :=
  let depths := depth2 ++ depth3
  let depths45 := depth4 ++ depth5
  let depths67 := depth6 ++ depth7
  (depths ++ depths45) ++ depths67

/-- `alpha_coprime_to_p_minus_one`, alpha.rs:64-70: `alpha` is converted to a field element (reduced modulo
`p`) first, and the gcd is compared with 1 in the field. -/
def alphaCoprimeToPMinusOne (alpha p : Nat) : R Bool := do
  let one := 1 % p
  let pMinusOne ← usub p one
  let alphaBig := alpha % p
  let g := Nat.gcd alphaBig pMinusOne
  return g % p == 1 % p

/-- The loop of `generate`, alpha.rs:51-55 -/
def alphaLoop (p : Nat) : List Nat → R (Option Nat)
  | [] => return none
  | candidate :: rest =>
    if candidate % 2 != 0 then do
      let c ← alphaCoprimeToPMinusOne candidate p
      if c then return some candidate else alphaLoop p rest
    else alphaLoop p rest

/-- `generate`, alpha.rs:48-62 -/
def alphaGenerate (p : Nat) (allowInverse : Bool) : R Alpha := do
  match ← alphaLoop p depthsInOrder with
  | some a => return .exponent a
  | none => if allowInverse then return .inverse else .error .explicit

end Poseidon
