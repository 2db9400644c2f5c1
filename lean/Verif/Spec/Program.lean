import Verif.Model.Basic
import Verif.Model.Field
import Mathlib.Algebra.Field.ZMod
import Mathlib.Data.Set.Function

/-!
# Programs that compute with field elements

A program without loops or branches: every instruction writes a constant, a sum or a product of earlier values to a new register.
-/

namespace Poseidon

/-- One instruction; `i` and `j` are numbers of registers. -/
inductive Instr (F : Type) where
  | const (c : F)
  | add (i j : Nat)
  | mul (i j : Nat)

variable {F : Type} [Field F]

/-- What an instruction computes from the registers `r`; `none` if it reads a register that does not exist. -/
def Instr.value (r : List F) : Instr F → Option F
  | .const c => some c
  | .add i j => match r[i]?, r[j]? with
    | some a, some b => some (a + b)
    | _, _ => none
  | .mul i j => match r[i]?, r[j]? with
    | some a, some b => some (a * b)
    | _, _ => none

/-- A run of a program: every value is written to the next register. -/
def runProgram : List (Instr F) → List F → Option (List F)
  | [], r => some r
  | s :: P, r => match s.value r with
    | some v => runProgram P (r ++ [v])
    | none => none

/-- The number of multiplications in a program. -/
def multiplications : List (Instr F) → Nat
  | [] => 0
  | .mul _ _ :: P => multiplications P + 1
  | _ :: P => multiplications P

/-- Started with `x` in its first registers, the program ends with `y` in the registers `out`. -/
def Outputs (P : List (Instr F)) {n m : Nat} (out : Fin m → Nat) (x : Fin n → F) (y : Fin m → F) : Prop :=
  ∃ r, runProgram P (List.ofFn x) = some r ∧ ∀ j, r[out j]? = some (y j)

/-- The function `f` has a program of at most `N` instructions. -/
def HasProgram (N : Nat) {n m : Nat} (f : (Fin n → F) → (Fin m → F)) : Prop :=
  ∃ (P : List (Instr F)) (out : Fin m → Nat), P.length ≤ N ∧ ∀ x, Outputs P out x (f x)

/-- A hash function of `n + 1` field elements that can be run backwards by a program of `N` instructions: for a digest `d` and any `n` field elements
`u`, the program gives a preimage of `d`; different `u` give different preimages, and there are no others. -/
def RunsBackwards (N : Nat) {n : Nat} (h : (Fin (n + 1) → F) → R F) : Prop :=
  ∃ f : (Fin (n + 1) → F) → (Fin (n + 1) → F), HasProgram N f ∧
    ∀ d, Function.Injective (fun u : Fin n → F => f (Fin.cons d u)) ∧ ∀ x, h x = .ok d ↔ ∃ u, f (Fin.cons d u) = x

/-- The hash function `h` never panics and has a program of at most `N` instructions. -/
def HasDigestProgram (N : Nat) {n : Nat} (h : (Fin n → F) → R F) : Prop :=
  ∃ f : (Fin n → F) → (Fin 1 → F), HasProgram N f ∧ ∀ x, h x = .ok (f x 0)

/-- A short program is seldom right: whatever arguments are fixed, a program of the remaining argument with
fewer than `M` multiplications gives the digest for at most `D` values of it. -/
def NoShortProgram (M D : Nat) {n : Nat} (h : (Fin n → F) → R F) : Prop :=
  ∀ (x : Fin n → F) (j : Fin n) (P : List (Instr F)) (out : Fin 1 → Nat), multiplications P < M →
    {z | ∃ d, h (Function.update x j z) = .ok d ∧ Outputs P out (fun _ : Fin 1 => z) fun _ => d}.ncard ≤ D

end Poseidon
