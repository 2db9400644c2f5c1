import Mathlib.Algebra.Field.ZMod
import Mathlib.Data.Nat.Digits.Defs
import Verif.Model.MdsTests

/-!
# Model of the Grain generator of the Poseidon authors

`vendor/hadeshash/code/generate_parameters_grain.sage`: the generator of pseudorandom bits and the functions that draw round constants and
a matrix from it.  The scripts `poseidonperm_*.sage` carry the output of this script as literals.

A bit is a `Bool`.  `none` stands for an exception, and for a loop that has not ended within `fuel` iterations: the `while` loops of the
script have no bound.  "The script returns" is "for some `fuel` the result is not `none`".
-/

namespace Poseidon.Grain

/-- generate_parameters_grain.sage:42-44 (and 47-49, 51-53, 54-56, 57-59): `new_bit = …; bit_sequence.pop(0); bit_sequence.append(new_bit)` -/
def shift (b : List Bool) : Option (Bool × List Bool) := do
  let newBit := (← b[62]?) ^^ (← b[51]?) ^^ (← b[38]?) ^^ (← b[23]?) ^^ (← b[13]?) ^^ (← b[0]?)
  return (newBit, b.tail ++ [newBit])

/-- The first loop of `grain_sr_generator`, generate_parameters_grain.sage:41-44: `i` iterations (the script makes 160) -/
def warmUp : Nat → List Bool → Option (List Bool)
  | 0, b => some b
  | i + 1, b => do warmUp i (← shift b).2

/-- The inner loop of `grain_sr_generator`, generate_parameters_grain.sage:50-56: `while new_bit == 0` -/
def skip : Nat → Bool → List Bool → Option (List Bool)
  | 0, _, _ => none
  | fuel + 1, newBit, b =>
    if newBit then some b
    else do
      let (_, b) ← shift b
      let (newBit, b) ← shift b
      skip fuel newBit b

/-- `next(grain_gen)` after the warm-up, generate_parameters_grain.sage:47-60 -/
def next (fuel : Nat) (b : List Bool) : Option (Bool × List Bool) := do
  let (newBit, b) ← shift b
  let b ← skip fuel newBit b
  shift b

/-- `i` iterations of a loop that collects what `draw` returns.  generate_parameters_grain.sage:64, generate_parameters_grain.sage:87-96. -/
def collect {α : Type} (draw : List Bool → Option (α × List Bool)) : (i : Nat) → List Bool → Option ((Fin i → α) × List Bool)
  | 0, b => some (Fin.elim0, b)
  | i + 1, b => do
    let (x, b) ← draw b
    let (l, b) ← collect draw i b
    return (Fin.cons x l, b)

/-- The value of a string of binary digits, the first the most significant: `int(…, 2)`.  generate_parameters_grain.sage:66. -/
def intOfBits (l : List Bool) : Nat := l.foldl (fun a b => 2 * a + b.toNat) 0

/-- `grain_random_bits`, generate_parameters_grain.sage:63-67; `int("", 2)` raises an exception -/
def randomBits (fuel numBits : Nat) (b : List Bool) : Option (Nat × List Bool) :=
  if numBits = 0 then none
  else do
    let (l, b) ← collect (next fuel) numBits b
    return (intOfBits (List.ofFn l), b)

/-- `bin(x)[2:].zfill(width)`: the binary digits, at least one, with zeros in front up to `width`.  generate_parameters_grain.sage:71-76. -/
def binZfill (width x : Nat) : List Bool :=
  let digits := if x = 0 then [false] else (Nat.digits 2 x).reverse.map (· == 1)
  List.replicate (width - digits.length) false ++ digits

/-- The arguments of the script, generate_parameters_grain.sage:21-35 -/
structure Arguments where
  field : Nat
  sbox : Nat
  fieldSize : Nat
  numCells : Nat
  rF : Nat
  rP : Nat
  prime : Nat

/-- `init_generator`, generate_parameters_grain.sage:69-80.  The function reads the global arguments, with which it is called. -/
def initSequence (a : Arguments) : List Bool :=
  binZfill 2 a.field ++ binZfill 4 a.sbox ++ binZfill 12 a.fieldSize ++ binZfill 12 a.numCells ++ binZfill 10 a.rF ++ binZfill 10 a.rP ++
    List.replicate 30 true

/-- One constant for `field == 1`, generate_parameters_grain.sage:92-95: numbers from `prime` on are dropped. -/
def drawBelow (fuel n prime : Nat) : Nat → List Bool → Option (Nat × List Bool)
  | 0, _ => none
  | i + 1, b => do
    let (x, b) ← randomBits fuel n b
    if prime ≤ x then drawBelow fuel n prime i b else return (x, b)

/-- `generate_constants`, generate_parameters_grain.sage:82-97, for `field` 0 and 1 -/
def generateConstants (fuel : Nat) (a : Arguments) (b : List Bool) :
    Option ((Fin ((a.rF + a.rP) * a.numCells) → Nat) × List Bool) :=
  if a.field = 0 then collect (randomBits fuel a.fieldSize) _ b
  else if a.field = 1 then collect (drawBelow fuel a.fieldSize a.prime fuel) _ b
  else none

section

variable (p : Nat) [Fact p.Prime]

/-- `create_mds_p`, generate_parameters_grain.sage:109-131, with `F = GF(p)`.  Duplicates (generate_parameters_grain.sage:116) and a sum that is zero (generate_parameters_grain.sage:124) have the same effect: the
next `2 * t` numbers are drawn. -/
def createMds (fuel n t : Nat) : Nat → List Bool → Option (Matrix (Fin t) (Fin t) (ZMod p) × List Bool)
  | 0, _ => none
  | i + 1, b => do
    let (l, b) ← collect (randomBits fuel n) (2 * t) b
    let randList : Fin (2 * t) → ZMod p := fun i => (l i : ZMod p)
    let xs : Fin t → ZMod p := fun i => randList ⟨i, by omega⟩
    let ys : Fin t → ZMod p := fun j => randList ⟨t + j, by omega⟩
    if ¬ Function.Injective randList then createMds fuel n t i b
    else if ∃ i j, xs i + ys j = 0 then createMds fuel n t i b
    else return (Matrix.of fun i j => (xs i + ys j)⁻¹, b)

/-- `generate_matrix`, generate_parameters_grain.sage:287-301, for `FIELD == 1` and `NUM_CELLS = k + 1` -/
noncomputable def generateMatrix (fuel n k : Nat) : Nat → List Bool → Option (Matrix (Fin (k + 1)) (Fin (k + 1)) (ZMod p))
  | 0, _ => none
  | i + 1, b => do
    let (M, b) ← createMds p fuel n (k + 1) fuel b
    if (algorithm1 M).1 = false ∨ algorithm2 M = false ∨ algorithm3 M = false then generateMatrix fuel n k i b else return M

/-- The script, generate_parameters_grain.sage:320-328, without its output to the screen: the round constants and the matrix.  `FIELD = 1`, `NUM_CELLS = k + 1`. -/
noncomputable def script (fuel sbox fieldSize k rF rP : Nat) :
    Option ((Fin ((rF + rP) * (k + 1)) → Nat) × Matrix (Fin (k + 1)) (Fin (k + 1)) (ZMod p)) := do
  let a : Arguments := ⟨1, sbox, fieldSize, k + 1, rF, rP, p⟩
  let b ← warmUp 160 (initSequence a)
  let (constants, b) ← generateConstants fuel a b
  let M ← generateMatrix p fuel fieldSize k fuel b
  return (constants, M)

end

end Poseidon.Grain
