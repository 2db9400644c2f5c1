import Mathlib.Analysis.SpecialFunctions.Log.Base
import Mathlib.Data.Int.Log

/-!
# Floating-point arithmetic (`f64`)

A finite `f64` is modelled by the real number it denotes.  Every arithmetic operation of Rust (`+ - * /`, `as f64`
and a decimal literal) is the exact operation followed by `rne`, IEEE-754 rounding to nearest, ties to even,
with 53 bits of precision.  Infinities, NaN, subnormal numbers and overflow are absent here: `GenMachine.lean` has them, and C76 proves
that they never occur for the values the generator computes (widths at least 1, exponents at least 3).

`f64::ln` and `f64::log2` have unspecified precision in Rust (they call the platform's libm).  They are the two
fields of `Libm`; the theorems quantify over every `Libm` whose relative error is at most `2⁻⁴⁰` (`Libm.Accurate`,
twelve bits worse than one unit in the last place).
-/

namespace Poseidon

/-- Nearest integer, ties to even.  The `f64` operations of rounds.rs:103-314 and utils.rs:29. -/
noncomputable def roundEven (y : ℝ) : ℤ :=
  if y - ⌊y⌋ < 1 / 2 then ⌊y⌋
  else if 1 / 2 < y - ⌊y⌋ then ⌊y⌋ + 1
  else if ⌊y⌋ % 2 = 0 then ⌊y⌋ else ⌊y⌋ + 1

/-- Exponent of the unit in the last place of a binary number with 53 bits of precision.
The `f64` operations of rounds.rs:103-314 and utils.rs:29. -/
noncomputable def ulpExp (x : ℝ) : ℤ := Int.log 2 |x| - 52

/-- IEEE-754 binary64 rounding, `roundTiesToEven` (normal range).  The `f64` operations of rounds.rs:103-314 and utils.rs:29. -/
noncomputable def rne (x : ℝ) : ℝ := (roundEven (x / 2 ^ ulpExp x) : ℝ) * 2 ^ ulpExp x

/-- The platform's mathematical library: `f64::ln`, `f64::log2`.
Called in rounds.rs:103, rounds.rs:172, rounds.rs:199-206, rounds.rs:281-301, utils.rs:29. -/
structure Libm where
  ln : ℝ → ℝ
  log2 : ℝ → ℝ

/-- Both logarithms have relative error at most `2⁻⁴⁰` on arguments at least 1.
Called in rounds.rs:103, rounds.rs:172, rounds.rs:199-206, rounds.rs:281-301, utils.rs:29. -/
structure Libm.Accurate (L : Libm) : Prop where
  ln : ∀ x, 1 ≤ x → |L.ln x - Real.log x| ≤ 2⁻¹ ^ 40 * Real.log x
  log2 : ∀ x, 1 ≤ x → |L.log2 x - Real.logb 2 x| ≤ 2⁻¹ ^ 40 * Real.logb 2 x

/-- `self.log(base)`, standard library: `self.ln() / base.ln()`.  rounds.rs:204-206, rounds.rs:297-301. -/
noncomputable def Libm.log (L : Libm) (x base : ℝ) : ℝ := rne (L.ln x / L.ln base)

/-- `x as usize` for a float: truncation, negative values give 0.  (Saturation: `GenMachine.lean`, C76.)
rounds.rs:103, rounds.rs:157, rounds.rs:201, rounds.rs:207, rounds.rs:314. -/
noncomputable def asUsize (x : ℝ) : Nat := ⌊x⌋₊

end Poseidon
