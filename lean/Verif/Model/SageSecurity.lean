import Verif.Model.Field
import Mathlib.Analysis.SpecialFunctions.Log.Base

/-!
# Model of the security estimates in `poseidonperm_x17.sage`

The script evaluates symbolic expressions with `.n()`.  Here that is a function `N` from reals to reals; theorems hold for every
`N` of small relative error.
-/

namespace Poseidon.Sage

/-- The numbers the estimates read, poseidonperm_x17.sage:5-22: `M`, `alpha` (`d`), `prime`, `R_P` and `R_f`. -/
structure Setting where
  M : Nat
  d : Nat
  prime : Nat
  rP : Nat
  rf : Nat

/-- The values in the script, poseidonperm_x17.sage:5-13. -/
def setting : Setting := { M := 128, d := 17, prime := q, rP := 31, rf := 4 }

/-- `D = d ** (2 * r_in * R_f + R_P)`, poseidonperm_x17.sage:25 and 40 -/
def Setting.D (s : Setting) (rIn : Nat) : Nat := s.d ^ (2 * rIn * s.rf + s.rP)

/-- `resist_eigenpolynomial_computation`, poseidonperm_x17.sage:24-29, with `omega = 2` (line 18) -/
noncomputable def resistEigenpolynomial (N : ℝ → ℝ) (s : Setting) (rIn rOut : Nat) : Prop :=
  (s.M : ℝ) ≤ N (N (Real.logb 2 (min rIn rOut : Nat)) + 2 * Real.logb 2 (s.D rIn))

open Classical in
/-- `resist_root_extraction`, poseidonperm_x17.sage:39-45; `log` with one argument is the natural logarithm -/
noncomputable def resistRootExtraction (N : ℝ → ℝ) (s : Setting) (rIn : Nat) : Prop :=
  let q := Real.logb 2 s.prime
  let D : ℝ := s.D rIn
  if D ≤ q then (s.M : ℝ) ≤ N (D * Real.log D * Real.log (Real.log D) * (Real.log D + Real.log q))
  else (s.M : ℝ) ≤ N (q * Real.log q * Real.log (Real.log q) * (Real.log q + Real.log D))

end Poseidon.Sage
