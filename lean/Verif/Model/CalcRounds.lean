import Verif.Model.GenFloat
import Verif.Model.GenRounds

/-!
# Model of the round number script of the Poseidon authors

`vendor/hadeshash/code/calc_round_numbers.py`: `sat_inequiv_alpha`, `get_sbox_cost` and `find_FD_round_numbers`, for positive exponents.
Python floats are doubles (`GenFloat.lean`); `math.log(x, b)` is `log(x) / log(b)`, which is `Libm.log`; for the integer `p`, which need
not fit a double, `math.log` is taken to be as accurate as for doubles.
-/

namespace Poseidon

/-- `sat_inequiv_alpha`, calc_round_numbers.py:6-24 (`alpha > 0`) -/
noncomputable def satInequivAlpha (L : Libm) (p t rF rP alpha M : Nat) : Bool :=
  let lp := L.log p 2
  let rF1 : ℤ := open Classical in
    if (M : ℝ) ≤ rne (rne (⌊lp⌋ - L.log ((alpha : ℝ) - 1) 2) * ((t : ℝ) + 1)) then 6 else 10
  let rF2 : ℤ := 1 + ⌈rne (L.log 2 alpha * min (M : ℝ) lp)⌉ + ⌈L.log t alpha⌉ - rP
  let rF3 : ℝ := rne (rne (1 + rne (L.log 2 alpha * min (rne (M / 3)) (rne (lp / 2)))) - rP)
  let rF4 : ℝ := rne (rne ((t : ℝ) - 1 + min (rne (rne (L.log 2 alpha * M) / ((t : ℝ) + 1))) (rne (rne (L.log 2 alpha * lp) / 2))) - rP)
  decide (max (max rF1 rF2) (max ⌈rF3⌉ ⌈rF4⌉) ≤ rF)

/-- `get_sbox_cost`, calc_round_numbers.py:46-47 -/
def getSboxCost (rF rP t : Nat) : Nat := t * rF + rP

/-- The variables `R_P`, `R_F`, `min_cost` (`none` is infinity) and `max_cost_rf` of `find_FD_round_numbers`.
calc_round_numbers.py:69-72. -/
structure FdState where
  rP : Nat
  rF : Nat
  minCost : Option Nat
  maxCostRf : Nat

/-- `int(ceil(float(R_P_t) * 1.075))`, calc_round_numbers.py:81 -/
noncomputable def pyMargin (r : Nat) : Nat := asUsize ⌈rne (rne r * rne 1.075)⌉

/-- calc_round_numbers.py:83 -/
def fdBetter (cost rF : Nat) (s : FdState) : Bool :=
  match s.minCost with
  | none => true
  | some c => decide (cost < c ∨ cost = c ∧ rF < s.maxCostRf)

/-- The body of the inner loop, calc_round_numbers.py:76-87, with `security_margin = True` and the cost function `get_sbox_cost`.  The second component is
the variable `R_P_t`, which the body overwrites and the following iterations of the inner loop read. -/
def fdBody (sat : Nat → Nat → Bool) (margin : Nat → Nat) (t : Nat) (st : FdState × Nat) (rFt : Nat) : FdState × Nat :=
  if rFt % 2 = 0 then
    if sat rFt st.2 then
      let rFt' := rFt + 2
      let rPt' := margin st.2
      let cost := getSboxCost rFt' rPt' t
      if fdBetter cost rFt' st.1 then (⟨rPt', rFt', some cost, rFt'⟩, rPt') else (st.1, rPt')
    else st
  else st

/-- The two loops, calc_round_numbers.py:74-87 -/
def fdSearch (sat : Nat → Nat → Bool) (margin : Nat → Nat) (t : Nat) : FdState :=
  (List.range' 1 499).foldl (fun s rPt => ((List.range' 4 96).foldl (fdBody sat margin t) (s, rPt)).1) ⟨0, 0, none, 0⟩

/-- `find_FD_round_numbers`, calc_round_numbers.py:63-88: the pair `(R_F, R_P)` -/
noncomputable def findFdRoundNumbers (L : Libm) (p t alpha M : Nat) : Nat × Nat :=
  let s := fdSearch (fun rF rP => satInequivAlpha L p t rF rP alpha M) pyMargin t
  (s.rF, s.rP)

end Poseidon
