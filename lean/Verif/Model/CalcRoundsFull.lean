import Verif.Model.CalcRounds

/-!
# Model of the round number script of the Poseidon authors: the whole program

`vendor/hadeshash/code/calc_round_numbers.py`: all its functions except the printing, for every integer `alpha`, with and without the
security margin and for any cost function.  `none` is a program that stops with an error.  `CalcRounds.lean` has the part of it for
positive exponents, with the margin and the S-box cost.

Numbers: Python integers are unbounded.  `p` and `t` are taken to be at least 1 (the logarithm of 0 is an error).
-/

namespace Poseidon

/-- `sat_inequiv_alpha`, calc_round_numbers.py:25-38 (`alpha == -1`) -/
noncomputable def satInequivInverse (L : Libm) (p t rF rP M : Nat) : Bool :=
  let lp := L.log p 2
  let rF1 : ℤ := if (M : ℤ) ≤ (⌊lp⌋ - 2) * ((t : ℤ) + 1) then 6 else 10
  let rP1 : ℤ := 1 + ⌈rne (0.5 * min (M : ℝ) lp)⌉ + ⌈L.log t 2⌉ - ⌊rne (rF * L.log t 2)⌋
  let rP2 : ℤ := 1 + ⌈rne (0.5 * min (M : ℝ) lp)⌉ + ⌈L.log t 2⌉ - ⌊rne (rF * L.log t 2)⌋
  let rP3 : ℤ := (t : ℤ) - 1 + ⌈L.log t 2⌉ + min ⌈rne ((M : ℝ) / ((t : ℝ) + 1))⌉ ⌈rne (0.5 * lp)⌉ - ⌊rne (rF * L.log t 2)⌋
  decide (rF1 ≤ (rF : ℤ) ∧ max rP1 (max rP2 rP3) ≤ (rP : ℤ))

/-- `sat_inequiv_alpha`, calc_round_numbers.py:6-41.  `alpha = 1` is an error of `log(0, 2)`; other invalid values end in `exit(1)`. -/
noncomputable def satInequiv (L : Libm) (p t rF rP : Nat) (alpha : ℤ) (M : Nat) : Option Bool :=
  if alpha > 0 then
    if alpha = 1 then none else some (satInequivAlpha L p t rF rP alpha.toNat M)
  else if alpha = -1 then some (satInequivInverse L p t rF rP M)
  else none

/-- The three cost functions.  `cost R_F R_P N t`.  calc_round_numbers.py:46-61. -/
abbrev CostFunction := Nat → Nat → Nat → Nat → Nat

/-- `get_sbox_cost`, calc_round_numbers.py:46-47 -/
def sboxCostFn : CostFunction := fun rF rP _ t => getSboxCost rF rP t

/-- `get_size_cost`, calc_round_numbers.py:55-57 -/
noncomputable def sizeCostFn : CostFunction := fun rF rP N t =>
  let n := asUsize ⌈rne (rne N / t)⌉
  N * rF + n * rP

/-- `get_depth_cost`, calc_round_numbers.py:60-61 -/
def depthCostFn : CostFunction := fun rF rP _ _ => rF + rP

/-- `n = ceil(log(p, 2))`, `N = int(n * t)`, calc_round_numbers.py:64-65 and 92-93 -/
noncomputable def permutationSize (L : Libm) (p t : Nat) : Nat := asUsize ⌈L.log p 2⌉ * t

/-- The body of the inner loop, calc_round_numbers.py:76-87; the second component is the variable `R_P_t`. -/
def fdStep (sat : Nat → Nat → Option Bool) (cost : Nat → Nat → Nat) (marginOn : Bool) (margin : Nat → Nat) (st : FdState × Nat) (rFt : Nat) :
    Option (FdState × Nat) :=
  if rFt % 2 = 0 then do
    if ← sat rFt st.2 then
      let rFt' := if marginOn then rFt + 2 else rFt
      let rPt' := if marginOn then margin st.2 else st.2
      let c := cost rFt' rPt'
      if fdBetter c rFt' st.1 then pure (⟨rPt', rFt', some c, rFt'⟩, rPt') else pure (st.1, rPt')
    else pure st
  else pure st

/-- The two loops, calc_round_numbers.py:74-87 -/
def fdLoops (sat : Nat → Nat → Option Bool) (cost : Nat → Nat → Nat) (marginOn : Bool) (margin : Nat → Nat) : Option FdState :=
  (List.range' 1 499).foldlM (fun s rPt => do
    let r ← (List.range' 4 96).foldlM (fdStep sat cost marginOn margin) (s, rPt)
    pure r.1) ⟨0, 0, none, 0⟩

/-- `find_FD_round_numbers`, calc_round_numbers.py:63-88: `(R_F, R_P)` -/
noncomputable def findRoundNumbers (L : Libm) (p t : Nat) (alpha : ℤ) (M : Nat) (cost : CostFunction) (marginOn : Bool) : Option (Nat × Nat) := do
  let s ← fdLoops (fun rF rP => satInequiv L p t rF rP alpha M) (fun rF rP => cost rF rP (permutationSize L p t) t) marginOn pyMargin
  pure (s.rF, s.rP)

/-- `calc_final_numbers_fixed`, calc_round_numbers.py:90-108: `[R_F, R_P, min_sbox_cost, min_size_cost]` -/
noncomputable def calcFinalNumbers (L : Libm) (p t : Nat) (alpha : ℤ) (M : Nat) (marginOn : Bool) : Option (Nat × Nat × Nat × Nat) := do
  let (rF, rP) ← findRoundNumbers L p t alpha M sboxCostFn marginOn
  pure (rF, rP, sboxCostFn rF rP (permutationSize L p t) t, sizeCostFn rF rP (permutationSize L p t) t)

end Poseidon
