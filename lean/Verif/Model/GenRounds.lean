import Verif.Model.GenFloat
import Verif.Model.GenMds

/-!
# Model of the parameter generator: round numbers

`poseidon-paramgen/src/rounds.rs` and `poseidon-paramgen/src/utils.rs`.  `lp` is the field `log_2_p` of
`InputParameters`.  See `GenFloat.lean` for the floats.
-/

namespace Poseidon

/-- The loop of `log2`, utils.rs:13-16; the state is `(p_biguint, log_bit_boundaries)`. -/
def log2Loop (p boundaries : Nat) : Nat × Nat :=
  if 1125899906842624 < p then log2Loop (p >>> 48) (boundaries + 48) else (p, boundaries)
termination_by p
decreasing_by
  rw [Nat.shiftRight_eq_div_pow]
  exact Nat.div_lt_self (by omega) (by norm_num)

/-- `log2`, utils.rs:6-30.  After the loop the integer has at most 51 bits, hence at most 7 bytes, so padding to
8 bytes and `u64::from_le_bytes` return it unchanged. -/
noncomputable def log2Big (L : Libm) (p : Nat) : ℝ :=
  let s := log2Loop p 0
  rne (rne s.2 + L.log2 (rne s.1))

/-- `statistical_attack_full_rounds`, rounds.rs:165-183 -/
noncomputable def statisticalAttackFullRounds (L : Libm) (input : GenInput) (lp : ℝ) (alpha : Alpha) : Nat :=
  let C : ℝ := match alpha with
    | .inverse => 2
    | .exponent e => L.log2 (rne (rne e - 1))
  open Classical in
  if rne input.security ≤ rne (rne (⌊lp⌋ - C) * rne (rne input.t + 1)) then 6 else 10

/-- `algebraic_attack_interpolation`, rounds.rs:192-210 -/
noncomputable def algebraicAttackInterpolation (L : Libm) (input : GenInput) (lp : ℝ) (alpha : Alpha) : Nat :=
  let minArg : ℝ := min (rne input.security) lp
  match alpha with
  | .inverse => asUsize (rne (⌈L.log2 (rne input.t)⌉ + ⌈rne (0.5 * minArg)⌉))
  | .exponent e =>
    asUsize ⌈rne (⌈rne (L.log 2 (rne e) * minArg)⌉ + L.log (rne input.t) (rne e))⌉

/-- `algebraic_attack_grobner_basis_v1`, rounds.rs:270-315 -/
noncomputable def algebraicAttackGrobnerBasisV1 (L : Libm) (input : GenInput) (lp : ℝ) (alpha : Alpha) : R Nat := do
  let t1 ← usub input.t 1
  match alpha with
  | .inverse =>
    let grobner1 : ℝ := rne (⌈rne (0.5 * min (rne input.security) lp)⌉ + ⌈L.log2 (rne input.t)⌉)
    let minArg : ℝ := min (⌈rne (rne input.security / rne (rne input.t + 1))⌉ : ℝ) ⌈rne (0.5 * lp)⌉
    let grobner2 : ℝ := rne (rne (rne t1 + ⌈L.log2 (rne input.t)⌉) + minArg)
    return asUsize ⌊max grobner1 grobner2⌋
  | .exponent e =>
    let grobner1 : ℝ := rne (L.log 2 (rne e) * min (rne (rne input.security / 3)) (rne (lp / 2)))
    let minArg : ℝ :=
      min (rne (rne (L.log 2 (rne e) * rne input.security) / rne (rne input.t + 1)))
        (rne (rne (L.log 2 (rne e) * lp) / 2))
    let grobner2 : ℝ := rne (rne t1 + minArg)
    return asUsize ⌊max grobner1 grobner2⌋

/-- The loop of `algebraic_attack_grobner_basis_v2_possible`, rounds.rs:236-260: `n` iterations left, index `i`.
`acc.bits()` is `numBits`; `(2.0 * bits as f64).ceil() as usize` is taken to be exact (proved in C76). -/
def binomialLoop (security upper : Nat) : Nat → Nat → Nat → R Bool
  | 0, _, _ => return true
  | n + 1, i, acc => do
    let u ← usub upper i
    let acc := acc * u / (i + 1)
    if security ≤ 2 * numBits acc then return false else binomialLoop security upper n (i + 1) acc

/-- `algebraic_attack_grobner_basis_v2_possible`, rounds.rs:215-261 -/
noncomputable def algebraicAttackGrobnerBasisV2Possible (input : GenInput) (alpha : Alpha) (choice : RoundNumbers) :
    R Bool := do
  let r := asUsize ⌊rne (rne input.t / 3)⌋
  match alpha with
  | .inverse => .error .unimplemented
  | .exponent exponent =>
    let full1 ← usub choice.full 1
    let upper := full1 * input.t + choice.partialRounds + r + r * (choice.full / 2) + choice.partialRounds + exponent
    let lower := r * (choice.full / 2) + choice.partialRounds + exponent
    binomialLoop input.security upper lower 0 1

/-- The left-hand side of the comparisons for `Alpha::Inverse`, rounds.rs:103-104 and 109-110 -/
noncomputable def inverseRounds (L : Libm) (input : GenInput) (r : RoundNumbers) : Nat :=
  asUsize ⌊rne (rne r.full * L.log2 (rne input.t))⌋ + r.partialRounds

/-- `is_secure_v1`, rounds.rs:83-119 -/
noncomputable def isSecureV1 (L : Libm) (input : GenInput) (lp : ℝ) (alpha : Alpha) (r : RoundNumbers) : R Bool :=
  if r.full < statisticalAttackFullRounds L input lp alpha then return false
  else match alpha with
    | .exponent _ =>
      if r.total ≤ algebraicAttackInterpolation L input lp alpha then return false
      else do
        let g ← algebraicAttackGrobnerBasisV1 L input lp alpha
        if r.total ≤ g then return false else return true
    | .inverse =>
      if inverseRounds L input r ≤ algebraicAttackInterpolation L input lp alpha then return false
      else do
        let g ← algebraicAttackGrobnerBasisV1 L input lp alpha
        if inverseRounds L input r ≤ g then return false else return true

/-- `is_secure_v2`, rounds.rs:122-146 -/
noncomputable def isSecureV2 (L : Libm) (input : GenInput) (lp : ℝ) (alpha : Alpha) (r : RoundNumbers) : R Bool :=
  if r.full < statisticalAttackFullRounds L input lp alpha then return false
  else match alpha with
    | .exponent _ =>
      if r.total ≤ algebraicAttackInterpolation L input lp alpha then return false
      else do
        let g ← algebraicAttackGrobnerBasisV1 L input lp alpha
        if r.total ≤ g then return false
        else do
          let possible ← algebraicAttackGrobnerBasisV2Possible input alpha r
          if possible then return false else return true
    | .inverse => .error .unimplemented

/-- `sbox_count`, rounds.rs:149-151 -/
def sboxCount (r : RoundNumbers) (t : Nat) : Nat := t * r.full + r.partialRounds

/-- `apply_security_margin`, rounds.rs:155-158; the literal `1.075` is the nearest double. -/
noncomputable def applySecurityMargin (r : RoundNumbers) : RoundNumbers :=
  { rF := r.full + 2, rP := asUsize ⌈rne (rne 1.075 * rne r.partialRounds)⌉ }

/-- `usize::MAX` on a 64-bit platform.  rounds.rs:20-21. -/
def usizeMax : Nat := 2 ^ 64 - 1

/-- The mutable variables `choice`, `cost`, `cost_rf`.  rounds.rs:19-21, rounds.rs:52-54. -/
structure SearchState where
  choice : Option RoundNumbers
  cost : Nat
  costRf : Nat

/-- The search shared by `v1_generate` and `v2_generate`, rounds.rs:19-21,28-47 and 52-76, for a security test. -/
noncomputable def roundSearch (isSecure : RoundNumbers → R Bool) (t : Nat) : R RoundNumbers := do
  let st ← forRange 1 400 (⟨none, usizeMax, usizeMax⟩ : SearchState) fun rP st =>
    forRange 4 100 st fun rF st => do
      let s ← isSecure { rF := rF, rP := rP }
      if !s then return st
      else
        let candidate := applySecurityMargin { rF := rF, rP := rP }
        let candidateCost := sboxCount candidate t
        if candidateCost < st.cost ∨ (candidateCost = st.cost ∧ rF < st.costRf) then
          return ⟨some candidate, candidateCost, rF⟩
        else return st
  match st.choice with
  | some c => return c
  | none => .error .unwrapNone

/-- `v1_generate`, rounds.rs:18-48 -/
noncomputable def roundsV1Generate (L : Libm) (input : GenInput) (lp : ℝ) (alpha : Alpha) : R RoundNumbers :=
  if 256 < input.security then .error .explicit
  else roundSearch (isSecureV1 L input lp alpha) input.t

/-- `v2_generate`, rounds.rs:51-77 -/
noncomputable def roundsV2Generate (L : Libm) (input : GenInput) (lp : ℝ) (alpha : Alpha) : R RoundNumbers :=
  roundSearch (isSecureV2 L input lp alpha) input.t

end Poseidon
