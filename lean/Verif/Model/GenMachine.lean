import Verif.Model.GenRounds
import Verif.Model.GenV1
import Verif.Model.Machine

/-!
# The round search with machine numbers

`GenRounds.lean` computes with real numbers rounded to 53 bits and with unbounded naturals.  Here are the same functions with all of
IEEE-754 binary64 (infinities, NaN, subnormal numbers, overflow) except the sign of zero, with saturating casts, with `usize` words of any
size, checked (debug) or wrapping (release), and with the `i32` counter and the bytes of `log2`.
-/

namespace Poseidon

/-- A binary64 number (the two zeros are one value).  The `f64` operations of rounds.rs:103-314 and utils.rs:29. -/
inductive F64 where
  | nan
  | inf (neg : Bool)
  | fin (x : ℝ)

namespace F64

/-- IEEE-754 `roundTiesToEven`: 53 bits, no unit in the last place below `2^-1074`, infinity from `2^1024` on.
The `f64` operations of rounds.rs:103-314 and utils.rs:29. -/
noncomputable def round (x : ℝ) : F64 :=
  let e : ℤ := max (Int.log 2 |x| - 52) (-1074)
  let y : ℝ := (roundEven (x / 2 ^ e) : ℝ) * 2 ^ e
  open Classical in
  if 2 ^ 1024 ≤ |y| then .inf (decide (y < 0)) else .fin y

/-- `n as f64` for an integer.  The `f64` operations of rounds.rs:103-314 and utils.rs:29. -/
noncomputable def ofNat (n : Nat) : F64 := round n

/-- `a + b`.  The `f64` operations of rounds.rs:103-314 and utils.rs:29. -/
noncomputable def add : F64 → F64 → F64
  | nan, _ => nan
  | _, nan => nan
  | inf a, inf b => if a = b then inf a else nan
  | inf a, fin _ => inf a
  | fin _, inf b => inf b
  | fin x, fin y => round (x + y)

/-- `-a`.  The `f64` operations of rounds.rs:103-314 and utils.rs:29. -/
noncomputable def neg : F64 → F64
  | nan => nan
  | inf a => inf (!a)
  | fin x => fin (-x)

/-- `a - b`.  The `f64` operations of rounds.rs:103-314 and utils.rs:29. -/
noncomputable def sub (a b : F64) : F64 := a.add b.neg

open Classical in
/-- infinity times `x`.  The `f64` operations of rounds.rs:103-314 and utils.rs:29. -/
noncomputable def infMul (a : Bool) (x : ℝ) : F64 := if x = 0 then nan else inf (a != decide (x < 0))

/-- `a * b`.  The `f64` operations of rounds.rs:103-314 and utils.rs:29. -/
noncomputable def mul : F64 → F64 → F64
  | nan, _ => nan
  | _, nan => nan
  | inf a, inf b => inf (a != b)
  | inf a, fin x => infMul a x
  | fin x, inf b => infMul b x
  | fin x, fin y => round (x * y)

open Classical in
/-- `a / b` (the zero is taken to be positive).  The `f64` operations of rounds.rs:103-314 and utils.rs:29. -/
noncomputable def div : F64 → F64 → F64
  | nan, _ => nan
  | _, nan => nan
  | inf _, inf _ => nan
  | inf a, fin y => inf (a != decide (y < 0))
  | fin _, inf _ => fin 0
  | fin x, fin y => if y = 0 then (if x = 0 then nan else inf (decide (x < 0))) else round (x / y)

/-- `a.floor()`.  The `f64` operations of rounds.rs:103-314 and utils.rs:29. -/
noncomputable def floor : F64 → F64
  | fin x => fin ⌊x⌋
  | a => a

/-- `a.ceil()`.  The `f64` operations of rounds.rs:103-314 and utils.rs:29. -/
noncomputable def ceil : F64 → F64
  | fin x => fin ⌈x⌉
  | a => a

open Classical in
/-- `a.partial_cmp(&b)`.  rounds.rs:317-319. -/
noncomputable def partialCmp : F64 → F64 → Option Ordering
  | nan, _ => none
  | _, nan => none
  | inf a, inf b => some (if a = b then .eq else if a then .lt else .gt)
  | inf a, fin _ => some (if a then .lt else .gt)
  | fin _, inf b => some (if b then .gt else .lt)
  | fin x, fin y => some (if x < y then .lt else if y < x then .gt else .eq)

/-- `a <= b`: false if one is NaN.  The `f64` operations of rounds.rs:103-314 and utils.rs:29. -/
noncomputable def le (a b : F64) : Bool := a.partialCmp b == some .lt || a.partialCmp b == some .eq

/-- `[a, b].iter().min_by(cmp_f64)` with `cmp_f64`, rounds.rs:317-319, which unwraps: the first of equal elements -/
noncomputable def minBy (a b : F64) : R F64 :=
  match a.partialCmp b with
  | none => .error .unwrapNone
  | some .gt => .ok b
  | some _ => .ok a

/-- `[a, b].iter().max_by(cmp_f64)`: the last of equal elements.  rounds.rs:309-314. -/
noncomputable def maxBy (a b : F64) : R F64 :=
  match a.partialCmp b with
  | none => .error .unwrapNone
  | some .gt => .ok a
  | some _ => .ok b

/-- The real number of a finite double, and 0 otherwise.  The `f64` operations of rounds.rs:103-314 and utils.rs:29. -/
def toReal : F64 → ℝ
  | fin x => x
  | _ => 0

end F64

/-- The platform's `f64::ln` and `f64::log2` on all doubles.
Called in rounds.rs:103, rounds.rs:172, rounds.rs:199-206, rounds.rs:281-301, utils.rs:29. -/
structure LibmF where
  ln : F64 → F64
  log2 : F64 → F64

/-- Both logarithms return doubles of relative error at most `2⁻⁴⁰` on finite arguments of at least 1.
Called in rounds.rs:103, rounds.rs:172, rounds.rs:199-206, rounds.rs:281-301, utils.rs:29. -/
structure LibmF.Accurate (L : LibmF) : Prop where
  ln : ∀ x, 1 ≤ x → ∃ y, L.ln (.fin x) = .fin y ∧ rne y = y ∧ |y - Real.log x| ≤ 2⁻¹ ^ 40 * Real.log x
  log2 : ∀ x, 1 ≤ x → ∃ y, L.log2 (.fin x) = .fin y ∧ rne y = y ∧ |y - Real.logb 2 x| ≤ 2⁻¹ ^ 40 * Real.logb 2 x

/-- The library as functions of real numbers.  Called in rounds.rs:103, rounds.rs:172, rounds.rs:199-206, rounds.rs:281-301, utils.rs:29. -/
def LibmF.real (L : LibmF) : Libm := ⟨fun x => (L.ln (.fin x)).toReal, fun x => (L.log2 (.fin x)).toReal⟩

/-- `self.log(base)`, standard library: `self.ln() / base.ln()`.  rounds.rs:204-206, rounds.rs:297-301. -/
noncomputable def LibmF.log (L : LibmF) (x base : F64) : F64 := (L.ln x).div (L.ln base)

/-- A build: the number of values of `usize`, and whether overflow is checked.
The `usize` operations of rounds.rs:85-157 and rounds.rs:220-237. -/
structure Target where
  W : Nat
  debug : Bool

namespace Target

/-- Arithmetic of `usize`.  The `usize` operations of rounds.rs:85-157 and rounds.rs:220-237. -/
def arith (m : Target) : Arith := if m.debug then .checked m.W else .wrapping m.W

/-- `x as usize`: NaN gives 0, values out of range saturate.  rounds.rs:103, rounds.rs:157, rounds.rs:201, rounds.rs:207, rounds.rs:314. -/
noncomputable def asUsize (m : Target) : F64 → Nat
  | .nan => 0
  | .inf neg => if neg then 0 else m.W - 1
  | .fin x => min ⌊x⌋₊ (m.W - 1)

/-- `a + b` on `i32`.  utils.rs:15 (`log_bit_boundaries`). -/
def i32Add (m : Target) (a b : ℤ) : R ℤ :=
  if -2 ^ 31 ≤ a + b ∧ a + b < 2 ^ 31 then .ok (a + b)
  else if m.debug then .error .overflow else .ok ((a + b + 2 ^ 31) % 2 ^ 32 - 2 ^ 31)

/-- Words from 32 to 64 bits.  The `usize` operations of rounds.rs:85-157 and rounds.rs:220-237. -/
def Usual (m : Target) : Prop := 2 ^ 32 ≤ m.W ∧ m.W ≤ 2 ^ 64

end Target

namespace Mach

variable (L : LibmF) (m : Target)

/-- `BigUint::to_bytes_le`: no trailing zero bytes, one byte for zero.  utils.rs:17. -/
def bytesLe (p : Nat) : List Nat := if p < 256 then [p] else p % 256 :: bytesLe (p / 256)
termination_by p

/-- The loop of `log2`, utils.rs:13-16 -/
def log2Loop (p : Nat) (boundaries : ℤ) : R (Nat × ℤ) :=
  if 1125899906842624 < p then m.i32Add boundaries 48 >>= fun b => log2Loop (p >>> 48) b else .ok (p, boundaries)
termination_by p
decreasing_by
  rw [Nat.shiftRight_eq_div_pow]
  exact Nat.div_lt_self (by omega) (by norm_num)

/-- `log2`, utils.rs:6-30: the bytes are padded to eight, `try_into` fails if there are more. -/
noncomputable def log2Big (p : Nat) : R F64 := do
  let s ← log2Loop m p 0
  let bytes := bytesLe s.1
  let bytes := bytes ++ List.replicate (8 - bytes.length) 0
  if bytes.length ≠ 8 then .error .unwrapNone
  else return (F64.round s.2).add (L.log2 (F64.ofNat (leValue bytes)))

/-- `statistical_attack_full_rounds`, rounds.rs:165-183 -/
noncomputable def statisticalAttackFullRounds (input : GenInput) (lp : F64) (alpha : Alpha) : Nat :=
  let C : F64 := match alpha with
    | .inverse => F64.round 2
    | .exponent e => L.log2 ((F64.ofNat e).sub (F64.round 1))
  if (F64.ofNat input.security).le ((lp.floor.sub C).mul ((F64.ofNat input.t).add (F64.round 1))) then 6 else 10

/-- `algebraic_attack_interpolation`, rounds.rs:192-210 -/
noncomputable def algebraicAttackInterpolation (input : GenInput) (lp : F64) (alpha : Alpha) : R Nat := do
  let minArg ← (F64.ofNat input.security).minBy lp
  match alpha with
  | .inverse => return m.asUsize ((L.log2 (F64.ofNat input.t)).ceil.add ((F64.round 0.5).mul minArg).ceil)
  | .exponent e =>
    return m.asUsize (((L.log (F64.round 2) (F64.ofNat e)).mul minArg).ceil.add (L.log (F64.ofNat input.t) (F64.ofNat e))).ceil

/-- `algebraic_attack_grobner_basis_v1`, rounds.rs:270-315 -/
noncomputable def algebraicAttackGrobnerBasisV1 (input : GenInput) (lp : F64) (alpha : Alpha) : R Nat := do
  let t := F64.ofNat input.t
  match alpha with
  | .inverse =>
    let min1 ← (F64.ofNat input.security).minBy lp
    let grobner1 := ((F64.round 0.5).mul min1).ceil.add (L.log2 t).ceil
    let min2 ← (((F64.ofNat input.security).div (t.add (F64.round 1))).ceil).minBy ((F64.round 0.5).mul lp).ceil
    let t1 ← m.arith.sub input.t 1
    let grobner2 := ((F64.ofNat t1).add (L.log2 t).ceil).add min2
    let g ← grobner1.maxBy grobner2
    return m.asUsize g.floor
  | .exponent e =>
    let k := L.log (F64.round 2) (F64.ofNat e)
    let min1 ← ((F64.ofNat input.security).div (F64.round 3)).minBy (lp.div (F64.round 2))
    let grobner1 := k.mul min1
    let min2 ← ((k.mul (F64.ofNat input.security)).div (t.add (F64.round 1))).minBy ((k.mul lp).div (F64.round 2))
    let t1 ← m.arith.sub input.t 1
    let grobner2 := (F64.ofNat t1).add min2
    let g ← grobner1.maxBy grobner2
    return m.asUsize g.floor

/-- The loop of `algebraic_attack_grobner_basis_v2_possible`, rounds.rs:236-260; the accumulator is a big integer, `acc.bits()` a `u64`. -/
noncomputable def binomialLoop (security upper : Nat) : Nat → Nat → Nat → R Bool
  | 0, _, _ => return true
  | n + 1, i, acc => do
    let u ← m.arith.sub upper i
    let i1 ← m.arith.add i 1
    let acc := acc * u / i1
    if security ≤ m.asUsize ((F64.round 2).mul (F64.ofNat (numBits acc))).ceil then return false
    else binomialLoop security upper n (i + 1) acc

/-- `algebraic_attack_grobner_basis_v2_possible`, rounds.rs:215-261 -/
noncomputable def algebraicAttackGrobnerBasisV2Possible (input : GenInput) (alpha : Alpha) (choice : RoundNumbers) : R Bool := do
  let r := m.asUsize ((F64.ofNat input.t).div (F64.round 3)).floor
  match alpha with
  | .inverse => .error .unimplemented
  | .exponent e =>
    let exponent := e % m.W
    let full1 ← m.arith.sub choice.full 1
    let upper ← m.arith.mul full1 input.t
    let upper ← m.arith.add upper choice.partialRounds
    let upper ← m.arith.add upper r
    let rh ← m.arith.mul r (choice.full / 2)
    let upper ← m.arith.add upper rh
    let upper ← m.arith.add upper choice.partialRounds
    let upper ← m.arith.add upper exponent
    let lower ← m.arith.add rh choice.partialRounds
    let lower ← m.arith.add lower exponent
    binomialLoop m input.security upper lower 0 1

/-- The left-hand side of the comparisons for `Alpha::Inverse`, rounds.rs:103-104 and 109-110 -/
noncomputable def inverseRounds (input : GenInput) (r : RoundNumbers) : R Nat :=
  m.arith.add (m.asUsize ((F64.ofNat r.full).mul (L.log2 (F64.ofNat input.t))).floor) r.partialRounds

/-- `RoundNumbers::total`, round_numbers.rs:32-34. -/
def total (r : RoundNumbers) : R Nat := m.arith.add r.partialRounds r.full

/-- `is_secure_v1`, rounds.rs:83-119 -/
noncomputable def isSecureV1 (input : GenInput) (lp : F64) (alpha : Alpha) (r : RoundNumbers) : R Bool :=
  if r.full < statisticalAttackFullRounds L input lp alpha then return false
  else match alpha with
    | .exponent _ => do
      let n ← total m r
      let a ← algebraicAttackInterpolation L m input lp alpha
      if n ≤ a then return false
      else do
        let g ← algebraicAttackGrobnerBasisV1 L m input lp alpha
        if n ≤ g then return false else return true
    | .inverse => do
      let n ← inverseRounds L m input r
      let a ← algebraicAttackInterpolation L m input lp alpha
      if n ≤ a then return false
      else do
        let g ← algebraicAttackGrobnerBasisV1 L m input lp alpha
        if n ≤ g then return false else return true

/-- `is_secure_v2`, rounds.rs:122-146 -/
noncomputable def isSecureV2 (input : GenInput) (lp : F64) (alpha : Alpha) (r : RoundNumbers) : R Bool :=
  if r.full < statisticalAttackFullRounds L input lp alpha then return false
  else match alpha with
    | .exponent _ => do
      let n ← total m r
      let a ← algebraicAttackInterpolation L m input lp alpha
      if n ≤ a then return false
      else do
        let g ← algebraicAttackGrobnerBasisV1 L m input lp alpha
        if n ≤ g then return false
        else do
          let possible ← algebraicAttackGrobnerBasisV2Possible m input alpha r
          if possible then return false else return true
    | .inverse => .error .unimplemented

/-- `sbox_count`, rounds.rs:149-151 -/
def sboxCount (r : RoundNumbers) (t : Nat) : R Nat := do
  let a ← m.arith.mul t r.full
  m.arith.add a r.partialRounds

/-- `apply_security_margin`, rounds.rs:155-158 -/
noncomputable def applySecurityMargin (r : RoundNumbers) : R RoundNumbers := do
  let full ← m.arith.add r.full 2
  return { rF := full, rP := m.asUsize ((F64.round 1.075).mul (F64.ofNat r.partialRounds)).ceil }

/-- The search shared by `v1_generate` and `v2_generate`, rounds.rs:19-21,28-47 and 52-76 -/
noncomputable def roundSearch (isSecure : RoundNumbers → R Bool) (t : Nat) : R RoundNumbers := do
  let st ← forRange 1 400 (⟨none, m.W - 1, m.W - 1⟩ : SearchState) fun rP st =>
    forRange 4 100 st fun rF st => do
      let s ← isSecure { rF := rF, rP := rP }
      if !s then return st
      else
        let candidate ← applySecurityMargin m { rF := rF, rP := rP }
        let candidateCost ← sboxCount m candidate t
        if candidateCost < st.cost ∨ (candidateCost = st.cost ∧ rF < st.costRf) then
          return ⟨some candidate, candidateCost, rF⟩
        else return st
  match st.choice with
  | some c => return c
  | none => .error .unwrapNone

/-- `v1_generate`, rounds.rs:18-48 -/
noncomputable def roundsV1Generate (input : GenInput) (lp : F64) (alpha : Alpha) : R RoundNumbers :=
  if 256 < input.security then .error .explicit
  else roundSearch m (isSecureV1 L m input lp alpha) input.t

/-- `v2_generate`, rounds.rs:51-77 -/
noncomputable def roundsV2Generate (input : GenInput) (lp : F64) (alpha : Alpha) : R RoundNumbers :=
  roundSearch m (isSecureV2 L m input lp alpha) input.t

end Mach

/-- `impl From<Alpha> for f64`, poseidon-parameters/src/alpha.rs:20-27 -/
noncomputable def Alpha.toF64 : Alpha → F64
  | .exponent e => F64.ofNat e
  | .inverse => F64.round (-1)

end Poseidon
