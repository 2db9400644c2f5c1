import Verif.Model.Symbolic

/-!
# Model of sums, differences and products of circuit variables

The operators `+`, `-` and `*` of `FpVar` (`ark-r1cs-std` 0.4), for circuits that compute with the arguments and results of the
circuit hashes; the crates use `*`, `Sum` and `+=` with a constant (poseidon-permutation/src/r1cs.rs:101, 149, 172-176).  Written from
the published source of the library, first with inlined (Model/R1cs.lean), then with symbolic (Model/Symbolic.lean) linear combinations.
-/

namespace Poseidon.R1cs

variable {F : Type} [Field F] [DecidableEq F]

/-- `+`, `-` or `*`.  Beside the operators in poseidon-permutation/src/r1cs.rs:101 and 172-173. -/
inductive ArithOp where
  | add
  | sub
  | mul
  deriving DecidableEq, Repr

/-- `AllocatedFp::add`.  Library code, beside poseidon-permutation/src/r1cs.rs:101. -/
def AllocatedFp.add (a b : AllocatedFp F) : AllocatedFp F := ⟨do let x ← a.value; let y ← b.value; return x + y, a.lc ++ b.lc⟩

/-- `AllocatedFp::sub`.  Library code, beside poseidon-permutation/src/r1cs.rs:101. -/
def AllocatedFp.sub (a b : AllocatedFp F) : AllocatedFp F :=
  ⟨do let x ← a.value; let y ← b.value; return x - y, a.lc ++ b.lc.map fun (k, v) => (-k, v)⟩

/-- `AllocatedFp::sub_constant`.  Library code, beside poseidon-permutation/src/r1cs.rs:101. -/
def AllocatedFp.subConstant (a : AllocatedFp F) (c : F) : AllocatedFp F := a.addConstant (-c)

/-- `AllocatedFp::negate`.  Library code, beside poseidon-permutation/src/r1cs.rs:101. -/
def AllocatedFp.negate (a : AllocatedFp F) : AllocatedFp F := ⟨a.value.map (- ·), a.lc.map fun (k, v) => (-k, v)⟩

/-- `FpVar + FpVar`.  Library code, beside poseidon-permutation/src/r1cs.rs:101. -/
def FpVar.add (a b : FpVar F) : FpVar F :=
  match a, b with
  | .constant x, .constant y => .constant (x + y)
  | .constant c, .var v => .var (v.addConstant c)
  | .var v, .constant c => .var (v.addConstant c)
  | .var v, .var w => .var (v.add w)

/-- `FpVar - FpVar`.  Library code, beside poseidon-permutation/src/r1cs.rs:101. -/
def FpVar.sub (a b : FpVar F) : FpVar F :=
  match a, b with
  | .constant x, .constant y => .constant (x - y)
  | .var v, .constant c => .var (v.subConstant c)
  | .constant c, .var v => .var (v.subConstant c).negate
  | .var v, .var w => .var (v.sub w)

/-- One of the three operators.  Library code, beside poseidon-permutation/src/r1cs.rs:101 and 172-173. -/
def ArithOp.run (op : ArithOp) (a b : FpVar F) (cs : CS F) : R (FpVar F × CS F) :=
  match op with
  | .add => .ok (a.add b, cs)
  | .sub => .ok (a.sub b, cs)
  | .mul => a.mul b cs

end Poseidon.R1cs

namespace Poseidon.Sym

variable {F : Type} [Field F] [DecidableEq F]

/-- `AllocatedFp::add`.  Library code, beside poseidon-permutation/src/r1cs.rs:101. -/
def AllocatedFp.add (a b : AllocatedFp F) (cs : CS F) : AllocatedFp F × CS F :=
  let (v, cs) := newLc [(1, a.var), (1, b.var)] cs
  (⟨do let x ← a.value; let y ← b.value; return x + y, v⟩, cs)

/-- `AllocatedFp::sub`.  Library code, beside poseidon-permutation/src/r1cs.rs:101. -/
def AllocatedFp.sub (a b : AllocatedFp F) (cs : CS F) : AllocatedFp F × CS F :=
  let (v, cs) := newLc [(1, a.var), (-1, b.var)] cs
  (⟨do let x ← a.value; let y ← b.value; return x - y, v⟩, cs)

/-- `AllocatedFp::sub_constant`.  Library code, beside poseidon-permutation/src/r1cs.rs:101. -/
def AllocatedFp.subConstant (a : AllocatedFp F) (c : F) (cs : CS F) : AllocatedFp F × CS F := a.addConstant (-c) cs

/-- `AllocatedFp::negate`.  Library code, beside poseidon-permutation/src/r1cs.rs:101. -/
def AllocatedFp.negate (a : AllocatedFp F) (cs : CS F) : AllocatedFp F × CS F :=
  let (v, cs) := newLc [(-1, a.var)] cs
  (⟨a.value.map (- ·), v⟩, cs)

/-- `FpVar + FpVar`.  Library code, beside poseidon-permutation/src/r1cs.rs:101. -/
def FpVar.add (a b : FpVar F) (cs : CS F) : FpVar F × CS F :=
  match a, b with
  | .constant x, .constant y => (.constant (x + y), cs)
  | .constant c, .var v => let (v, cs) := v.addConstant c cs; (.var v, cs)
  | .var v, .constant c => let (v, cs) := v.addConstant c cs; (.var v, cs)
  | .var v, .var w => let (v, cs) := v.add w cs; (.var v, cs)

/-- `FpVar - FpVar`.  Library code, beside poseidon-permutation/src/r1cs.rs:101. -/
def FpVar.sub (a b : FpVar F) (cs : CS F) : FpVar F × CS F :=
  match a, b with
  | .constant x, .constant y => (.constant (x - y), cs)
  | .var v, .constant c => let (v, cs) := v.subConstant c cs; (.var v, cs)
  | .constant c, .var v =>
    let (v, cs) := v.subConstant c cs
    let (v, cs) := v.negate cs
    (.var v, cs)
  | .var v, .var w => let (v, cs) := v.sub w cs; (.var v, cs)

/-- One of the three operators.  Library code, beside poseidon-permutation/src/r1cs.rs:101 and 172-173. -/
def arith (op : R1cs.ArithOp) (a b : FpVar F) (cs : CS F) : R (FpVar F × CS F) :=
  match op with
  | .add => .ok (a.add b cs)
  | .sub => .ok (a.sub b cs)
  | .mul => a.mul b cs

end Poseidon.Sym
