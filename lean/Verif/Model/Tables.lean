import Verif.Model.Field
import Verif.Model.Params

/-!
# Shipped parameter tables

`poseidon377/src/params/rate_{1..7}.rs` write every field element as
`Fq::from_montgomery_limbs([l0, l1, l2, l3])`: the little-endian 64-bit limbs of `x * 2^256 mod q`.
The generated modules `Verif/Params/Rate*.lean` hold those limbs (tools/gen_params.py copies them).
-/

namespace Poseidon

/-- The four limbs of a table entry.  The literals of poseidon377/src/params/rate_1.rs:12-1314 and the other six files. -/
structure Limbs where
  l0 : Nat
  l1 : Nat
  l2 : Nat
  l3 : Nat

/-- The integer the limbs spell.  The literals of poseidon377/src/params/rate_1.rs:12-1314 and the other six files. -/
def Limbs.raw (l : Limbs) : Nat := l.l0 + l.l1 * 2 ^ 64 + l.l2 * 2 ^ 128 + l.l3 * 2 ^ 192

/-- `Fq::from_montgomery_limbs` (`decaf377`, outside /repo): the element represented by Montgomery limbs.
The literals of poseidon377/src/params/rate_1.rs:12-1314 and the other six files. -/
def Limbs.toFq (l : Limbs) : Fq := (l.raw : Fq) * ((2 ^ 256 : Nat) : Fq)⁻¹

/-- The literal tables of one `rate_n()` function, in source order.  poseidon377/src/params/rate_1.rs:7-1317, and the other six files. -/
structure RawTables where
  arc : List Limbs
  mds : List Limbs
  mHat : List Limbs
  v : List Limbs
  w : List Limbs
  mPrime : List Limbs
  mDoublePrime : List Limbs
  mInverse : List Limbs
  mHatInverse : List Limbs
  m00 : Limbs
  mI : List Limbs
  vCollection : List (List Limbs)
  wHatCollection : List (List Limbs)
  optimizedArc : List Limbs

/-- The array lengths the Rust types force (`[Fq; N]` literals must have `N` entries).
poseidon377/src/params/rate_1.rs:7-1317, and the other six files. -/
def RawTables.wf (t : Nat) (r : RawTables) : Bool :=
  r.arc.length == 39 * t && r.mds.length == t * t && r.mHat.length == (t - 1) * (t - 1) &&
  r.v.length == t - 1 && r.w.length == t - 1 && r.mPrime.length == t * t &&
  r.mDoublePrime.length == t * t && r.mInverse.length == t * t &&
  r.mHatInverse.length == (t - 1) * (t - 1) && r.mI.length == t * t &&
  r.vCollection.length == 31 && r.vCollection.all (fun l => l.length == t - 1) &&
  r.wHatCollection.length == 31 && r.wHatCollection.all (fun l => l.length == t - 1) &&
  r.optimizedArc.length == 39 * t

/-- `[Fq; N]` from a list literal of limbs.  poseidon377/src/params/rate_1.rs:7-1317, and the other six files. -/
def vecOf (n : Nat) (l : List Limbs) (h : l.length = n) : Vector Fq n :=
  ⟨(l.map Limbs.toFq).toArray, by simp [h]⟩

theorem RawTables.wf_iff {t : Nat} {r : RawTables} (h : r.wf t = true) :
    r.arc.length = 39 * t ∧ r.mds.length = t * t ∧ r.mHat.length = (t - 1) * (t - 1) ∧
    r.v.length = t - 1 ∧ r.w.length = t - 1 ∧ r.mPrime.length = t * t ∧
    r.mDoublePrime.length = t * t ∧ r.mInverse.length = t * t ∧
    r.mHatInverse.length = (t - 1) * (t - 1) ∧ r.mI.length = t * t ∧
    r.vCollection.length = 31 ∧ (∀ l ∈ r.vCollection, l.length = t - 1) ∧
    r.wHatCollection.length = 31 ∧ (∀ l ∈ r.wHatCollection, l.length = t - 1) ∧
    r.optimizedArc.length = 39 * t := by
  simpa [RawTables.wf, and_assoc] using h

/-- The `PoseidonParameters { .. }` literal of `rate_{t-1}()`: `M: 128`, `alpha: Alpha::Exponent(17)`,
`rounds: RoundNumbers { r_P: 31, r_F: 8 }` and the tables (the same in all seven files).
The shipped types are `PoseidonParameters<t, t-1, t*t, (t-1)*(t-1), 39, t, 39*t, 31>`.
poseidon377/src/params/rate_1.rs:7-1317, and the other six files. -/
def RawTables.toParams {t : Nat} (r : RawTables) (h : r.wf t = true) :
    Params Fq t (t - 1) (t * t) ((t - 1) * (t - 1)) 39 t (39 * t) 31 :=
  have hw := RawTables.wf_iff h
  { security := 128
    alpha := .exponent 17
    rounds := { rP := 31, rF := 8 }
    mds := ⟨vecOf _ r.mds hw.2.1⟩
    arc := ⟨vecOf _ r.arc hw.1⟩
    optimizedArc := ⟨vecOf _ r.optimizedArc hw.2.2.2.2.2.2.2.2.2.2.2.2.2.2⟩
    optimizedMds :=
      { mHat := ⟨vecOf _ r.mHat hw.2.2.1⟩
        v := ⟨vecOf _ r.v hw.2.2.2.1⟩
        w := ⟨vecOf _ r.w hw.2.2.2.2.1⟩
        mPrime := ⟨vecOf _ r.mPrime hw.2.2.2.2.2.1⟩
        mDoublePrime := ⟨vecOf _ r.mDoublePrime hw.2.2.2.2.2.2.1⟩
        mInverse := ⟨vecOf _ r.mInverse hw.2.2.2.2.2.2.2.1⟩
        mHatInverse := ⟨vecOf _ r.mHatInverse hw.2.2.2.2.2.2.2.2.1⟩
        m00 := r.m00.toFq
        mI := ⟨vecOf _ r.mI hw.2.2.2.2.2.2.2.2.2.1⟩
        vCollection := ⟨(r.vCollection.attach.map fun l =>
          ⟨vecOf _ l.1 (hw.2.2.2.2.2.2.2.2.2.2.2.1 l.1 l.2)⟩).toArray,
          by simp [hw.2.2.2.2.2.2.2.2.2.2.1]⟩
        wHatCollection := ⟨(r.wHatCollection.attach.map fun l =>
          ⟨vecOf _ l.1 (hw.2.2.2.2.2.2.2.2.2.2.2.2.2.1 l.1 l.2)⟩).toArray,
          by simp [hw.2.2.2.2.2.2.2.2.2.2.2.2.1]⟩ } }

end Poseidon
