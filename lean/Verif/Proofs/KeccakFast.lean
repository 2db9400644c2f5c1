import Verif.Model.Merlin
import Verif.Proofs.Eval

/-! # Keccak-f[1600] for kernel evaluation (written by tools/gen_keccak.py)

The round of the model, unrolled to 25 words that are evaluated one after the other.
-/

set_option maxRecDepth 4000

namespace Poseidon

/-- Rotation of a 64-bit word. -/
def rotF (x n m : Nat) : Nat := Nat.lor (Nat.mod (Nat.shiftLeft x n) 18446744073709551616) (Nat.shiftRight x m)

theorem rotF_eq (x n m : Nat) (h : 64 - n = m) : rotF x n m = rotl64 x n := by subst h; rfl

/-- `x ^ (~y & z)` -/
def chiF (x y z : Nat) : Nat := Nat.xor x (Nat.land (Nat.xor 18446744073709551615 y) z)

/-- A function of 25 words. -/
abbrev K25 (α : Type) := Nat → Nat → Nat → Nat → Nat → Nat → Nat → Nat → Nat → Nat → Nat → Nat → Nat → Nat → Nat → Nat → Nat → Nat → Nat → Nat → Nat → Nat → Nat → Nat → Nat → α

/-- χ and ι, evaluated, then `k`. -/
def chiIota {α : Type} (rc : Nat) (k : K25 α) : K25 α := fun b0 b1 b2 b3 b4 b5 b6 b7 b8 b9 b10 b11 b12 b13 b14 b15 b16 b17 b18 b19 b20 b21 b22 b23 b24 =>
  force (Nat.xor (chiF b0 b1 b2) rc) fun e0 =>
  force (chiF b1 b2 b3) fun e1 =>
  force (chiF b2 b3 b4) fun e2 =>
  force (chiF b3 b4 b0) fun e3 =>
  force (chiF b4 b0 b1) fun e4 =>
  force (chiF b5 b6 b7) fun e5 =>
  force (chiF b6 b7 b8) fun e6 =>
  force (chiF b7 b8 b9) fun e7 =>
  force (chiF b8 b9 b5) fun e8 =>
  force (chiF b9 b5 b6) fun e9 =>
  force (chiF b10 b11 b12) fun e10 =>
  force (chiF b11 b12 b13) fun e11 =>
  force (chiF b12 b13 b14) fun e12 =>
  force (chiF b13 b14 b10) fun e13 =>
  force (chiF b14 b10 b11) fun e14 =>
  force (chiF b15 b16 b17) fun e15 =>
  force (chiF b16 b17 b18) fun e16 =>
  force (chiF b17 b18 b19) fun e17 =>
  force (chiF b18 b19 b15) fun e18 =>
  force (chiF b19 b15 b16) fun e19 =>
  force (chiF b20 b21 b22) fun e20 =>
  force (chiF b21 b22 b23) fun e21 =>
  force (chiF b22 b23 b24) fun e22 =>
  force (chiF b23 b24 b20) fun e23 =>
  force (chiF b24 b20 b21) fun e24 =>
  k e0 e1 e2 e3 e4 e5 e6 e7 e8 e9 e10 e11 e12 e13 e14 e15 e16 e17 e18 e19 e20 e21 e22 e23 e24

/-- The sum with the θ-effect, ρ and π, evaluated, then `k`. -/
def rhoPi {α : Type} (k : K25 α) (d0 d1 d2 d3 d4 : Nat) : K25 α := fun a0 a1 a2 a3 a4 a5 a6 a7 a8 a9 a10 a11 a12 a13 a14 a15 a16 a17 a18 a19 a20 a21 a22 a23 a24 =>
  force (rotF (Nat.xor a0 d0) 0 64) fun b0 =>
  force (rotF (Nat.xor a6 d1) 44 20) fun b1 =>
  force (rotF (Nat.xor a12 d2) 43 21) fun b2 =>
  force (rotF (Nat.xor a18 d3) 21 43) fun b3 =>
  force (rotF (Nat.xor a24 d4) 14 50) fun b4 =>
  force (rotF (Nat.xor a3 d3) 28 36) fun b5 =>
  force (rotF (Nat.xor a9 d4) 20 44) fun b6 =>
  force (rotF (Nat.xor a10 d0) 3 61) fun b7 =>
  force (rotF (Nat.xor a16 d1) 45 19) fun b8 =>
  force (rotF (Nat.xor a22 d2) 61 3) fun b9 =>
  force (rotF (Nat.xor a1 d1) 1 63) fun b10 =>
  force (rotF (Nat.xor a7 d2) 6 58) fun b11 =>
  force (rotF (Nat.xor a13 d3) 25 39) fun b12 =>
  force (rotF (Nat.xor a19 d4) 8 56) fun b13 =>
  force (rotF (Nat.xor a20 d0) 18 46) fun b14 =>
  force (rotF (Nat.xor a4 d4) 27 37) fun b15 =>
  force (rotF (Nat.xor a5 d0) 36 28) fun b16 =>
  force (rotF (Nat.xor a11 d1) 10 54) fun b17 =>
  force (rotF (Nat.xor a17 d2) 15 49) fun b18 =>
  force (rotF (Nat.xor a23 d3) 56 8) fun b19 =>
  force (rotF (Nat.xor a2 d2) 62 2) fun b20 =>
  force (rotF (Nat.xor a8 d3) 55 9) fun b21 =>
  force (rotF (Nat.xor a14 d4) 39 25) fun b22 =>
  force (rotF (Nat.xor a15 d0) 41 23) fun b23 =>
  force (rotF (Nat.xor a21 d1) 2 62) fun b24 =>
  k b0 b1 b2 b3 b4 b5 b6 b7 b8 b9 b10 b11 b12 b13 b14 b15 b16 b17 b18 b19 b20 b21 b22 b23 b24

/-- One round, then `k`. -/
def roundF {α : Type} (rc : Nat) (k : K25 α) : K25 α := fun a0 a1 a2 a3 a4 a5 a6 a7 a8 a9 a10 a11 a12 a13 a14 a15 a16 a17 a18 a19 a20 a21 a22 a23 a24 =>
  force (Nat.xor (Nat.xor (Nat.xor (Nat.xor a0 a5) a10) a15) a20) fun c0 =>
  force (Nat.xor (Nat.xor (Nat.xor (Nat.xor a1 a6) a11) a16) a21) fun c1 =>
  force (Nat.xor (Nat.xor (Nat.xor (Nat.xor a2 a7) a12) a17) a22) fun c2 =>
  force (Nat.xor (Nat.xor (Nat.xor (Nat.xor a3 a8) a13) a18) a23) fun c3 =>
  force (Nat.xor (Nat.xor (Nat.xor (Nat.xor a4 a9) a14) a19) a24) fun c4 =>
  force (Nat.xor c4 (rotF c1 1 63)) fun d0 =>
  force (Nat.xor c0 (rotF c2 1 63)) fun d1 =>
  force (Nat.xor c1 (rotF c3 1 63)) fun d2 =>
  force (Nat.xor c2 (rotF c4 1 63)) fun d3 =>
  force (Nat.xor c3 (rotF c0 1 63)) fun d4 =>
  rhoPi (chiIota rc k) d0 d1 d2 d3 d4 a0 a1 a2 a3 a4 a5 a6 a7 a8 a9 a10 a11 a12 a13 a14 a15 a16 a17 a18 a19 a20 a21 a22 a23 a24

/-- All rounds, then `k`. -/
def roundsF {α : Type} (k : K25 α) (rcs : List Nat) : K25 α :=
  List.rec (motive := fun _ => K25 α) k (fun rc _ ih => roundF rc ih) rcs

/-- Word `i` of the state. -/
def wordF (st i : Nat) : Nat := Nat.mod (Nat.shiftRight st (Nat.mul 64 i)) 18446744073709551616

/-- Pack the words. -/
def packF {α : Type} (k : Nat → α) : K25 α := fun a0 a1 a2 a3 a4 a5 a6 a7 a8 a9 a10 a11 a12 a13 a14 a15 a16 a17 a18 a19 a20 a21 a22 a23 a24 =>
  force (Nat.add a0 (Nat.mul 18446744073709551616 (Nat.add a1 (Nat.mul 18446744073709551616 (Nat.add a2 (Nat.mul 18446744073709551616 (Nat.add a3 (Nat.mul 18446744073709551616 (Nat.add a4 (Nat.mul 18446744073709551616 (Nat.add a5 (Nat.mul 18446744073709551616 (Nat.add a6 (Nat.mul 18446744073709551616 (Nat.add a7 (Nat.mul 18446744073709551616 (Nat.add a8 (Nat.mul 18446744073709551616 (Nat.add a9 (Nat.mul 18446744073709551616 (Nat.add a10 (Nat.mul 18446744073709551616 (Nat.add a11 (Nat.mul 18446744073709551616 (Nat.add a12 (Nat.mul 18446744073709551616 (Nat.add a13 (Nat.mul 18446744073709551616 (Nat.add a14 (Nat.mul 18446744073709551616 (Nat.add a15 (Nat.mul 18446744073709551616 (Nat.add a16 (Nat.mul 18446744073709551616 (Nat.add a17 (Nat.mul 18446744073709551616 (Nat.add a18 (Nat.mul 18446744073709551616 (Nat.add a19 (Nat.mul 18446744073709551616 (Nat.add a20 (Nat.mul 18446744073709551616 (Nat.add a21 (Nat.mul 18446744073709551616 (Nat.add a22 (Nat.mul 18446744073709551616 (Nat.add a23 (Nat.mul 18446744073709551616 (Nat.add a24 (Nat.mul 18446744073709551616 0)))))))))))))))))))))))))))))))))))))))))))))))))) k

/-- `keccak::f1600`, then `k`. -/
def keccakFast {α : Type} (st : Nat) (k : Nat → α) : α :=
  force (wordF st 0) fun a0 =>
  force (wordF st 1) fun a1 =>
  force (wordF st 2) fun a2 =>
  force (wordF st 3) fun a3 =>
  force (wordF st 4) fun a4 =>
  force (wordF st 5) fun a5 =>
  force (wordF st 6) fun a6 =>
  force (wordF st 7) fun a7 =>
  force (wordF st 8) fun a8 =>
  force (wordF st 9) fun a9 =>
  force (wordF st 10) fun a10 =>
  force (wordF st 11) fun a11 =>
  force (wordF st 12) fun a12 =>
  force (wordF st 13) fun a13 =>
  force (wordF st 14) fun a14 =>
  force (wordF st 15) fun a15 =>
  force (wordF st 16) fun a16 =>
  force (wordF st 17) fun a17 =>
  force (wordF st 18) fun a18 =>
  force (wordF st 19) fun a19 =>
  force (wordF st 20) fun a20 =>
  force (wordF st 21) fun a21 =>
  force (wordF st 22) fun a22 =>
  force (wordF st 23) fun a23 =>
  force (wordF st 24) fun a24 =>
  roundsF (packF k) keccakRC a0 a1 a2 a3 a4 a5 a6 a7 a8 a9 a10 a11 a12 a13 a14 a15 a16 a17 a18 a19 a20 a21 a22 a23 a24

/-- The lanes given by 25 words. -/
def lanesOf (a0 a1 a2 a3 a4 a5 a6 a7 a8 a9 a10 a11 a12 a13 a14 a15 a16 a17 a18 a19 a20 a21 a22 a23 a24 : Nat) : Lanes
  | 0 => fun | 0 => a0 | 1 => a5 | 2 => a10 | 3 => a15 | 4 => a20
  | 1 => fun | 0 => a1 | 1 => a6 | 2 => a11 | 3 => a16 | 4 => a21
  | 2 => fun | 0 => a2 | 1 => a7 | 2 => a12 | 3 => a17 | 4 => a22
  | 3 => fun | 0 => a3 | 1 => a8 | 2 => a13 | 3 => a18 | 4 => a23
  | 4 => fun | 0 => a4 | 1 => a9 | 2 => a14 | 3 => a19 | 4 => a24

/-- Apply a function of 25 words to lanes. -/
def onLanes {α : Type} (k : K25 α) (A : Lanes) : α := k (A 0 0) (A 1 0) (A 2 0) (A 3 0) (A 4 0) (A 0 1) (A 1 1) (A 2 1) (A 3 1) (A 4 1) (A 0 2) (A 1 2) (A 2 2) (A 3 2) (A 4 2) (A 0 3) (A 1 3) (A 2 3) (A 3 3) (A 4 3) (A 0 4) (A 1 4) (A 2 4) (A 3 4) (A 4 4)

theorem roundF_eq {α : Type} (rc : Nat) (k : K25 α) (A : Lanes) :
    onLanes (roundF rc k) A = onLanes k (keccakRound A rc) := by
  simp only [onLanes, roundF, rhoPi, chiIota, force_eq]
  rfl

theorem roundsF_eq {α : Type} (k : K25 α) (rcs : List Nat) (A : Lanes) :
    onLanes (roundsF k rcs) A = onLanes k (rcs.foldl keccakRound A) := by
  induction rcs generalizing A with
  | nil => rfl
  | cons rc rcs ih =>
    rw [List.foldl_cons, ← ih]
    exact roundF_eq rc (roundsF k rcs) A

theorem packF_eq {α : Type} (k : Nat → α) (A : Lanes) : onLanes (packF k) A = k (packLanes A) := by
  have hm : ∀ x, Nat.mul 18446744073709551616 x = 2 ^ 64 * x := fun x => rfl
  have ha : ∀ x y, Nat.add x y = x + y := fun x y => rfl
  simp only [onLanes, packF, force_eq, packLanes, hm, ha, List.foldr_cons, List.foldr_nil]

theorem keccakFast_eq {α : Type} (st : Nat) (k : Nat → α) : keccakFast st k = k (keccakF1600 st) := by
  rw [keccakF1600, keccakLanes, ← packF_eq k, ← roundsF_eq]
  simp only [keccakFast, force_eq]
  rfl

end Poseidon
