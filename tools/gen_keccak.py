"""Writes lean/Verif/Proofs/KeccakFast.lean: Keccak-f[1600] unrolled for kernel evaluation."""
import os
RHO=[[0,36,3,41,18],[1,44,10,45,2],[62,6,43,15,61],[28,55,25,21,56],[27,20,39,8,14]]
o=[]
A=[f"a{i}" for i in range(25)]
args=" ".join(A)
o.append('''import Verif.Model.Merlin
import Verif.Proofs.Eval

/-! # Keccak-f[1600] for kernel evaluation (written by tools/gen_keccak.py)

The round of the model, unrolled to 25 words that are evaluated one after the other.
-/

set_option maxRecDepth 4000

namespace Poseidon

/-- Rotation of a 64-bit word. -/
def rotF (x n m : Nat) : Nat := Nat.lor (Nat.mod (Nat.shiftLeft x n) 18446744073709551616) (Nat.shiftRight x m)

theorem rotF_eq (x n m : Nat) (h : 64 - n = m) : rotF x n m = rotl64 x n := by subst h; rfl

/-- `x ^ (~y & z)` -/
def chiF (x y z : Nat) : Nat := Nat.xor x (Nat.land (Nat.xor 18446744073709551615 y) z)
''')
ty=" → ".join(["Nat"]*25)
o.append(f"/-- A function of 25 words. -/\nabbrev K25 (α : Type) := {ty} → α\n")
o.append(f"/-- χ and ι, evaluated, then `k`. -/\ndef chiIota {{α : Type}} (rc : Nat) (k : K25 α) : K25 α := fun {' '.join('b%d'%i for i in range(25))} =>")
for y in range(5):
    for x in range(5):
        e=f"chiF b{x+5*y} b{(x+1)%5+5*y} b{(x+2)%5+5*y}"
        if x==0 and y==0: e=f"Nat.xor ({e}) rc"
        o.append(f"  force ({e}) fun e{x+5*y} =>")
o.append("  k "+" ".join(f"e{i}" for i in range(25))+"\n")
# theta+rho+pi
D=" ".join(f"d{x}" for x in range(5))
o.append(f"/-- The sum with the θ-effect, ρ and π, evaluated, then `k`. -/\ndef rhoPi {{α : Type}} (k : K25 α) ({D} : Nat) : K25 α := fun {args} =>")
for y in range(5):
    for x in range(5):
        sx,sy=(x+3*y)%5,x
        r=RHO[sx][sy]
        o.append(f"  force (rotF (Nat.xor a{sx+5*sy} d{sx}) {r} {64-r}) fun b{x+5*y} =>")
o.append("  k "+" ".join(f"b{i}" for i in range(25))+"\n")
o.append(f"/-- One round, then `k`. -/\ndef roundF {{α : Type}} (rc : Nat) (k : K25 α) : K25 α := fun {args} =>")
for x in range(5):
    o.append(f"  force (Nat.xor (Nat.xor (Nat.xor (Nat.xor a{x} a{x+5}) a{x+10}) a{x+15}) a{x+20}) fun c{x} =>")
for x in range(5):
    o.append(f"  force (Nat.xor c{(x-1)%5} (rotF c{(x+1)%5} 1 63)) fun d{x} =>")
o.append(f"  rhoPi (chiIota rc k) {D} {args}\n")
o.append("/-- All rounds, then `k`. -/\ndef roundsF {α : Type} (k : K25 α) (rcs : List Nat) : K25 α :=\n  List.rec (motive := fun _ => K25 α) k (fun rc _ ih => roundF rc ih) rcs\n")
o.append("/-- Word `i` of the state. -/\ndef wordF (st i : Nat) : Nat := Nat.mod (Nat.shiftRight st (Nat.mul 64 i)) 18446744073709551616\n")
pk="0"
for i in reversed(range(25)):
    pk=f"(Nat.add a{i} (Nat.mul 18446744073709551616 {pk}))"
o.append(f"/-- Pack the words. -/\ndef packF {{α : Type}} (k : Nat → α) : K25 α := fun {args} =>\n  force {pk} k\n")
o.append("/-- `keccak::f1600`, then `k`. -/\ndef keccakFast {α : Type} (st : Nat) (k : Nat → α) : α :=")
for i in range(25): o.append(f"  force (wordF st {i}) fun a{i} =>")
o.append(f"  roundsF (packF k) keccakRC {args}\n")
# proofs
o.append(f"/-- The lanes given by 25 words. -/\ndef lanesOf ({args} : Nat) : Lanes")
for x in range(5):
    o.append("  | %d => fun "%x + " ".join(f"| {y} => a{x+5*y}" for y in range(5)))
o.append("")
app="A 0 0"
def kargs(B): return " ".join(f"({B} {x} {y})" for y in range(5) for x in range(5))
o.append(f"/-- Apply a function of 25 words to lanes. -/\ndef onLanes {{α : Type}} (k : K25 α) (A : Lanes) : α := k {kargs('A')}\n")
o.append(f"""theorem roundF_eq {{α : Type}} (rc : Nat) (k : K25 α) (A : Lanes) :
    onLanes (roundF rc k) A = onLanes k (keccakRound A rc) := by
  simp only [onLanes, roundF, rhoPi, chiIota, force_eq]
  rfl

theorem roundsF_eq {{α : Type}} (k : K25 α) (rcs : List Nat) (A : Lanes) :
    onLanes (roundsF k rcs) A = onLanes k (rcs.foldl keccakRound A) := by
  induction rcs generalizing A with
  | nil => rfl
  | cons rc rcs ih =>
    rw [List.foldl_cons, ← ih]
    exact roundF_eq rc (roundsF k rcs) A

theorem packF_eq {{α : Type}} (k : Nat → α) (A : Lanes) : onLanes (packF k) A = k (packLanes A) := by
  have hm : ∀ x, Nat.mul 18446744073709551616 x = 2 ^ 64 * x := fun x => rfl
  have ha : ∀ x y, Nat.add x y = x + y := fun x y => rfl
  simp only [onLanes, packF, force_eq, packLanes, hm, ha, List.foldr_cons, List.foldr_nil]

theorem keccakFast_eq {{α : Type}} (st : Nat) (k : Nat → α) : keccakFast st k = k (keccakF1600 st) := by
  rw [keccakF1600, keccakLanes, ← packF_eq k, ← roundsF_eq]
  simp only [keccakFast, force_eq]
  rfl

end Poseidon
""")
open(os.path.join(os.path.dirname(os.path.abspath(__file__)),"..","lean/Verif/Proofs/KeccakFast.lean"),"w").write("\n".join(o))
