import Verif.Spec.Matrix
import Verif.Model.Params
import Mathlib.Data.Matrix.Mul
import Mathlib.Data.Fin.VecNotation

/-!
# Specification: what the derived tables of a parameter set must be

Poseidon paper, appendix B: the MDS matrix `M = [[M_00, v], [w, M_hat]]` and the round constants
determine sparse matrices and moved constants; the relations below are what makes the optimized
permutation compute the original one.
-/

namespace Poseidon

variable {F : Type _} [Field F]
variable {k nmds nhat rows nround npart : Nat}

/-- The sparse matrix applied by `sparse_mat_mul`. -/
def sparseM (m00 : F) (v w : Fin k → F) : Matrix (Fin (k + 1)) (Fin (k + 1)) F :=
  Matrix.of fun i j => Fin.cases (Fin.cases m00 w j)
    (fun i' => Fin.cases (v i') (fun j' => if i' = j' then 1 else 0) j) i

/-- The block matrix `diag(1, A)`. -/
def diag1 (A : Matrix (Fin k) (Fin k) F) : Matrix (Fin (k + 1)) (Fin (k + 1)) F :=
  Matrix.of fun i j => Fin.cases (Fin.cases 1 (fun _ => 0) j) (fun i' => Fin.cases 0 (fun j' => A i' j') j) i

/-- Rows of a constants table as a function on naturals (zero outside). -/
def rowFn (ha : nround = rows * (k + 1)) (m : Mat F rows (k + 1) nround) (r : Nat) : Fin (k + 1) → F :=
  if h : r < rows then m.toM ha ⟨r, h⟩ else 0

/-- The derived matrices of a parameter set, read as mathematical objects, are the ones its MDS matrix
determines. -/
structure DerivedMds (p : Params F (k + 1) k nmds nhat rows (k + 1) nround npart)
    (hm : nmds = (k + 1) * (k + 1)) (hh : nhat = k * k) : Prop where
  /-- `M_hat`: MDS matrix without first row and column -/
  mHat : ∀ i j, p.optimizedMds.mHat.toM hh i j = p.mds.toM hm i.succ j.succ
  /-- `v`: first row without first entry -/
  v : ∀ j : Fin k, p.optimizedMds.v.elements[j] = p.mds.toM hm 0 j.succ
  /-- `w`: first column without first entry -/
  w : ∀ i : Fin k, p.optimizedMds.w.elements[i] = p.mds.toM hm i.succ 0
  m00 : p.optimizedMds.m00 = p.mds.toM hm 0 0
  mPrime : p.optimizedMds.mPrime.toM hm = diag1 (p.optimizedMds.mHat.toM hh)
  /-- `M'' = [[M_00, v], [*, I]]` -/
  mDoublePrime : ∃ w' : Fin k → F, p.optimizedMds.mDoublePrime.toM hm =
    sparseM p.optimizedMds.m00 w' fun j => p.optimizedMds.v.elements[j]
  /-- `M = M' M''` -/
  factor : p.optimizedMds.mPrime.toM hm * p.optimizedMds.mDoublePrime.toM hm = p.mds.toM hm
  mInverse : p.mds.toM hm * p.optimizedMds.mInverse.toM hm = 1
  mHatInverse : p.optimizedMds.mHat.toM hh * p.optimizedMds.mHatInverse.toM hh = 1
  /-- `v_j = M_hat ^ j w` -/
  vCollection : ∀ (j : Nat) (h : j < npart), (fun i : Fin k => p.optimizedMds.vCollection[j].elements[i]) =
    (p.optimizedMds.mHat.toM hh ^ j).mulVec fun i => p.optimizedMds.w.elements[i]
  /-- `w_hat_j M_hat ^ (j+1) = v` -/
  wHatCollection : ∀ (j : Nat) (h : j < npart),
    Matrix.vecMul (fun i : Fin k => p.optimizedMds.wHatCollection[j].elements[i])
      (p.optimizedMds.mHat.toM hh ^ (j + 1)) = fun i => p.optimizedMds.v.elements[i]
  /-- `M_i = diag(1, M_hat ^ r_P)` -/
  mI : p.optimizedMds.mI.toM hm = diag1 (p.optimizedMds.mHat.toM hh ^ p.rounds.rP)

/-- The moved round constants of a parameter set are equivalent to its round constants: full rounds
keep theirs; in the partial rounds the vector `d r` still to be added before round `r` has the
original first word, its difference to the original constant is carried through the (linear) mix
layer together with the scalar added after the S-box, and nothing is left over at the last one. -/
structure DerivedArc (p : Params F (k + 1) k nmds nhat rows (k + 1) nround npart)
    (hm : nmds = (k + 1) * (k + 1)) (ha : nround = rows * (k + 1)) : Prop where
  full_pre : ∀ r, r < p.rounds.rF / 2 → rowFn ha p.optimizedArc r = rowFn ha p.arc r
  full_post : ∀ r, p.rounds.rF / 2 + p.rounds.rP ≤ r →
    r < p.rounds.rF / 2 + p.rounds.rP + p.rounds.rF / 2 → rowFn ha p.optimizedArc r = rowFn ha p.arc r
  partial_zero : ∀ r, p.rounds.rF / 2 < r → r < p.rounds.rF / 2 + p.rounds.rP →
    ∀ i : Fin k, rowFn ha p.optimizedArc r i.succ = 0
  moved : ∃ d : Nat → Fin (k + 1) → F, d 0 = rowFn ha p.optimizedArc (p.rounds.rF / 2) ∧
    d (p.rounds.rP - 1) = rowFn ha p.arc (p.rounds.rF / 2 + (p.rounds.rP - 1)) ∧
    ∀ r, r < p.rounds.rP - 1 →
      d r 0 = rowFn ha p.arc (p.rounds.rF / 2 + r) 0 ∧
      (p.mds.toM hm).mulVec (d r - rowFn ha p.arc (p.rounds.rF / 2 + r) +
        Pi.single 0 (rowFn ha p.optimizedArc (p.rounds.rF / 2 + r + 1) 0)) = d (r + 1)

end Poseidon
