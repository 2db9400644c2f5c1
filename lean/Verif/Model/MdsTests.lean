import Mathlib.LinearAlgebra.Eigenspace.Basic
import Mathlib.LinearAlgebra.Matrix.ToLin
import Mathlib.LinearAlgebra.FiniteDimensional.Basic

/-!
# Model of the matrix tests of the Poseidon authors

`vendor/hadeshash/code/generate_parameters_grain.sage`: `generate_vectorspace`, `subspace_times_matrix`, `algorithm_1`, `algorithm_2` and
`algorithm_3`, with which the authors' script rejects weak matrices.  The generator of this repository does not run them.  A Sage vector
space is a `Submodule`; `s = 1` throughout; `NUM_CELLS` is `k + 1`.
-/

namespace Poseidon

open Module

variable {F : Type _} [Field F] {k : Nat}

/-- `generate_vectorspace`, generate_parameters_grain.sage:133-154.  `M_round[i]` is `M^(i + 1)`; the span of the extended basis vectors is the span of all
extended vectors of the kernel. -/
noncomputable def generateVectorspace (M : Matrix (Fin (k + 1)) (Fin (k + 1)) F) : Nat → Submodule F (Fin (k + 1) → F)
  | 0 => ⊤
  | 1 => Submodule.span F (Set.range fun i : Fin k => (Pi.single i.succ 1 : Fin (k + 1) → F))
  | n + 2 =>
    let mat : Matrix (Fin (n + 1)) (Fin k) F := Matrix.of fun i j => (M ^ (i.val + 1)) 0 j.succ
    Submodule.span F ((fun v : Fin k → F => (Fin.cons 0 v : Fin (k + 1) → F)) '' {v | mat.mulVec v = 0})

/-- `subspace_times_matrix`, generate_parameters_grain.sage:156-164: the span of the images of a basis is the image. -/
noncomputable def subspaceTimesMatrix (S : Submodule F (Fin (k + 1) → F)) (M : Matrix (Fin (k + 1)) (Fin (k + 1)) F) :
    Submodule F (Fin (k + 1) → F) := S.map M.mulVecLin

/-- The body of the loop of `algorithm_1`, generate_parameters_grain.sage:177-203: the code of the failure, if any.  The circulant matrix of `(x, 0, …, 0)` is
`x` times the identity; `eigenspaces_right` restricted to eigenvalues in the field are the eigenspaces. -/
noncomputable def algorithm1Step (M : Matrix (Fin (k + 1)) (Fin (k + 1)) F) (i : Nat) : Option Nat := open Classical in
  let matTest := M ^ i
  if matTest - matTest 0 0 • (1 : Matrix (Fin (k + 1)) (Fin (k + 1)) F) = 0 then some 1
  else
    let S := generateVectorspace M i
    let IS : Submodule F (Fin (k + 1) → F) := ⨆ μ : F, S ⊓ End.eigenspace matTest.mulVecLin μ
    if 1 ≤ finrank F IS ∧ IS ≠ ⊤ then some 2
    else if ∃ j, 1 ≤ j ∧ j ≤ i ∧ S = subspaceTimesMatrix S (M ^ j) then some 3
    else none

/-- `algorithm_1`, generate_parameters_grain.sage:167-205: `[True, 0]` or `[False, code]` -/
noncomputable def algorithm1 (M : Matrix (Fin (k + 1)) (Fin (k + 1)) F) : Bool × Nat :=
  match (List.range' 1 k).findSome? (algorithm1Step M) with
  | some c => (false, c)
  | none => (true, 0)

open Classical in
/-- The `while` loop of `algorithm_2`, generate_parameters_grain.sage:228-236, for the only set `I_s = (0)` of the power set; `true` if it sets `test_next`. -/
noncomputable def algorithm2Loop (M : Matrix (Fin (k + 1)) (Fin (k + 1)) F) (IS : Submodule F (Fin (k + 1) → F)) (v : Fin (k + 1) → F) :
    Bool :=
  let v' := M.mulVec v
  let IS' := IS ⊔ Submodule.span F {v'}
  let fullIotaSpace := Submodule.span F (Set.range fun i : Fin (k + 1) => (Pi.single i 1 : Fin (k + 1) → F))
  if finrank F IS' = k + 1 ∨ IS' ⊓ fullIotaSpace ≠ IS' then true
  else if _h : finrank F IS' ≤ finrank F IS then false
  else algorithm2Loop M IS' v'
termination_by k + 1 - finrank F IS
decreasing_by
  have h1 := Submodule.finrank_le (R := F) IS'
  rw [finrank_fin_fun] at h1
  show k + 1 - finrank F IS' < k + 1 - finrank F IS
  omega

/-- `algorithm_2`, generate_parameters_grain.sage:208-243 (the first component of the result) -/
noncomputable def algorithm2 (M : Matrix (Fin (k + 1)) (Fin (k + 1)) F) : Bool :=
  algorithm2Loop M (Submodule.span F {Pi.single 0 1}) (Pi.single 0 1)

/-- `algorithm_3`, generate_parameters_grain.sage:246-285 (the first component of the result) -/
noncomputable def algorithm3 (M : Matrix (Fin (k + 1)) (Fin (k + 1)) F) : Bool :=
  (List.range' 2 (4 * (k + 1) - 1)).all fun r => algorithm2 (M ^ r)

end Poseidon
