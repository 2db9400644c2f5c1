import Verif.Model.Permutation
import Verif.Model.GenMds
import Verif.Spec.Matrix
import Verif.Spec.Trail
import Mathlib.SetTheory.Cardinal.Finite

/-!
# A parameter set with other round constants

The round constants are the one part of a parameter set that is drawn (from a transcript); the matrix, the S-box and the round
numbers are computed.  Here the constants are an argument, so that one can count the tables for which something happens.
-/

namespace Poseidon

variable {F : Type} [Field F] [DecidableEq F] {k rows nmds nhat nround npart : Nat}

/-- The parameters `P` with the table `A` of round constants in the place of theirs, and the optimized constants derived from it
as `v1::generate` derives them (`round_constants::generate_optimized`, /repo/poseidon-paramgen/src/v1.rs:17-96). -/
def Params.withConstants (debug : Bool) (P : Params F (k + 1) k nmds nhat rows (k + 1) nround npart)
    (ha : nround = rows * (k + 1)) (A : Matrix (Fin rows) (Fin (k + 1)) F) :
    R (Params F (k + 1) k nmds nhat rows (k + 1) nround npart) := do
  let arc := Mat.ofM ha A
  let oarc ← arcGenerateOptimized debug arc P.mds P.rounds
  return { P with arc := arc, optimizedArc := oarc }

/-- `n_to_1_fixed_hash` of a new instance with these parameters. -/
def hashWith (debug : Bool) (P : Params F (k + 1) k nmds nhat rows (k + 1) nround npart)
    (ha : nround = rows * (k + 1)) (A : Matrix (Fin rows) (Fin (k + 1)) F) (input : Vector F (k + 1)) : R F := do
  let P' ← P.withConstants debug ha A
  let (d, _) ← (Instance.new P').nTo1FixedHash input
  return d

/-- `output_words` after that hash. -/
def wordsWith (debug : Bool) (P : Params F (k + 1) k nmds nhat rows (k + 1) nround npart)
    (ha : nround = rows * (k + 1)) (A : Matrix (Fin rows) (Fin (k + 1)) F) (input : Vector F (k + 1)) : R (Vector F (k + 1)) := do
  let P' ← P.withConstants debug ha A
  let (_, inst) ← (Instance.new P').nTo1FixedHash input
  return inst.outputWords

/-- The number of tables of round constants with a property. -/
noncomputable def countTables {rows t : Nat} (Q : Matrix (Fin rows) (Fin t) F → Prop) : Nat := Nat.card {A // Q A}

/-- With the constants `A`, the states of the inputs `x` and `y` differ by `Δ m` after `m` rounds, for every `m`. -/
def FollowsTrail (a : Alpha) (M : Matrix (Fin (k + 1)) (Fin (k + 1)) F) (rf rp : Nat) (hr : rf + rp + rf ≤ rows)
    (x y : Fin (k + 1) → F) (Δ : Nat → Fin (k + 1) → F) (A : Matrix (Fin rows) (Fin (k + 1)) F) : Prop :=
  ∀ m ≤ rf + rp + rf, ∃ s s',
    textbookPrefix a M rf rp (fun r => A ⟨r.val, lt_of_lt_of_le r.isLt hr⟩) m x = some s ∧
    textbookPrefix a M rf rp (fun r => A ⟨r.val, lt_of_lt_of_le r.isLt hr⟩) m y = some s' ∧ s - s' = Δ m

end Poseidon
