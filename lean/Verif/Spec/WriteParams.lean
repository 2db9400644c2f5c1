import Verif.Model.WriteParams

/-!
# Specification: runs without errors

The vocabulary of C91.
-/

namespace Poseidon.Groth16

/-- The operating system does what it is asked, if in small steps. -/
def Response.Good : Response → Prop
  | .done n => 0 < n
  | .interrupted => True
  | .failed => False

/-- The number of calls that are not interrupted. -/
def effective (rs : List Response) : Nat := rs.countP (· ≠ .interrupted)

end Poseidon.Groth16
