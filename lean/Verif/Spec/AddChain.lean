/-!
# Addition chains

An addition chain starts with 1, and every further member is a sum of two earlier members.
`x^n` can be computed from `x` with `d` multiplications of earlier powers iff `n` ends a chain with `d`
additions.
-/

namespace Poseidon

/-- Addition chains, the latest member first. -/
inductive AddChain : List Nat → Prop
  | one : AddChain [1]
  | step {c : List Nat} {a b : Nat} : AddChain c → a ∈ c → b ∈ c → AddChain ((a + b) :: c)

/-- `n` is reached by a chain of `d` additions. -/
def ReachableIn (n d : Nat) : Prop := ∃ c, AddChain (n :: c) ∧ c.length = d

/-- The shortest addition chain of `n` has `d` additions. -/
def ShortestChain (n d : Nat) : Prop := ReachableIn n d ∧ ∀ d', ReachableIn n d' → d ≤ d'

end Poseidon
