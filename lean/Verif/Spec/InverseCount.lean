import Verif.Model.Params

/-! # The number of S-boxes of a hash -/

namespace Poseidon

/-- One for each word in a full round, one in a partial round; `R_F / 2` full rounds, `R_P` partial ones, `R_F / 2` full ones. -/
def sboxesOf (r : RoundNumbers) (t : Nat) : Nat := r.rF / 2 * t + r.rP + r.rF / 2 * t

end Poseidon
