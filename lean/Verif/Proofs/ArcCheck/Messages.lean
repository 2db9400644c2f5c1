import Verif.Proofs.MerlinFast

/-! # The messages of the shipped instances as literals -/

namespace Poseidon

/-- The messages for width `t`, M = 128, p = q, (r_F, r_P) = (8, 31), alpha = 17. -/
def msgsLit (t : Nat) : List (List Nat × List Nat) := [
  ([100, 111, 109, 45, 115, 101, 112], [114, 111, 117, 110, 100, 45, 99, 111, 110, 115, 116, 97, 110, 116, 115]),
  ([100, 111, 109, 45, 115, 101, 112], [112, 111, 115, 101, 105, 100, 111, 110, 45, 112, 97, 114, 97, 109, 103, 101, 110]),
  ([116], [t, 0, 0, 0, 0, 0, 0, 0]),
  ([77], [128, 0, 0, 0, 0, 0, 0, 0]),
  ([112], [1, 0, 0, 0, 0, 128, 17, 10, 1, 0, 0, 208, 254, 118, 170, 89, 1, 176, 55, 92, 30, 77, 180, 96, 86, 165, 44, 154, 94, 101, 171, 18]),
  ([114, 95, 70], [8]),
  ([114, 95, 80], [31]),
  ([97, 108, 112, 104, 97], [17, 0, 0, 0])]

theorem msgsLit_eq : ∀ i : Fin 7, allMessages 4 ⟨true, 128, i.val + 2, q⟩ ⟨31, 8⟩ (.exponent 17) = msgsLit (i.val + 2) := by
  decide +kernel

end Poseidon
