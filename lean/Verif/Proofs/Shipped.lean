import Verif.Proofs.ShippedLift
import Verif.Model.Hash

/-! # The shipped parameter sets pass the table checks -/

namespace Poseidon

theorem rate1_check : checkTables 2 rate1Raw = true := by decide +kernel
theorem rate2_check : checkTables 3 rate2Raw = true := by decide +kernel
theorem rate3_check : checkTables 4 rate3Raw = true := by decide +kernel
theorem rate4_check : checkTables 5 rate4Raw = true := by decide +kernel
theorem rate5_check : checkTables 6 rate5Raw = true := by decide +kernel
theorem rate6_check : checkTables 7 rate6Raw = true := by decide +kernel
theorem rate7_check : checkTables 8 rate7Raw = true := by decide +kernel

theorem shippedAll (i : Fin 7) :
    DerivedMds (shippedParams i) rfl rfl ∧ DerivedArc (shippedParams i) rfl rfl ∧
      ∀ a b : Fin (i.val + 2), (shippedParams i).mds.toM rfl a b * ((a.val + b.val + (i.val + 2) : Nat) : Fq) = 1 := by
  fin_cases i
  · exact shipped_derived rate1Raw_wf rate1_check
  · exact shipped_derived rate2Raw_wf rate2_check
  · exact shipped_derived rate3Raw_wf rate3_check
  · exact shipped_derived rate4Raw_wf rate4_check
  · exact shipped_derived rate5Raw_wf rate5_check
  · exact shipped_derived rate6Raw_wf rate6_check
  · exact shipped_derived rate7Raw_wf rate7_check

theorem shipped_alpha (i : Fin 7) : (shippedParams i).alpha = .exponent 17 := by
  fin_cases i <;> rfl

theorem shipped_rounds (i : Fin 7) : (shippedParams i).rounds = { rP := 31, rF := 8 } := by
  fin_cases i <;> rfl

theorem shipped_security (i : Fin 7) : (shippedParams i).security = 128 := by
  fin_cases i <;> rfl

theorem shipped_consistent (i : Fin 7) : Consistent (shippedParams i) rfl rfl := by
  obtain ⟨h1, h2, _⟩ := shippedAll i
  apply Consistent.of_derived h1 h2 <;> simp [shipped_rounds]

end Poseidon
