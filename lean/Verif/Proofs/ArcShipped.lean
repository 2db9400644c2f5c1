import Verif.Proofs.ArcCheck.Rate1
import Verif.Proofs.ArcCheck.Rate2
import Verif.Proofs.ArcCheck.Rate3
import Verif.Proofs.ArcCheck.Rate4
import Verif.Proofs.ArcCheck.Rate5
import Verif.Proofs.ArcCheck.Rate6
import Verif.Proofs.ArcCheck.Rate7
import Verif.Proofs.Matrix
import Verif.Model.Hash

/-! # The shipped round constants come from the transcript -/

set_option linter.unusedSectionVars false

namespace Poseidon

theorem arc_of_check {t : Nat} {r : RawTables} (hw : r.wf t = true) (allow : Bool)
    (hm : allMessages 4 ⟨allow, 128, t, q⟩ ⟨31, 8⟩ (.exponent 17) = msgsLit t)
    (hc : checkDraw (msgsLit t) (canons r.arc) = true) :
    arcV1Generate Fq 4 39 (39 * t) ⟨allow, 128, t, q⟩ ⟨31, 8⟩ (.exponent 17) = .ok (r.toParams hw).arc := by
  have hl : (canons r.arc).length = 39 * t := by rw [canons, List.length_map]; exact (RawTables.wf_iff hw).1
  have h := checkDraw_sound Fq 4 (by omega) ⟨allow, 128, t, q⟩ rfl ⟨31, 8⟩ (.exponent 17) (canons r.arc)
    (by rw [hm]; exact hc)
  rw [hl] at h
  rw [arcV1Generate, show RoundNumbers.total ⟨31, 8⟩ * (⟨allow, 128, t, q⟩ : GenInput).t = 39 * t from rfl, h, ok_bind]
  refine Mat.new_list rfl (r.toParams hw).arc _ ?_
  show _ = (vecOf (39 * t) r.arc (RawTables.wf_iff hw).1).toList
  rw [vecOf, canons, List.map_map]
  show _ = (r.arc.map Limbs.toFq)
  apply List.map_congr_left
  intro x _
  exact (Limbs.toFq_eq x).symm

end Poseidon
