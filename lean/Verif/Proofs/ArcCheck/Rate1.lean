import Verif.Proofs.ArcCheck.Messages
import Verif.Params.Rate1

/-! # The shipped round constants of rate 1 are those of the transcript (written by tools/gen_arc_check.py) -/

namespace Poseidon

/-- Transcript states after every 39 constants. -/
def rate1States : Nat → Nat × Nat × Nat
  | 0 => (36361869101413047757177558403188794683725053498026914121125845900373009382467159732523420501455613252327004258246004776841062638491937480996512659136082045604255781567256415165276988293993657776790087255945017466673273195339740318445632601834729835721137684400406897725355518765808237302809193100073424730504287039494339048862201159475361162046081089623394411201887454287490315899556897389087889317352472498578404174630963167521507529582189033813688893393870508009578579853032214433, 25, 20)
  | 1 => (29993365939679077184324120635577200787111837556698995341600637870571391826659256877027820728252599448653749462916686695133121868346017314103619797791265853380779676957218349833992672615141976215453491448312679232927587757440152715672584264766868584729721537114402731746926444370248049181587454164739462273013072642514567691728653579027260475513209428306231785246358800342074666874640290690947499836838153948254572790732057467293030407697833991567225087015050273983645160253354409984, 48, 0)
  | 2 => (30231938094041979332177500161980779885907221753747543330156637852414387540538023722211389125353116781539899466730497433177190821362160223961088639003372296141668088616171078905041044713961704845298426655761713065520987283592006718448399038384057521259617378168495602485987868749161226038011945581877146742065683645415664259432292533605944122725300095041872915665772497026669008646809069971139232457524835186700935452962405444601838567257155545161822690991949379898271995149848412160, 48, 0)
  | _ => (0, 0, 0)

theorem rate1_start : checkStart (msgsLit 2) (rate1States 0) = true := by decide +kernel

theorem rate1_seg0 : checkSeg q (((canons rate1Raw.arc).drop (39 * 0)).take 39) (rate1States 0) (rate1States 1) = true := by
  decide +kernel

theorem rate1_seg1 : checkSeg q (((canons rate1Raw.arc).drop (39 * 1)).take 39) (rate1States 1) (rate1States 2) = true := by
  decide +kernel

theorem rate1_arc_check : checkDraw (msgsLit 2) (canons rate1Raw.arc) = true := by
  refine checkDraw_segs (n := 39) (c := 2) rate1States (by decide +kernel) rate1_start ?_
  intro j hj
  match j, hj with
  | 0, _ => exact rate1_seg0
  | 1, _ => exact rate1_seg1

end Poseidon
