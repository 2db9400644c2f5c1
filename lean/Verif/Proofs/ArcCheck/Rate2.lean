import Verif.Proofs.ArcCheck.Messages
import Verif.Params.Rate2

/-! # The shipped round constants of rate 2 are those of the transcript (written by tools/gen_arc_check.py) -/

namespace Poseidon

/-- Transcript states after every 39 constants. -/
def rate2States : Nat → Nat × Nat × Nat
  | 0 => (41181455269062508921522970363250189846039476578884091726154617598098427519373116373890497572762753051136035223337796352725343102808416755179808892705815424682131149828079498780803263751851108758653937922208442048732887387762681599149760873381019090712224525605609160606778581957157942828722321795004145997417911371524171686909636837568673724498404212935302025848333023364529600926639027728028043912919083619926521193995547298661588447712263146029865017284007046289502880425139880119, 25, 20)
  | 1 => (35853017957006543397273862999375351626792689648924561244283922989651134275698051776800784407535331144769053518365053309834105150493304825128160468827937410679051718764050543642264981346194873146494874375635532780335215976088671663018922930063785306152114012775749059553632473683926180715840442030216435027906221697289823471761134213458194018041726805587414389881917438189500094092985058777337221834874811515349659070653159246502894977688171405194893398350946954316039735019296522240, 48, 0)
  | 2 => (31787514270810900262184655724812643612931446583015238712799104694002424349019769814822458587573332822253705875136374979543092453317319203509722928190662482441525843033193934861598628665930394133747146019191904365577175730307643547697948919180922265345883790839276423935708449234531768171351583462513034798068465309619721875283796557919037209895475690085338182001357034796586895414390733543617205844640267707828027780048254054949217275271824161752875823334217986285817504750645542912, 48, 0)
  | 3 => (34322160202926242773831675242386812018366664131349018260744823268541385155413491031761040231559442847492122472435680258405310891534732709123915171630729247367886063260425105045665500086384853824064002401702731734789613214287306334885193452580718959180522173836624858836961654927307301617859806999962811644538327242976924056413488085255032094833587454517238724789604974437599302917426108475675294160625803134922112443908452575245734813669323278171298108829923222944896817526468509696, 48, 0)
  | _ => (0, 0, 0)

theorem rate2_start : checkStart (msgsLit 3) (rate2States 0) = true := by decide +kernel

theorem rate2_seg0 : checkSeg q (((canons rate2Raw.arc).drop (39 * 0)).take 39) (rate2States 0) (rate2States 1) = true := by
  decide +kernel

theorem rate2_seg1 : checkSeg q (((canons rate2Raw.arc).drop (39 * 1)).take 39) (rate2States 1) (rate2States 2) = true := by
  decide +kernel

theorem rate2_seg2 : checkSeg q (((canons rate2Raw.arc).drop (39 * 2)).take 39) (rate2States 2) (rate2States 3) = true := by
  decide +kernel

theorem rate2_arc_check : checkDraw (msgsLit 3) (canons rate2Raw.arc) = true := by
  refine checkDraw_segs (n := 39) (c := 3) rate2States (by decide +kernel) rate2_start ?_
  intro j hj
  match j, hj with
  | 0, _ => exact rate2_seg0
  | 1, _ => exact rate2_seg1
  | 2, _ => exact rate2_seg2

end Poseidon
