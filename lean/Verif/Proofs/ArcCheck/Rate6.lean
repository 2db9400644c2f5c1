import Verif.Proofs.ArcCheck.Messages
import Verif.Params.Rate6

/-! # The shipped round constants of rate 6 are those of the transcript (written by tools/gen_arc_check.py) -/

namespace Poseidon

/-- Transcript states after every 39 constants. -/
def rate6States : Nat → Nat × Nat × Nat
  | 0 => (12398060769401264158732766118322728316554288996951515317185241235216402087751950812519787800345774104576728953715348498389816081339348645371479381943592943121419516941417458870271495035606988827369783275195080104011591234737883439802424370855708195217018136653261548606018751165099460410696818018790895011284196989461670636082134211398977353928799591971034844580240046991091716660605446485807792545517705984006789733801379482971910093843916445023201394339462260650478948961280912188, 25, 20)
  | 1 => (39690175317267177030740880459010798749120446097985653436321591548364167738602230454143171858234230430868533701654048296343268538151352710806458591234230847021704724113249092580322215017575033450624809469613804107252739568863752365464723806216204676613699927732695227705835537356062002104899098644020061351853299481571213125689737761219681320675792987573931821047871862428178023082024419400505791894511256705641124818849069041960483709407824717413979222556339040906269869224465793024, 48, 0)
  | 2 => (34017700866927381963600022535773418402136511957470259858414131226688402240076836457895226249384160005644795136837103843106360294598492985503533761755753984706167451133729974692707062239326506703809999681294428926721500068711909207607578610563918936370526869820827205713315365605165989248742499381158318202469513472876329265902602030512513788750701279425654260549720717086877358342177107780549807102059577777576198422446754310910696330211616221396602099286337433162595633398888267776, 48, 0)
  | 3 => (11615071502095396148677742172829532545899578367617588254192495286015060758662922838222289650315007023335625444814245971869008540182348712185561545917602904041014638422709601028198525087234705708016142210394900337973826762370744994756360654657186265463306417203552293678845597503246914658805350848110714052978401657092826602912900014889893135435118846373702832318670876976726133143600386802280627978502799093348192296225998314735131064592690050658006972346811613421421698830068350976, 48, 0)
  | 4 => (41715079155573528494383376694360253663654894418199743492154643442962136080793054341329475744910435830442050640784252097305401282277748406798520651367107479864464289349354809044575422528351547634405892987032007844607347368449132148284685408706775598591111588859384397673876337520866841922541952889914111462267591960455509911023404742640542373992898671101019961334249786644794475985622441460081969797722165279185491660173963576185038311638248113481944681529470947089101658504453685248, 48, 0)
  | 5 => (29887036542317589270265531020839288203017176346256918412688281223095681474114782837325467463704584687252350884546607016839904004073906517208730389927545422164273311913293148690505389917295606140087583730789057375538666560459489615714554481046749626815360969666696543712368659719772204495336223165133355417842357207110760434978130232647787877356052543867665583245462110908845524193169664964272563344164003365301633329128792292780505690879094651251684133482295871503753599415924817920, 48, 0)
  | 6 => (10612549358305644563345255785345688105614391393351818803465594144849578496830821782194780775564494177213649890486873929823252929839564159529417320622431804559884756539853620119668535473128955500228412434633537507693491618221544858275037084798010863226051651725088408674158819916114869804935547987835817010900491633059754630106982003713511058324515207095577123703236495106666166193297508531478408064650189949029284207987401077013460727922031681649564284719243370729786487084666585088, 48, 0)
  | 7 => (44241829359776139944551580341740491007294998401851756172523200151736343585789647279111876214198735313413130015272764244520364897408385617480691812420394916896180659436495088169344566603191847729639314389301546513374309898805462884442041578535118276969158439721811097264242888784324856884193968000836413470500209767684620518615168119861911849588569078849230660427322441222216199873620338854864518740770955437066936082282070823120956578260465263122448250673668009939946296347493138432, 48, 0)
  | _ => (0, 0, 0)

theorem rate6_start : checkStart (msgsLit 7) (rate6States 0) = true := by decide +kernel

theorem rate6_seg0 : checkSeg q (((canons rate6Raw.arc).drop (39 * 0)).take 39) (rate6States 0) (rate6States 1) = true := by
  decide +kernel

theorem rate6_seg1 : checkSeg q (((canons rate6Raw.arc).drop (39 * 1)).take 39) (rate6States 1) (rate6States 2) = true := by
  decide +kernel

theorem rate6_seg2 : checkSeg q (((canons rate6Raw.arc).drop (39 * 2)).take 39) (rate6States 2) (rate6States 3) = true := by
  decide +kernel

theorem rate6_seg3 : checkSeg q (((canons rate6Raw.arc).drop (39 * 3)).take 39) (rate6States 3) (rate6States 4) = true := by
  decide +kernel

theorem rate6_seg4 : checkSeg q (((canons rate6Raw.arc).drop (39 * 4)).take 39) (rate6States 4) (rate6States 5) = true := by
  decide +kernel

theorem rate6_seg5 : checkSeg q (((canons rate6Raw.arc).drop (39 * 5)).take 39) (rate6States 5) (rate6States 6) = true := by
  decide +kernel

theorem rate6_seg6 : checkSeg q (((canons rate6Raw.arc).drop (39 * 6)).take 39) (rate6States 6) (rate6States 7) = true := by
  decide +kernel

theorem rate6_arc_check : checkDraw (msgsLit 7) (canons rate6Raw.arc) = true := by
  refine checkDraw_segs (n := 39) (c := 7) rate6States (by decide +kernel) rate6_start ?_
  intro j hj
  match j, hj with
  | 0, _ => exact rate6_seg0
  | 1, _ => exact rate6_seg1
  | 2, _ => exact rate6_seg2
  | 3, _ => exact rate6_seg3
  | 4, _ => exact rate6_seg4
  | 5, _ => exact rate6_seg5
  | 6, _ => exact rate6_seg6

end Poseidon
