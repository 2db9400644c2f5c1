import Verif.Proofs.ArcCheck.Messages
import Verif.Params.Rate5

/-! # The shipped round constants of rate 5 are those of the transcript (written by tools/gen_arc_check.py) -/

namespace Poseidon

/-- Transcript states after every 39 constants. -/
def rate5States : Nat → Nat × Nat × Nat
  | 0 => (8322552141151414942875551461083298813196692180606448127840145880482203675829837458151899197099698891463429160670354922616998260759549251885434264375254530724792764790122766297827634255194813922789562448169936475886366556130691447565397085373078402969315036123278984197093038821786791072421811013707567040965252337679487066001295076690771969090693361445563825430466176619551814225562461224055537013609353734573065222066433275605919503404136292930014399140355985923758303025129057296, 25, 20)
  | 1 => (37163593880830755689937887220666508676130560021021592196083488109640818502275586278886699180348487899935438554444562064480549861030237635599750494625455601113516106340815040971080046902907857214391532133344168422726176746278483291453106935883495913061671298525032764455639150440882066990471660233681357753728080475012959952723857810586877792586487829368729787658693726413580049236676426896692022788542086307509158085565116269628525611136568236771195043854697836279075347030142353408, 48, 0)
  | 2 => (13120397619082143107376552684528477540723572069221938134273578337739393319373388807476885772252992645743403467241134457003891559684172419132068469405995241822172428047949911530711746182504835366930410112797031599755794898704901442132980738334068942053208100335625741197857300399332312336570442743355672934461564058396468045617764088388856368244584352164423631170907820571605349670167706555357865773743543500540268909036727887272101407089865143901556935180688637395587426070980198400, 48, 0)
  | 3 => (8872744922449583835690844270902675572195211143013898297149474601084767543422962055483729847314325845469789316027747950986541156633692791673606641272128760559124340019215078681719392479639380340842859252293826216683117768910169383233810344529361684251458490758075921156046907835613614322932457036246422667116162227571671054870895930015764921232579812262221838552321052067833374669030331875088613111691841595190104441604539389943654281622701333783872712747429720236084251099754659840, 48, 0)
  | 4 => (2315553985210282178217790918805222685151215240962136755111994802189068153114026245068572653213038638534590875456228587154305423362853020295615994907946009746579195955631731392326347396317382388779239169278890382187290557243170818831957501957681289567956383952845319498401606933061047200234493848673445112910542178374913220958368393746694981193641782371488474205380206775209036768138956526870759618751005554954476851112078850078942260096550746803181624839403053698729826422540468224, 48, 0)
  | 5 => (14070894293848705347693000427281780881485078978516090115295064184362392670450028733082565454809066251378629575447943889424326549188694165719585322208535194921029182721243538854141163554499469530553998921300163710613549202104662955020461441679003665187472490442591342607151702759566216024187524344166997917324834480614443382874372897482047311761914615491259055037947384498206407944666885900291887779290461632176833622523818832967897823184263755678621983088848206876182978883645079552, 48, 0)
  | 6 => (35849518779895547587406508557509120135311668320647213766374279185647331821103718030450566419659952958959942649428337390850382999346021071315582712322869645570013925123908996540457689154387202191376586006317653099392113958914878461005364713661569764671047308836599714205075067538929413911071529250535170777395306067772875258848651637511534751090235522052415122267220833905707998535714067455722375364860873183525279680178977859877093645046634046417408483426871084727922529919718916096, 48, 0)
  | _ => (0, 0, 0)

theorem rate5_start : checkStart (msgsLit 6) (rate5States 0) = true := by decide +kernel

theorem rate5_seg0 : checkSeg q (((canons rate5Raw.arc).drop (39 * 0)).take 39) (rate5States 0) (rate5States 1) = true := by
  decide +kernel

theorem rate5_seg1 : checkSeg q (((canons rate5Raw.arc).drop (39 * 1)).take 39) (rate5States 1) (rate5States 2) = true := by
  decide +kernel

theorem rate5_seg2 : checkSeg q (((canons rate5Raw.arc).drop (39 * 2)).take 39) (rate5States 2) (rate5States 3) = true := by
  decide +kernel

theorem rate5_seg3 : checkSeg q (((canons rate5Raw.arc).drop (39 * 3)).take 39) (rate5States 3) (rate5States 4) = true := by
  decide +kernel

theorem rate5_seg4 : checkSeg q (((canons rate5Raw.arc).drop (39 * 4)).take 39) (rate5States 4) (rate5States 5) = true := by
  decide +kernel

theorem rate5_seg5 : checkSeg q (((canons rate5Raw.arc).drop (39 * 5)).take 39) (rate5States 5) (rate5States 6) = true := by
  decide +kernel

theorem rate5_arc_check : checkDraw (msgsLit 6) (canons rate5Raw.arc) = true := by
  refine checkDraw_segs (n := 39) (c := 6) rate5States (by decide +kernel) rate5_start ?_
  intro j hj
  match j, hj with
  | 0, _ => exact rate5_seg0
  | 1, _ => exact rate5_seg1
  | 2, _ => exact rate5_seg2
  | 3, _ => exact rate5_seg3
  | 4, _ => exact rate5_seg4
  | 5, _ => exact rate5_seg5

end Poseidon
