import Verif.Proofs.ArcCheck.Messages
import Verif.Params.Rate3

/-! # The shipped round constants of rate 3 are those of the transcript (written by tools/gen_arc_check.py) -/

namespace Poseidon

/-- Transcript states after every 39 constants. -/
def rate3States : Nat → Nat × Nat × Nat
  | 0 => (31218146924605859090744057293537141684488443100812142403983687839973741793145080865335351821394366028138503832431557933019349517108661580802114451124292125272133450159337393011674304807444274481989544053891383225667199663553576829670472379482386570090615574573686601392354864457414297565408540453616715661816636321545166830842844787988998555525258048578850493083484308256331569139301124464291098678357304267699547456689732679726593228370611444655414579704936000368663386760122094673, 25, 20)
  | 1 => (34093394954214767736542600420845755296027210386691437754274779521570044036540781229813213782739121589136959993404255665430978759100809954016740399911478604745452105506414065737388954002974388559009193203009101073189382959068413401057557380433318966361212874640521731518544031348709629266679762508762854803652819164457551462130703127701588031233078164374630178122728773229193521687278389061546157313372147369053259299933724509350076518116454589621848449817708281471768860348150448128, 48, 0)
  | 2 => (4619529204320293319741163602995443322289949681711700017110913405722190544534734792335269659139324013876585310765910442500756306733177517126957790229776709715931531707487923622860756023310653868060320162722508312508253069064694211665364755367433694334866458768135527481216098138856707066938833879113486321513068599548031704474799045447020092697598976162226960721851685302125514516222294182761935893872687238292403868551074169656323236661681182733229407187484824484476500316291858432, 48, 0)
  | 3 => (2489176463941975286601635262015059827196570193448234270146285299443444645627377916228701813878009269579691661558892655866917217480242892745503311578719141077379552945839919609236209335960052278319802622028621745944820236598706615353140634490114961137778399181573230432476076869920107927345988028819704653326137876607126673832520288221997956550703089674325280500681340910315987379574547733553397522942729659950963502007653403989147204193473392012805344388454020345132474361578520576, 48, 0)
  | 4 => (38543739145087897170969553735747723429509267875843286901520264483791108019676760339881538182872827097155133526493582042395414114776299984285583852837740340296474473706462550535125165992806939200884095963724822948421050798068802592557920064790534993863189286988499933052352094722005972048517148849223279972781148813896580624937759686231299704040903263516730302805947054937956536790360604525267318867584274901764245619667951283569785094342124034794382769878554078964262963442123538432, 48, 0)
  | _ => (0, 0, 0)

theorem rate3_start : checkStart (msgsLit 4) (rate3States 0) = true := by decide +kernel

theorem rate3_seg0 : checkSeg q (((canons rate3Raw.arc).drop (39 * 0)).take 39) (rate3States 0) (rate3States 1) = true := by
  decide +kernel

theorem rate3_seg1 : checkSeg q (((canons rate3Raw.arc).drop (39 * 1)).take 39) (rate3States 1) (rate3States 2) = true := by
  decide +kernel

theorem rate3_seg2 : checkSeg q (((canons rate3Raw.arc).drop (39 * 2)).take 39) (rate3States 2) (rate3States 3) = true := by
  decide +kernel

theorem rate3_seg3 : checkSeg q (((canons rate3Raw.arc).drop (39 * 3)).take 39) (rate3States 3) (rate3States 4) = true := by
  decide +kernel

theorem rate3_arc_check : checkDraw (msgsLit 4) (canons rate3Raw.arc) = true := by
  refine checkDraw_segs (n := 39) (c := 4) rate3States (by decide +kernel) rate3_start ?_
  intro j hj
  match j, hj with
  | 0, _ => exact rate3_seg0
  | 1, _ => exact rate3_seg1
  | 2, _ => exact rate3_seg2
  | 3, _ => exact rate3_seg3

end Poseidon
