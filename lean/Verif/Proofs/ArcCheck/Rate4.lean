import Verif.Proofs.ArcCheck.Messages
import Verif.Params.Rate4

/-! # The shipped round constants of rate 4 are those of the transcript (written by tools/gen_arc_check.py) -/

namespace Poseidon

/-- Transcript states after every 39 constants. -/
def rate4States : Nat → Nat × Nat × Nat
  | 0 => (3603011375766500102698078656187804134173434149392925859168840446350582119342430994236389093142888285548109478811090090001348677520583762267403159836984099790175008640156901419612529930411285372509916497182973219916981799970547277777953643597955166343689246831016917017106702556940706697018335000109754002429211522877678254392719516809983119953522852941320204295250397091077275500805728415324598814979868850813533114663829624070031609311987404836375259369390826622051608949629583153, 25, 20)
  | 1 => (39635573105183142266868487940972716949617974089768482145014151275662895413763594586608744064300813363878666427976357357645530230640951651153470611767663801931617767981730390560332888186940144568661707614313259904576617288673199647383473301329570439317965601138736800433234162211499961299510211916179001221616008636301785545093206647325722998032726343054402836206814414819520444579796597317260820225212168354720403523915377991755147933424027058190221862543626920329617046460356886528, 48, 0)
  | 2 => (42865365345322962077789833786982294065639724560936782418337658892680250708991999156175864174805959988283591076104094149574731126299919196582887337724609216532294304579300146575075090550349553216232889242514361999348697990491684596620628772282582005550011813751810397922811301433366672148891036476100996109796015901502109076174148788123823767344776415860096443458051877782725663648233673101277640621881508038049221930807929263142203054735276883569264982923924436736450122762497818624, 48, 0)
  | 3 => (13627623192426994010048044240595449589168376069072504379240199768386707367899871323862723082442484801945975287720372009648357444760630714822284732670616531397550026252104298079023683200333763599421175486846182529870614218704882561870702487392309226498493970121919906503479042081689569866184416338813262894047329246859082671316460378188170893090655387840226385420799537565755901210796708962446447828208806886577051509427219190465709388977706484536088781763045297101585462100351778816, 48, 0)
  | 4 => (28610296652205819149807550457876290221397700415343283565346507587250658617522087583336893499375747183076348174001220395867384159082337823409375895281066834500292194998081873608121023541285132570374109952423343334042436236072204147865223751254083694280774355595917119271130160276905236092799711490016835916258305254521160376232400623968169965346521541420585753641791895863733395912637740476086745684974115206697796412377835183915697789205594956287781776346651935232467213698813919232, 48, 0)
  | 5 => (19591475433061765421140621863086647644932318946449386441691409471341570801005854631503771876543585371855444797194822261306197780735319347692951638733282937470863598926486923593014517944629415271652716429291420567550179847990524053756923307064745506144095359466857636819392586497737074576534860650168214783118531536783298294036714302763803548520545704916680463347575269421879432631560283699716929982571244314374618583740437242187573137116491219431339615696969183615647627174205194240, 48, 0)
  | _ => (0, 0, 0)

theorem rate4_start : checkStart (msgsLit 5) (rate4States 0) = true := by decide +kernel

theorem rate4_seg0 : checkSeg q (((canons rate4Raw.arc).drop (39 * 0)).take 39) (rate4States 0) (rate4States 1) = true := by
  decide +kernel

theorem rate4_seg1 : checkSeg q (((canons rate4Raw.arc).drop (39 * 1)).take 39) (rate4States 1) (rate4States 2) = true := by
  decide +kernel

theorem rate4_seg2 : checkSeg q (((canons rate4Raw.arc).drop (39 * 2)).take 39) (rate4States 2) (rate4States 3) = true := by
  decide +kernel

theorem rate4_seg3 : checkSeg q (((canons rate4Raw.arc).drop (39 * 3)).take 39) (rate4States 3) (rate4States 4) = true := by
  decide +kernel

theorem rate4_seg4 : checkSeg q (((canons rate4Raw.arc).drop (39 * 4)).take 39) (rate4States 4) (rate4States 5) = true := by
  decide +kernel

theorem rate4_arc_check : checkDraw (msgsLit 5) (canons rate4Raw.arc) = true := by
  refine checkDraw_segs (n := 39) (c := 5) rate4States (by decide +kernel) rate4_start ?_
  intro j hj
  match j, hj with
  | 0, _ => exact rate4_seg0
  | 1, _ => exact rate4_seg1
  | 2, _ => exact rate4_seg2
  | 3, _ => exact rate4_seg3
  | 4, _ => exact rate4_seg4

end Poseidon
