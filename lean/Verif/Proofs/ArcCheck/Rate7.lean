import Verif.Proofs.ArcCheck.Messages
import Verif.Params.Rate7

/-! # The shipped round constants of rate 7 are those of the transcript (written by tools/gen_arc_check.py) -/

namespace Poseidon

/-- Transcript states after every 39 constants. -/
def rate7States : Nat → Nat × Nat × Nat
  | 0 => (35478341828107880273630979810374525975784525402678099787070572949220401939173699011524183294885710556928173952009517640041294367246806272903841893252538197697860691915858312347812366254292701110755482846425748509047412645073802008057287061503353488841301193873191778402901020019928277115135406671743698650797206696074597287158904803673114560213051443154968060269767806901090315246900056315701075816954621422410361566215036135676128054084162579295193485084138236121288574665663736674, 25, 20)
  | 1 => (20135828516003718882198571488553590693705030448368546435145393092606556257684289114258974567043859047857770043241787868553430495468965404751751498424140688475958411660377365067687711448566178426996579977063698273899758436766823963134936230878868182934079914085299919182529644001392111190990415172467137648802488779040099139621725415516025695980510212881217417307685399608106192132356394005714203265111164438920894101367709362884402342919228503981770965264602292772305427864062263296, 48, 0)
  | 2 => (22594876739801167265992501264797802712949975178531528986835253587947442865041787503857014247367889353911796490755483699510282002496089684141121137357778074037248538256656250686520944888358511694089894465979442527134217170029723912414713133060950446044327517810545378078530835440372992533726173801356550486048589947128806483963771728568228614669745440440461743110663212709391159362338170483271372602045658577195697234820890921956628845308465218349879710715353559241711352359908540416, 48, 0)
  | 3 => (20222922857087765462711351395775479508130536787754640330065490926400987191904579570700813796808021276042982712991963164407685668098481604441509934960837750298315404781998449728905676055530017743985719606785362849339607336748546722203165558897530911541232618670437725631763783591360553924191035137949002299324931458662709643658777975846418771562559575881469095653727371720402317121944582738006687551335906952313769634049976183281546751145787521836555305414809369525998955133021454336, 48, 0)
  | 4 => (241229685389054479214752985313513956815912165925829260065717938299739758381879406360093346701911682095969457094029711814140989670202667449006021032106151248231465186803887826027879600660282524459159703216448965203912963639355962453637336020970248027877855268881927776012408887816649057689268465573756925388349619760762136002465707964499560157971704284435408453885189351310885358051778417753093169634374906487365430707696620346779662697814807577748660053029773407807521657939034112, 48, 0)
  | 5 => (401879145381051741547645502715512590286783546731246625239864779456983482712621061780928247071204794097793164114762405770110452322451123633160123975394063481664294700441169266845635691841998304073976357650051584902182592837517493703741980633773344182008017069943446561621472818893906526307941369160921960903537622065375303597231714378925385222252825504821263856457843253142210549733290330945242857011349908498899408391492540316730215444001781753231192751416871283063290179755180032, 48, 0)
  | 6 => (29634000675272885263667215820945359461432792560133446953410669563604613030471311871005666796317562690928981344176287066498972505772370250674863318809739992521277095661780887556495975576463341489225283328115859375096153723516096455446917696371351713002793443517076921358801349454939524522247203115003022147883663995743444590905314104704117157078913801204029947044310368850628600270522457059712060511145940700858857295651945595236959519468040032724980325425600147175746694392366235648, 48, 0)
  | 7 => (43721915796643419141960440002688199465602838400025897224984686992183738019690567725430770386684086232718822171166633935814125692569642938556089188290422987577383412403097434088922707156892474537533736683443736551701183497257848327975494748954604877485538807483662729685998573149281960536323272471548747750956457603419564113490691510785534379770788652601904004986658242212545166023812009019036873187554128839213881678697133811762651693654250750041975360548610605993874325987032825856, 48, 0)
  | 8 => (41148366763484541668202049917029629956851171518608512186174970780215688867340639864981972657910209643063993180814251978972274178243160416517081058554571996789819780643956011665789269174229660665821617723995172307532778736038357398907031314945468555110052590712532405781510994400859756889108580075749992308885460896765728171490457623237196422661371866667105309958996546913188724170233109602515813190869589023106756856297450589747562716447611141547882634951300766773980349265136844800, 48, 0)
  | _ => (0, 0, 0)

theorem rate7_start : checkStart (msgsLit 8) (rate7States 0) = true := by decide +kernel

theorem rate7_seg0 : checkSeg q (((canons rate7Raw.arc).drop (39 * 0)).take 39) (rate7States 0) (rate7States 1) = true := by
  decide +kernel

theorem rate7_seg1 : checkSeg q (((canons rate7Raw.arc).drop (39 * 1)).take 39) (rate7States 1) (rate7States 2) = true := by
  decide +kernel

theorem rate7_seg2 : checkSeg q (((canons rate7Raw.arc).drop (39 * 2)).take 39) (rate7States 2) (rate7States 3) = true := by
  decide +kernel

theorem rate7_seg3 : checkSeg q (((canons rate7Raw.arc).drop (39 * 3)).take 39) (rate7States 3) (rate7States 4) = true := by
  decide +kernel

theorem rate7_seg4 : checkSeg q (((canons rate7Raw.arc).drop (39 * 4)).take 39) (rate7States 4) (rate7States 5) = true := by
  decide +kernel

theorem rate7_seg5 : checkSeg q (((canons rate7Raw.arc).drop (39 * 5)).take 39) (rate7States 5) (rate7States 6) = true := by
  decide +kernel

theorem rate7_seg6 : checkSeg q (((canons rate7Raw.arc).drop (39 * 6)).take 39) (rate7States 6) (rate7States 7) = true := by
  decide +kernel

theorem rate7_seg7 : checkSeg q (((canons rate7Raw.arc).drop (39 * 7)).take 39) (rate7States 7) (rate7States 8) = true := by
  decide +kernel

theorem rate7_arc_check : checkDraw (msgsLit 8) (canons rate7Raw.arc) = true := by
  refine checkDraw_segs (n := 39) (c := 8) rate7States (by decide +kernel) rate7_start ?_
  intro j hj
  match j, hj with
  | 0, _ => exact rate7_seg0
  | 1, _ => exact rate7_seg1
  | 2, _ => exact rate7_seg2
  | 3, _ => exact rate7_seg3
  | 4, _ => exact rate7_seg4
  | 5, _ => exact rate7_seg5
  | 6, _ => exact rate7_seg6
  | 7, _ => exact rate7_seg7

end Poseidon
