import Verif.Model.Tables

/-! Generated by tools/gen_params.py from poseidon377/src/params/rate_5.rs; do not edit. -/

namespace Poseidon

/-- `arc`, poseidon377/src/params/rate_5.rs:11-1416 -/
def rate5_arc : List Limbs := [
  ⟨11114527869315019992, 204777424233041404, 11091912519069240090, 121969426625488706⟩,
  ⟨11602548353808217299, 6197238791893869094, 15622579320964543388, 1298930792120594487⟩,
  ⟨838896996119702820, 9307552859605174720, 8035142733069793771, 274230695041989171⟩,
  ⟨3026923182969617970, 17802669379857452552, 12317599963821296502, 1025681681724348483⟩,
  ⟨5608950751956253759, 13524340746668180438, 15318090696011006995, 777019565914500344⟩,
  ⟨1158035626778037273, 17664260243497899213, 16296355254226759288, 950557495952381678⟩,
  ⟨11235491782021601934, 3148198093287396523, 17540068057551648414, 246938399961631601⟩,
  ⟨17389082769676787279, 4715116371725704005, 680633748837086801, 1023507596971258305⟩,
  ⟨7398967334233665984, 13695483063991186800, 18171031240540141567, 1071188377250033509⟩,
  ⟨8901013324099486427, 14221538804433703579, 421845258270117661, 1118364576196477055⟩,
  ⟨3792995620986947754, 8295286409031689804, 7023787899825757992, 899023674461718667⟩,
  ⟨8793784762096018942, 15222981485936247095, 17829285903963587033, 104381350073974926⟩,
  ⟨11268502072074030331, 4494658873172678747, 10565307326465463378, 784696444351308107⟩,
  ⟨13330824150800116849, 4890131204868069348, 16795432331983276560, 678123243378284364⟩,
  ⟨16154775053781645033, 5239747136963640569, 16611876759537507645, 759623577554638126⟩,
  ⟨8392188723943358220, 16791142993973140668, 13297749232586734563, 426701908934618073⟩,
  ⟨17606532937509352288, 2853753027669231277, 1878611917293492305, 643977045852461225⟩,
  ⟨5784332265294899224, 10677876800438676900, 18301919197560353192, 1242300655560067148⟩,
  ⟨11412543805884713089, 4404535555399600518, 4605611364617586616, 706261397170793623⟩,
  ⟨2724614443579353257, 12190950292326203757, 12944786940879400957, 90707148364678769⟩,
  ⟨16664686769040599810, 7492639236725157146, 1787480043672337070, 1043615315016757716⟩,
  ⟨4392261116480034202, 16508253691140740970, 1257682754845069496, 1301148167322522764⟩,
  ⟨139213556258184346, 16303671450556136664, 10342805884525342231, 508792166529776861⟩,
  ⟨14643711485787161846, 5395142180975966192, 12467589421402803020, 144762579288366866⟩,
  ⟨15255437222491521014, 14721462158275437977, 2057221655333534074, 1325734657361576891⟩,
  ⟨10286355773254745653, 8339495471482876116, 7453999146298511805, 300469360378533737⟩,
  ⟨2229249064542236808, 3252881241602061127, 17948673955112458282, 251981777265729122⟩,
  ⟨1422075247142054873, 8352700063552546507, 3488191142699771311, 539185901306414217⟩,
  ⟨12740149804027925426, 5586599109404648568, 8527372678942371978, 115816006301850856⟩,
  ⟨6406078249694103685, 13837513268450501788, 17900428335249812847, 459347554819743617⟩,
  ⟨456851906250247004, 7370389193990924655, 1807458787636143704, 398667578735753852⟩,
  ⟨9788417460696232352, 5540502179845655224, 11753539559261255021, 1240756247017913507⟩,
  ⟨14537927489871028819, 8847897852622601733, 7522585085117894620, 375913426199509068⟩,
  ⟨14308316144026398062, 8381587303995226137, 14032256210407832529, 689401812725544360⟩,
  ⟨13627669936560791680, 15960253582647842471, 10281350312743054371, 150904336199250478⟩,
  ⟨5265938544355635125, 14011142295917522514, 3457190839889849022, 965417711506858707⟩,
  ⟨16926111367909514992, 15173362371822436547, 14933443732208301060, 434526341180358604⟩,
  ⟨14967648454927618569, 3291387031545538855, 8588581828915048287, 792649357850563702⟩,
  ⟨15353334048989602273, 17774561716206146119, 15636104655753091025, 1121698680267776671⟩,
  ⟨7352303644457020849, 11873784571663633568, 14627146015402136109, 1299084319993956489⟩,
  ⟨16915421385818843283, 6574617383150910264, 11422646729677132251, 929867690867770500⟩,
  ⟨2727877432502627942, 15580341544991113874, 3099990664581009583, 1240423234600344359⟩,
  ⟨14109846450233510521, 14674455181378475527, 1052605710857317529, 1170659366228378647⟩,
  ⟨1487646680354896463, 4928492219250082356, 5905478662916155907, 544460360269702126⟩,
  ⟨6341346323512196011, 5734973448691058326, 7525099077854354763, 538464447227753960⟩,
  ⟨2970148736135554232, 8050550381279637505, 12092286293721047612, 120114654914049590⟩,
  ⟨17316363606963256567, 5533183240747888359, 585663312963257979, 139248346646491863⟩,
  ⟨10174847279006068180, 2997987744513078474, 10464913671214968471, 524965683820736700⟩,
  ⟨54341264868687362, 5421004392946502713, 747264896093234142, 211411280351915374⟩,
  ⟨5185489921536036071, 4704724361069451071, 4676129525140851232, 1120503850587310053⟩,
  ⟨5188148333232019565, 9844624880738531087, 11083931443628660795, 48712959222331590⟩,
  ⟨18132794403501755308, 4996277675320572821, 8426233139227882210, 1136120772510480448⟩,
  ⟨6688066783162319874, 16812397130378746446, 1563788939072390863, 94078802559039860⟩,
  ⟨7277685347797685095, 16873547601164190596, 14751852483076367538, 14675244398420571⟩,
  ⟨10079144247912409743, 8202707283781100239, 14357029383013329671, 1339785338742424059⟩,
  ⟨9634622379571234742, 10124148039561860757, 12959569757638734172, 595623221777036788⟩,
  ⟨12438115909232101952, 6692144523221973376, 98330004458373230, 1289698894538748039⟩,
  ⟨12584838405775095951, 2233721579825914515, 4679507125597853910, 1005456515702813230⟩,
  ⟨3938302556839502700, 9759499277811028830, 3296175630346274937, 981342338929693494⟩,
  ⟨13584588304331907697, 14901744669564308257, 10189694356059299380, 146229118527659864⟩,
  ⟨7977203115766932089, 5348595991272040666, 7916441407055787565, 414015970121354410⟩,
  ⟨6344869167182666748, 87274177081813667, 3736796951764034882, 288116208326542090⟩,
  ⟨6782489206655080598, 619325409304332178, 17888946015733998246, 1225153807687734600⟩,
  ⟨2843050123299780857, 1857078695470833828, 13790121543731752592, 415443237864035468⟩,
  ⟨8596983925472337433, 7326755327579826593, 12756860599564365858, 584181157037447809⟩,
  ⟨6624979411473108702, 17481608711835432073, 9326170883700217913, 284274034447147537⟩,
  ⟨13805074074198365820, 16654885628813400888, 11514371967468509966, 343666476001683468⟩,
  ⟨13412135478858616067, 17972587362145489837, 3471900644097496495, 1303815283631151979⟩,
  ⟨5393982013204945472, 2134584020773499203, 673466067189783026, 383197328076308992⟩,
  ⟨12690627402887821729, 10714862615705492405, 1068799421694466319, 1005549471897715563⟩,
  ⟨2794121834599689269, 9403898257934234871, 15645249730625359588, 717133247159915483⟩,
  ⟨3750258937835721096, 2056713754904073328, 13343956241265388204, 978687562686928642⟩,
  ⟨6693505246665395198, 321305738310940343, 8242276846147342531, 437988437080106004⟩,
  ⟨13067453044702788796, 16549020754244348848, 14781963588087090141, 661082564029228628⟩,
  ⟨17540644026388671794, 8922891784689421140, 9379310092907018870, 765574007581740165⟩,
  ⟨17168415590631158212, 4967864494403905256, 8557026071391060461, 1317676192546642661⟩,
  ⟨15849602569050873376, 937817756067670930, 9256527416398591608, 860235003543784933⟩,
  ⟨7543632918105704930, 12541439592576801019, 13144951089707956772, 41901740621632050⟩,
  ⟨6730944509314595369, 6308132304102632805, 9824188815073657306, 947447793188743941⟩,
  ⟨8027042707746962490, 11823228291757902961, 13058185285098764358, 336308269362966457⟩,
  ⟨17668761980666590381, 916900473222809342, 9032902696647999656, 1206798077709834757⟩,
  ⟨2575943430919555647, 6982422138755698722, 17906452816315642240, 1040285465480518609⟩,
  ⟨4676245288580428747, 1286234536026906032, 15834455733024512963, 173462824491942276⟩,
  ⟨14308731880491479014, 10228826088867441356, 15499426016798380851, 1315964678542897961⟩,
  ⟨6124462188383628200, 13994025204959010105, 2282493343669790508, 1065454428927664041⟩,
  ⟨988926009518969200, 15417015929087482085, 5998393954402084482, 540400810650613669⟩,
  ⟨5764104729040907699, 2863356645440240472, 9968438238837920675, 633210980814249702⟩,
  ⟨10763147411954484876, 4870204607771977448, 6480512614473978867, 683494642222622007⟩,
  ⟨4440852407455748277, 8762659822349541955, 18263541095190090147, 585043470445066748⟩,
  ⟨16911785709988001751, 3581411532501811046, 1478440133608885243, 1164133149174128766⟩,
  ⟨1426558755494224529, 12516949196047728033, 17132752269246428290, 356208126695477134⟩,
  ⟨14896569372479444141, 1449669928198367982, 12457553693255423792, 902793672204828469⟩,
  ⟨3369226999454999348, 11158810537103910265, 2808006375302756684, 719861372102939033⟩,
  ⟨3246518112410208054, 13944200025301723446, 764003656536121000, 81035000333546312⟩,
  ⟨480604143483617458, 15146610571181935768, 10342031106972296681, 321939937748541484⟩,
  ⟨3823315055653922623, 1544133407778019995, 8339678284115967093, 340405582859069416⟩,
  ⟨14521487749042353090, 2741200029829353725, 15404416537140680175, 224317571319525964⟩,
  ⟨9111107875572394601, 14812080039988879021, 11740909323457275498, 1142849951174245079⟩,
  ⟨6315394863492521922, 15290263181571711160, 8361458214310627912, 1120819345406699978⟩,
  ⟨7541199882669497715, 686266139368081655, 3486408502495110410, 305571836806477895⟩,
  ⟨11194602393992127889, 4823164490358819269, 2963098888089596977, 127467430759375185⟩,
  ⟨13401323458715176749, 7526519102807969052, 11500838828688844175, 593796521014294359⟩,
  ⟨11177320531756391055, 4080502600305034702, 2571892269998531885, 231632967099830080⟩,
  ⟨6149939798770351609, 18287517033582086432, 5338242308958263460, 328048786757923732⟩,
  ⟨15458540156643766751, 1400997897599319292, 7413209173172832967, 100478538984542434⟩,
  ⟨15303231637131188474, 12210183127521607378, 16044977891049973821, 772905068623323043⟩,
  ⟨10785654084122827601, 2211259386857104245, 16649012282872525368, 102071913196144291⟩,
  ⟨2881174213450719659, 12014311740982782554, 12475890147035428875, 1060652822280359969⟩,
  ⟨5168530618588372608, 12645871097945809310, 12679814118712019422, 757227039744328626⟩,
  ⟨16723583453861051889, 13217434832318564597, 17167491729232777306, 750899259017645156⟩,
  ⟨11975166328753770827, 5021170043599009847, 8130600622535160737, 1210833522054518385⟩,
  ⟨11828331664533985829, 5744074093878888180, 13572294236110601484, 741336438516605705⟩,
  ⟨9092803352234031294, 16991861971006998540, 12590210254184326397, 163020812219371078⟩,
  ⟨15150825267514654715, 7582420113892720781, 11021538006069969553, 514128026898157287⟩,
  ⟨257730274965307694, 15941247979209339081, 12550718099618824836, 926747662553501853⟩,
  ⟨16021060490791077863, 18399937961097236925, 12479381244109581994, 958161696800711416⟩,
  ⟨5656070927198127166, 13673864766172609613, 7854541344260335717, 433926247460842256⟩,
  ⟨3081498096075015625, 5114063565662711844, 6016747140135578647, 200080044486646757⟩,
  ⟨8668474263754820542, 5150418979667712870, 671591932121595684, 387641243292135089⟩,
  ⟨9867452618101888436, 9573741750129271560, 11870983264768155164, 672361345937806490⟩,
  ⟨2794280237383234509, 8511976920647235700, 12240900835121281355, 5009064961478580⟩,
  ⟨12481235113884027566, 5693342786405429686, 2966752082111199656, 878902670166036876⟩,
  ⟨14240267055971916647, 10396848562787560462, 5518035894864045572, 1179757559875500073⟩,
  ⟨14962737666094847614, 10739908350874416157, 4895620174233055664, 321666060863471221⟩,
  ⟨13445218619283341504, 5092610038400904148, 2968853296034188758, 835336201072079364⟩,
  ⟨10233520240960919680, 5959452117994239475, 16491909337703133675, 891169556062643417⟩,
  ⟨2834888386861055650, 7604409413887743592, 13030269578665703653, 401509353262871810⟩,
  ⟨2704145273060684739, 1774123728738332116, 4451847378072935255, 539946861082459083⟩,
  ⟨10338036189104724495, 5463305924257293228, 7871975511799681863, 487399285329040504⟩,
  ⟨10282365810457753854, 4875136836869467005, 8167065600132017137, 612538811597081600⟩,
  ⟨11956552275263932784, 2910596066147194639, 1653383919024312564, 917094813414419045⟩,
  ⟨7847733681848392968, 17061053188234229069, 4327647852405514270, 201342973946798656⟩,
  ⟨12402208752860149978, 5942639276189211897, 8650838259976493487, 93208955821879002⟩,
  ⟨4359686047010863164, 1740657266406964854, 14400992892832573055, 600962517221943370⟩,
  ⟨7871068409103488505, 12092947390480615881, 15236005069504836910, 1219304791403246439⟩,
  ⟨2331767746054493290, 15439688574017229593, 2624671321035938496, 196664992671490503⟩,
  ⟨6984766032236094336, 4199333161186836907, 6966733218962904660, 828131141266688191⟩,
  ⟨18198492961367884206, 4075548382228621731, 7120869279096377960, 1112174665656009203⟩,
  ⟨15188354035011941657, 1528404887014191153, 7644022124588184416, 656794906545005738⟩,
  ⟨3703805022276205448, 11543145569483730813, 2304402099650902209, 823592775762696951⟩,
  ⟨5142351354334489771, 10763765166551123043, 17450746794319983955, 960731944967042935⟩,
  ⟨9913254528380233461, 6379270468481813387, 4130926869587487310, 610795545512520772⟩,
  ⟨17898556710819263490, 7911122569140186326, 5516730092468208963, 664379227085230598⟩,
  ⟨10616973143833638020, 17471880607893344822, 1128145204777244976, 337394536883295972⟩,
  ⟨6661544590953239315, 15146532782491929291, 4755596764817736061, 545820584329603194⟩,
  ⟨60806500798869004, 15736128091162195183, 5715198746929749021, 446174552562569645⟩,
  ⟨5425873532207787318, 7464087132630945791, 5476589627464471901, 457480423296188143⟩,
  ⟨9013993650827414321, 2350031823838640206, 11034300868488958302, 388596567345343643⟩,
  ⟨6468567377966650967, 13590648265578243490, 15927509019046836214, 1009388599057851509⟩,
  ⟨172016905197246847, 4035387207966104057, 211325131413472824, 1280387199047629664⟩,
  ⟨7689408096630419675, 14584961804097092641, 1127508416484176885, 171502318968879609⟩,
  ⟨9294855872887423209, 2005827460175726472, 16783720225277999740, 1082009637379471203⟩,
  ⟨17016200436476421122, 12639043105124250806, 6582000444620236323, 508699111294885791⟩,
  ⟨14725203266650011970, 13877962155717739891, 9513649462380557047, 642461852581041542⟩,
  ⟨9787931489031096184, 7902836596315130785, 78997879637635390, 694120778750553576⟩,
  ⟨17889392554162858882, 342322215215622448, 4493824746279576258, 312168636607671093⟩,
  ⟨8140513347694048696, 12902641943590609873, 14714848264461122064, 1334963605704347157⟩,
  ⟨13240131887967600078, 4407633827305492594, 15540185952445554130, 68037993503280515⟩,
  ⟨10497793217508245191, 888682325286928065, 15370448865727419266, 733754751125624627⟩,
  ⟨7740533852108866287, 17937493023745474932, 7773801956856873664, 504241230363210440⟩,
  ⟨11961891551527755983, 17934542229987203026, 1103543868067501932, 687591834971622190⟩,
  ⟨4127100989690868033, 8900195718942322911, 8226770865992890280, 985029699319544839⟩,
  ⟨8227296419732771358, 16053490579720323354, 3654951897271203554, 1041079676339451632⟩,
  ⟨8010548121403948512, 1275465025143581354, 2160211023041782235, 1189169285314754196⟩,
  ⟨7530207327455925553, 5703304996823784226, 6548643313601850639, 827356749854490373⟩,
  ⟨8316601172635772109, 12370440707468203196, 2939769182126754327, 753180078630191546⟩,
  ⟨1143377137813871993, 17312593164165222318, 13705553886161524318, 941885898262021576⟩,
  ⟨2112728878057216642, 3892761102962286658, 11417348492657537819, 735668726979811860⟩,
  ⟨16782576336846005593, 3624413749987727914, 17968976872659530354, 487897895994872800⟩,
  ⟨2484948819702640096, 5387963240223549977, 12687920099134049563, 883350989149367893⟩,
  ⟨2858482485641078244, 2714093515401288033, 10455809282530923083, 751664744246651868⟩,
  ⟨13617000549064485510, 4455000600207656914, 12777124443685982279, 512862262303044909⟩,
  ⟨10570187078077272513, 15758514759732880612, 10690894638211880846, 465609433405901497⟩,
  ⟨13236383050663721729, 12125155130370039041, 17253356752093433548, 232625893933277711⟩,
  ⟨757191121931270989, 9786533229648281558, 7506322761488798421, 219466670969587686⟩,
  ⟨11502539180279016827, 10976808592365411679, 14518853469755275814, 189651093510465237⟩,
  ⟨7406145050063996705, 5433107506103268286, 4579059832807850831, 292839512595959393⟩,
  ⟨242050570766254477, 16090627413832777930, 8503088905690880687, 844834299854905528⟩,
  ⟨15972066311454464627, 12186767479971029668, 2392334865506711034, 617078040284954179⟩,
  ⟨6210271142236644282, 6562036542656589429, 8025274330376993547, 762526438011303745⟩,
  ⟨14753366313850022795, 5437791126426953356, 14245062222537079752, 150913805242227000⟩,
  ⟨4807021976023523388, 16710746776370779475, 7473038774703206777, 172363022129389231⟩,
  ⟨7874676450184753436, 2949898094916075783, 630009569754295782, 934898795281709342⟩,
  ⟨2596733933911644291, 18211864913609597189, 669972403590796856, 1007790356294249019⟩,
  ⟨8847285884406092349, 15810443671218046899, 781303087795509610, 175334333513747495⟩,
  ⟨5611124786858759575, 7741270494085822523, 1204252626273700461, 831434023402198326⟩,
  ⟨17024841864111709876, 10953422139928438, 7108870425049447348, 867000474059877218⟩,
  ⟨17254710881283625253, 13619503273421245826, 16524833801283537459, 867017638279036320⟩,
  ⟨3047689304468185211, 4544400348474807371, 3340017855267764578, 1089932391947236624⟩,
  ⟨944987404414691783, 7324130194857674958, 14960179948619727115, 970290030783854962⟩,
  ⟨8156639230679108247, 17055081218862987306, 3045209940380371184, 1025132464373554760⟩,
  ⟨18254963138764984051, 12469634773213013819, 6758329371646179128, 349904494647494862⟩,
  ⟨6795371985529952899, 17895939878048277876, 16632557265478858928, 387059669716455908⟩,
  ⟨1318357771340990990, 12994552359569230566, 16705716531436318589, 763697275022015004⟩,
  ⟨16465052430714272962, 13602787326604775722, 15751371050932720313, 138014004592597966⟩,
  ⟨15825638165970940054, 9332212474670848079, 7882594046477316711, 290829412130665018⟩,
  ⟨6362195239856311490, 4780237228875137807, 14782630189115640960, 704272740049173340⟩,
  ⟨6559278659646672166, 6801036849757997540, 8000231443027455180, 656562251428831486⟩,
  ⟨913435484006780831, 4148347286870754245, 15429895160407091360, 481581552746677021⟩,
  ⟨3201617625256301842, 17959683725889804366, 12477328746136434592, 804751930331318023⟩,
  ⟨8260268643263772682, 564990144864143113, 3819503561945572420, 589166794945624703⟩,
  ⟨1468345889510338758, 12133722777278260983, 2225753638037198615, 983608944845547502⟩,
  ⟨16667974706419349718, 12656033986103589392, 16476477987437165475, 328446031568129583⟩,
  ⟨10832018960089362233, 15872202042944916671, 1542413852742137668, 856769655034004351⟩,
  ⟨1248584674224513873, 10955885710253485131, 690903013823109733, 586986955236732406⟩,
  ⟨7801056996972321718, 10731441130229109668, 1309104763613854723, 168690751356355485⟩,
  ⟨863448993500386948, 12860067037622976516, 4075953973254780281, 1092718826088125370⟩,
  ⟨4083664853681447299, 16294486273605038844, 13502684468641213280, 1231917587532627983⟩,
  ⟨17640823880561253607, 17906844028095875120, 16598825086926066591, 1259468978780670799⟩,
  ⟨3915912471832963150, 2878160052333009121, 5137491367309860490, 525959498882725072⟩,
  ⟨624108744920628033, 7222337173749652537, 6177234009439253836, 1305879330650409183⟩,
  ⟨4047186108818890838, 8293278676301284463, 45421248765572143, 11849077013826147⟩,
  ⟨13734838437817111564, 14067107962177066014, 6283538344938866018, 943068615468766850⟩,
  ⟨9459753653362225504, 13412221550119657532, 11719554885145159458, 1038210702444171410⟩,
  ⟨17258590752825572441, 4422385439615665045, 10963985232294213328, 673097344483052623⟩,
  ⟨4350910935437581306, 17071656780821887075, 17526744607642225290, 489524084357985818⟩,
  ⟨8703107470067448452, 734592437454660319, 6370216058631913860, 984849913832896286⟩,
  ⟨15847437253128917127, 13204151715277535095, 13151742340803361913, 492775982398767260⟩,
  ⟨13378140148769271177, 11023068523390522139, 1729259508144916727, 998491139322015796⟩,
  ⟨15868115462640964898, 5808184910810487816, 17891106563868657547, 1273423536878729280⟩,
  ⟨17498572932499506726, 4915375148198704347, 16526318329827242193, 172885368041045335⟩,
  ⟨12175858961476635194, 8395097384299796850, 16561947957716644135, 118811035529307344⟩,
  ⟨1364632949773972783, 5616500288305274826, 2744828291285230257, 1337220218752536168⟩,
  ⟨7125704632582034340, 2413935880315792634, 16253134495760827214, 1013353907442898755⟩,
  ⟨9926413936648370716, 9286244748248440505, 5620697470790885637, 1050126432920929832⟩,
  ⟨2286190222160729638, 1205027650655862007, 284571302335235840, 754838472987631454⟩,
  ⟨18032942241472576701, 12877723516371231014, 5304401947346162660, 638292803799023432⟩,
  ⟨1301734909908791963, 3999021096443686109, 8224194566860360743, 975889756225576945⟩,
  ⟨13137758236377688944, 15164889622744579310, 9510882901247182860, 507443416341514201⟩,
  ⟨7442629497476523514, 15402336932582436695, 12267702252685663951, 406181490859224216⟩,
  ⟨3020913173034234370, 7615906519537783167, 14373843007930618441, 268952515824125262⟩,
  ⟨8510711668693637739, 16478737597936355688, 4962621450185609628, 274948738817040348⟩,
  ⟨175794307933344111, 2355200265651483892, 17868773626579092521, 52492857067069690⟩,
  ⟨13918504549178190575, 13563258972352289042, 5310731325887509548, 465559440844068311⟩]

/-- `mds`, poseidon377/src/params/rate_5.rs:1417-1632 -/
def rate5_mds : List Limbs := [
  ⟨17237574486256691881, 7678231653376502440, 12981859904545217192, 832323394471302938⟩,
  ⟨14878706952858838161, 15410104227655356999, 17393275270132988194, 905602962502284432⟩,
  ⟨17721242321237835775, 11985636621509722110, 11478464757469040638, 960562638525520553⟩,
  ⟨17640631015407645126, 17416650484724036037, 14803487960933328666, 554882262980868625⟩,
  ⟨10632745392742701465, 7191381972905833266, 10576427669223334706, 1037506184958051122⟩,
  ⟨7989155441247042094, 18276457113184108543, 17999817914616464103, 943187440870955565⟩,
  ⟨14878706952858838161, 15410104227655356999, 17393275270132988194, 905602962502284432⟩,
  ⟨17721242321237835775, 11985636621509722110, 11478464757469040638, 960562638525520553⟩,
  ⟨17640631015407645126, 17416650484724036037, 14803487960933328666, 554882262980868625⟩,
  ⟨10632745392742701465, 7191381972905833266, 10576427669223334706, 1037506184958051122⟩,
  ⟨7989155441247042094, 18276457113184108543, 17999817914616464103, 943187440870955565⟩,
  ⟨18204910156218979669, 16293041589642941780, 9975069610392864084, 1088801882579738168⟩,
  ⟨17721242321237835775, 11985636621509722110, 11478464757469040638, 960562638525520553⟩,
  ⟨17640631015407645126, 17416650484724036037, 14803487960933328666, 554882262980868625⟩,
  ⟨10632745392742701465, 7191381972905833266, 10576427669223334706, 1037506184958051122⟩,
  ⟨7989155441247042094, 18276457113184108543, 17999817914616464103, 943187440870955565⟩,
  ⟨18204910156218979669, 16293041589642941780, 9975069610392864084, 1088801882579738168⟩,
  ⟨15441359965645378481, 7022857083512140090, 11162758362666494739, 1108530997049617801⟩,
  ⟨17640631015407645126, 17416650484724036037, 14803487960933328666, 554882262980868625⟩,
  ⟨10632745392742701465, 7191381972905833266, 10576427669223334706, 1037506184958051122⟩,
  ⟨7989155441247042094, 18276457113184108543, 17999817914616464103, 943187440870955565⟩,
  ⟨18204910156218979669, 16293041589642941780, 9975069610392864084, 1088801882579738168⟩,
  ⟨15441359965645378481, 7022857083512140090, 11162758362666494739, 1108530997049617801⟩,
  ⟨7802104352665277001, 1712233803072817444, 12180777293186749586, 1125441666595228915⟩,
  ⟨10632745392742701465, 7191381972905833266, 10576427669223334706, 1037506184958051122⟩,
  ⟨7989155441247042094, 18276457113184108543, 17999817914616464103, 943187440870955565⟩,
  ⟨18204910156218979669, 16293041589642941780, 9975069610392864084, 1088801882579738168⟩,
  ⟨15441359965645378481, 7022857083512140090, 11162758362666494739, 1108530997049617801⟩,
  ⟨7802104352665277001, 1712233803072817444, 12180777293186749586, 1125441666595228915⟩,
  ⟨7330330845985706257, 6947957132670498679, 9373711551562393463, 1140097580201425214⟩,
  ⟨7989155441247042094, 18276457113184108543, 17999817914616464103, 943187440870955565⟩,
  ⟨18204910156218979669, 16293041589642941780, 9975069610392864084, 1088801882579738168⟩,
  ⟨15441359965645378481, 7022857083512140090, 11162758362666494739, 1108530997049617801⟩,
  ⟨7802104352665277001, 1712233803072817444, 12180777293186749586, 1125441666595228915⟩,
  ⟨7330330845985706257, 6947957132670498679, 9373711551562393463, 1140097580201425214⟩,
  ⟨0, 0, 0, 1152921504606846976⟩]

/-- `M_hat`, poseidon377/src/params/rate_5.rs:1633-1779 -/
def rate5_mHat : List Limbs := [
  ⟨17721242321237835775, 11985636621509722110, 11478464757469040638, 960562638525520553⟩,
  ⟨17640631015407645126, 17416650484724036037, 14803487960933328666, 554882262980868625⟩,
  ⟨10632745392742701465, 7191381972905833266, 10576427669223334706, 1037506184958051122⟩,
  ⟨7989155441247042094, 18276457113184108543, 17999817914616464103, 943187440870955565⟩,
  ⟨18204910156218979669, 16293041589642941780, 9975069610392864084, 1088801882579738168⟩,
  ⟨17640631015407645126, 17416650484724036037, 14803487960933328666, 554882262980868625⟩,
  ⟨10632745392742701465, 7191381972905833266, 10576427669223334706, 1037506184958051122⟩,
  ⟨7989155441247042094, 18276457113184108543, 17999817914616464103, 943187440870955565⟩,
  ⟨18204910156218979669, 16293041589642941780, 9975069610392864084, 1088801882579738168⟩,
  ⟨15441359965645378481, 7022857083512140090, 11162758362666494739, 1108530997049617801⟩,
  ⟨10632745392742701465, 7191381972905833266, 10576427669223334706, 1037506184958051122⟩,
  ⟨7989155441247042094, 18276457113184108543, 17999817914616464103, 943187440870955565⟩,
  ⟨18204910156218979669, 16293041589642941780, 9975069610392864084, 1088801882579738168⟩,
  ⟨15441359965645378481, 7022857083512140090, 11162758362666494739, 1108530997049617801⟩,
  ⟨7802104352665277001, 1712233803072817444, 12180777293186749586, 1125441666595228915⟩,
  ⟨7989155441247042094, 18276457113184108543, 17999817914616464103, 943187440870955565⟩,
  ⟨18204910156218979669, 16293041589642941780, 9975069610392864084, 1088801882579738168⟩,
  ⟨15441359965645378481, 7022857083512140090, 11162758362666494739, 1108530997049617801⟩,
  ⟨7802104352665277001, 1712233803072817444, 12180777293186749586, 1125441666595228915⟩,
  ⟨7330330845985706257, 6947957132670498679, 9373711551562393463, 1140097580201425214⟩,
  ⟨18204910156218979669, 16293041589642941780, 9975069610392864084, 1088801882579738168⟩,
  ⟨15441359965645378481, 7022857083512140090, 11162758362666494739, 1108530997049617801⟩,
  ⟨7802104352665277001, 1712233803072817444, 12180777293186749586, 1125441666595228915⟩,
  ⟨7330330845985706257, 6947957132670498679, 9373711551562393463, 1140097580201425214⟩,
  ⟨0, 0, 0, 1152921504606846976⟩]

/-- `v`, poseidon377/src/params/rate_5.rs:1780-1811 -/
def rate5_v : List Limbs := [
  ⟨14878706952858838161, 15410104227655356999, 17393275270132988194, 905602962502284432⟩,
  ⟨17721242321237835775, 11985636621509722110, 11478464757469040638, 960562638525520553⟩,
  ⟨17640631015407645126, 17416650484724036037, 14803487960933328666, 554882262980868625⟩,
  ⟨10632745392742701465, 7191381972905833266, 10576427669223334706, 1037506184958051122⟩,
  ⟨7989155441247042094, 18276457113184108543, 17999817914616464103, 943187440870955565⟩]

/-- `w`, poseidon377/src/params/rate_5.rs:1812-1843 -/
def rate5_w : List Limbs := [
  ⟨14878706952858838161, 15410104227655356999, 17393275270132988194, 905602962502284432⟩,
  ⟨17721242321237835775, 11985636621509722110, 11478464757469040638, 960562638525520553⟩,
  ⟨17640631015407645126, 17416650484724036037, 14803487960933328666, 554882262980868625⟩,
  ⟨10632745392742701465, 7191381972905833266, 10576427669223334706, 1037506184958051122⟩,
  ⟨7989155441247042094, 18276457113184108543, 17999817914616464103, 943187440870955565⟩]

/-- `M_prime`, poseidon377/src/params/rate_5.rs:1844-2006 -/
def rate5_mPrime : List Limbs := [
  ⟨9015221291577245683, 8239323489949974514, 1646089257421115374, 958099254763297437⟩,
  ⟨0, 0, 0, 0⟩,
  ⟨0, 0, 0, 0⟩,
  ⟨0, 0, 0, 0⟩,
  ⟨0, 0, 0, 0⟩,
  ⟨0, 0, 0, 0⟩,
  ⟨0, 0, 0, 0⟩,
  ⟨17721242321237835775, 11985636621509722110, 11478464757469040638, 960562638525520553⟩,
  ⟨17640631015407645126, 17416650484724036037, 14803487960933328666, 554882262980868625⟩,
  ⟨10632745392742701465, 7191381972905833266, 10576427669223334706, 1037506184958051122⟩,
  ⟨7989155441247042094, 18276457113184108543, 17999817914616464103, 943187440870955565⟩,
  ⟨18204910156218979669, 16293041589642941780, 9975069610392864084, 1088801882579738168⟩,
  ⟨0, 0, 0, 0⟩,
  ⟨17640631015407645126, 17416650484724036037, 14803487960933328666, 554882262980868625⟩,
  ⟨10632745392742701465, 7191381972905833266, 10576427669223334706, 1037506184958051122⟩,
  ⟨7989155441247042094, 18276457113184108543, 17999817914616464103, 943187440870955565⟩,
  ⟨18204910156218979669, 16293041589642941780, 9975069610392864084, 1088801882579738168⟩,
  ⟨15441359965645378481, 7022857083512140090, 11162758362666494739, 1108530997049617801⟩,
  ⟨0, 0, 0, 0⟩,
  ⟨10632745392742701465, 7191381972905833266, 10576427669223334706, 1037506184958051122⟩,
  ⟨7989155441247042094, 18276457113184108543, 17999817914616464103, 943187440870955565⟩,
  ⟨18204910156218979669, 16293041589642941780, 9975069610392864084, 1088801882579738168⟩,
  ⟨15441359965645378481, 7022857083512140090, 11162758362666494739, 1108530997049617801⟩,
  ⟨7802104352665277001, 1712233803072817444, 12180777293186749586, 1125441666595228915⟩,
  ⟨0, 0, 0, 0⟩,
  ⟨7989155441247042094, 18276457113184108543, 17999817914616464103, 943187440870955565⟩,
  ⟨18204910156218979669, 16293041589642941780, 9975069610392864084, 1088801882579738168⟩,
  ⟨15441359965645378481, 7022857083512140090, 11162758362666494739, 1108530997049617801⟩,
  ⟨7802104352665277001, 1712233803072817444, 12180777293186749586, 1125441666595228915⟩,
  ⟨7330330845985706257, 6947957132670498679, 9373711551562393463, 1140097580201425214⟩,
  ⟨0, 0, 0, 0⟩,
  ⟨18204910156218979669, 16293041589642941780, 9975069610392864084, 1088801882579738168⟩,
  ⟨15441359965645378481, 7022857083512140090, 11162758362666494739, 1108530997049617801⟩,
  ⟨7802104352665277001, 1712233803072817444, 12180777293186749586, 1125441666595228915⟩,
  ⟨7330330845985706257, 6947957132670498679, 9373711551562393463, 1140097580201425214⟩,
  ⟨0, 0, 0, 1152921504606846976⟩]

/-- `M_doubleprime`, poseidon377/src/params/rate_5.rs:2007-2124 -/
def rate5_mDoublePrime : List Limbs := [
  ⟨17237574486256691881, 7678231653376502440, 12981859904545217192, 832323394471302938⟩,
  ⟨14878706952858838161, 15410104227655356999, 17393275270132988194, 905602962502284432⟩,
  ⟨17721242321237835775, 11985636621509722110, 11478464757469040638, 960562638525520553⟩,
  ⟨17640631015407645126, 17416650484724036037, 14803487960933328666, 554882262980868625⟩,
  ⟨10632745392742701465, 7191381972905833266, 10576427669223334706, 1037506184958051122⟩,
  ⟨7989155441247042094, 18276457113184108543, 17999817914616464103, 943187440870955565⟩,
  ⟨15152119682022281684, 2079168917784381610, 8548836536267236340, 524962922610130041⟩,
  ⟨9015221291577245683, 8239323489949974514, 1646089257421115374, 958099254763297437⟩,
  ⟨0, 0, 0, 0⟩,
  ⟨0, 0, 0, 0⟩,
  ⟨0, 0, 0, 0⟩,
  ⟨0, 0, 0, 0⟩,
  ⟨16770218796354446865, 6164915921600418774, 18434642018604219177, 984431242893424161⟩,
  ⟨0, 0, 0, 0⟩,
  ⟨9015221291577245683, 8239323489949974514, 1646089257421115374, 958099254763297437⟩,
  ⟨0, 0, 0, 0⟩,
  ⟨0, 0, 0, 0⟩,
  ⟨0, 0, 0, 0⟩,
  ⟨12257484635811173124, 3332345693021229804, 9856107590709416500, 1159223252431020322⟩,
  ⟨0, 0, 0, 0⟩,
  ⟨0, 0, 0, 0⟩,
  ⟨9015221291577245683, 8239323489949974514, 1646089257421115374, 958099254763297437⟩,
  ⟨0, 0, 0, 0⟩,
  ⟨0, 0, 0, 0⟩,
  ⟨9979132349322887614, 3961848182433907151, 8799570660063224410, 475862931364908156⟩,
  ⟨0, 0, 0, 0⟩,
  ⟨0, 0, 0, 0⟩,
  ⟨0, 0, 0, 0⟩,
  ⟨9015221291577245683, 8239323489949974514, 1646089257421115374, 958099254763297437⟩,
  ⟨0, 0, 0, 0⟩,
  ⟨3872788615927669352, 15152509537124089722, 5205890896288656861, 1231307161030894178⟩,
  ⟨0, 0, 0, 0⟩,
  ⟨0, 0, 0, 0⟩,
  ⟨0, 0, 0, 0⟩,
  ⟨0, 0, 0, 0⟩,
  ⟨9015221291577245683, 8239323489949974514, 1646089257421115374, 958099254763297437⟩]

/-- `M_inverse`, poseidon377/src/params/rate_5.rs:2125-2342 -/
def rate5_mInverse : List Limbs := [
  ⟨9423078532813425529, 2444734831186772378, 13312700987643289865, 1248785285043953466⟩,
  ⟨17268489821349265988, 4381498102126941915, 18059594369778317098, 58369093700071757⟩,
  ⟨4554828072642644132, 1444610657142044086, 17449887890871798968, 1155580816162940184⟩,
  ⟨14700875084405105752, 9239241115023183874, 7789802599827561984, 594039389414401309⟩,
  ⟨17369961549732213951, 17978420689641993214, 5737613384797227392, 899750828627372416⟩,
  ⟨11810971497921864966, 13993073307646756902, 8362406159543098387, 1156913604397747244⟩,
  ⟨17268489821349265988, 4381498102126941915, 18059594369778317098, 58369093700071757⟩,
  ⟨11035226460624215086, 14239859242862966780, 1132467188784037199, 834550800812545516⟩,
  ⟨16880054357686407084, 4825991163227954043, 6215044494445833070, 1088315875473995942⟩,
  ⟨18168083839917324524, 16478236068428869610, 13105126087642640896, 34766978023081808⟩,
  ⟨17825669542785881313, 12421462367159336603, 2878814310510077253, 503620314193006332⟩,
  ⟨8217239731080607569, 6429369295863013371, 9835418190294938624, 157201591859370779⟩,
  ⟨4554828072642644132, 1444610657142044086, 17449887890871798968, 1155580816162940184⟩,
  ⟨16880054357686407084, 4825991163227954043, 6215044494445833070, 1088315875473995942⟩,
  ⟨11485023460188927874, 2485551665474920570, 6640923664201453737, 128700539913813365⟩,
  ⟨8823818330539404675, 14326485851202631671, 17961953298539513959, 284442003114632699⟩,
  ⟨9085308543112959065, 2317720835922103388, 3188272186429413269, 623518145967541728⟩,
  ⟨1228919753536764212, 8001001063597501895, 1883429940342590902, 229754754018256412⟩,
  ⟨14700875084405105752, 9239241115023183874, 7789802599827561984, 594039389414401309⟩,
  ⟨18168083839917324524, 16478236068428869610, 13105126087642640896, 34766978023081808⟩,
  ⟨8823818330539404675, 14326485851202631671, 17961953298539513959, 284442003114632699⟩,
  ⟨9493025027446580308, 5326008844078412686, 17968627192349153669, 636747921187750929⟩,
  ⟨4719209488067015380, 3286149619947952216, 5381059733444658429, 751991172029274729⟩,
  ⟨671599285952310028, 4063985053036137885, 9646938041918321080, 299288710064420029⟩,
  ⟨17369961549732213951, 17978420689641993214, 5737613384797227392, 899750828627372416⟩,
  ⟨17825669542785881313, 12421462367159336603, 2878814310510077253, 503620314193006332⟩,
  ⟨9085308543112959065, 2317720835922103388, 3188272186429413269, 623518145967541728⟩,
  ⟨4719209488067015380, 3286149619947952216, 5381059733444658429, 751991172029274729⟩,
  ⟨6563574222345881967, 1281874181852671859, 11466642440831414650, 443077589787383810⟩,
  ⟨2252784982698758221, 17647697801612484629, 3564381744461717162, 1112500262860291153⟩,
  ⟨11810971497921864966, 13993073307646756902, 8362406159543098387, 1156913604397747244⟩,
  ⟨8217239731080607569, 6429369295863013371, 9835418190294938624, 157201591859370779⟩,
  ⟨1228919753536764212, 8001001063597501895, 1883429940342590902, 229754754018256412⟩,
  ⟨671599285952310028, 4063985053036137885, 9646938041918321080, 299288710064420029⟩,
  ⟨2252784982698758221, 17647697801612484629, 3564381744461717162, 1112500262860291153⟩,
  ⟨14444310640393871747, 7159616422470945171, 4259499542152695501, 338890106485999353⟩]

/-- `M_hat_inverse`, poseidon377/src/params/rate_5.rs:2343-2494 -/
def rate5_mHatInverse : List Limbs := [
  ⟨13904863849479527760, 2515041799497956331, 1093602514364610087, 950491498045111042⟩,
  ⟨2579295949243395069, 12030978017499995826, 12080587065043491505, 38868424124071283⟩,
  ⟨15092547513410891885, 17256115361070971171, 15459413513070879524, 321960420545902323⟩,
  ⟨2229704028309941057, 12072197468400244658, 10950994247046669419, 1297185510317020994⟩,
  ⟨12038262541350864619, 6432253836569655322, 13293017510951151922, 464458410353108600⟩,
  ⟨2579295949243395069, 12030978017499995826, 12080587065043491505, 38868424124071283⟩,
  ⟨10576000036529335161, 13879266532014962184, 16888595672184660747, 1185164108096765058⟩,
  ⟨1279444508565403937, 6039704410083424768, 14409182292770989236, 1032663778275682773⟩,
  ⟨10494653767401929635, 7151674624434035414, 113618062021286492, 734991999940840872⟩,
  ⟨3733906304148166273, 17683287484600659811, 14933709177852827861, 1249090649945868590⟩,
  ⟨15092547513410891885, 17256115361070971171, 15459413513070879524, 321960420545902323⟩,
  ⟨1279444508565403937, 6039704410083424768, 14409182292770989236, 1032663778275682773⟩,
  ⟨17854942931053508049, 12379835822212862963, 7917418649695695574, 818127752736513102⟩,
  ⟨16713139695953442230, 14827246597006708747, 6565710292947236351, 279636205695659750⟩,
  ⟨6021453437997963755, 2434637845477546326, 15808901861436069769, 656837851837718215⟩,
  ⟨2229704028309941057, 12072197468400244658, 10950994247046669419, 1297185510317020994⟩,
  ⟨10494653767401929635, 7151674624434035414, 113618062021286492, 734991999940840872⟩,
  ⟨16713139695953442230, 14827246597006708747, 6565710292947236351, 279636205695659750⟩,
  ⟨1817061708622591813, 7842241796668241324, 11705700881511613623, 124703629193508345⟩,
  ⟨7645141843637222694, 11261613033476609866, 684978708883533390, 1180658499202360863⟩,
  ⟨12038262541350864619, 6432253836569655322, 13293017510951151922, 464458410353108600⟩,
  ⟨3733906304148166273, 17683287484600659811, 14933709177852827861, 1249090649945868590⟩,
  ⟨6021453437997963755, 2434637845477546326, 15808901861436069769, 656837851837718215⟩,
  ⟨7645141843637222694, 11261613033476609866, 684978708883533390, 1180658499202360863⟩,
  ⟨6471109714169199028, 651257754441033744, 967849492968733845, 881634047292451586⟩]

/-- `M_00`, poseidon377/src/params/rate_5.rs:2495-2500 -/
def rate5_m00 : Limbs := ⟨17237574486256691881, 7678231653376502440, 12981859904545217192, 832323394471302938⟩

/-- `M_i`, poseidon377/src/params/rate_5.rs:2501-2668 -/
def rate5_mI : List Limbs := [
  ⟨9015221291577245683, 8239323489949974514, 1646089257421115374, 958099254763297437⟩,
  ⟨0, 0, 0, 0⟩,
  ⟨0, 0, 0, 0⟩,
  ⟨0, 0, 0, 0⟩,
  ⟨0, 0, 0, 0⟩,
  ⟨0, 0, 0, 0⟩,
  ⟨0, 0, 0, 0⟩,
  ⟨525395534966640354, 4649108525155679700, 5611566907608735139, 1157162242601075454⟩,
  ⟨4270514995051619857, 9080682450539254193, 11764444330152623833, 1296452142209921646⟩,
  ⟨13085423902825236141, 4106908764311471538, 2111632228314415714, 345239388869093745⟩,
  ⟨4739016182142013260, 12433567496673952941, 16956579312525014509, 596646251662680532⟩,
  ⟨15744576121486695479, 10597769634158624533, 14136093497735719287, 512698864094506675⟩,
  ⟨0, 0, 0, 0⟩,
  ⟨4270514995051619857, 9080682450539254193, 11764444330152623833, 1296452142209921646⟩,
  ⟨14428417055342911695, 8272271618979314579, 5027159236098050530, 724167566789085063⟩,
  ⟨3709734358196874918, 11929487831132379323, 16830563350788980501, 398518023243913541⟩,
  ⟨899835313390383283, 10922138075185035991, 10399061813978257330, 1225969452739805970⟩,
  ⟨6368857132124103246, 3738999983005063047, 6786228693787372954, 743414762217018339⟩,
  ⟨0, 0, 0, 0⟩,
  ⟨13085423902825236141, 4106908764311471538, 2111632228314415714, 345239388869093745⟩,
  ⟨3709734358196874918, 11929487831132379323, 16830563350788980501, 398518023243913541⟩,
  ⟨9860604545813959634, 6023137071889763432, 18357541439838773826, 267782511194587624⟩,
  ⟨5425553862160636710, 10155674884481011840, 8882505056945541629, 629430891711291823⟩,
  ⟨5693655221984583188, 5078045342146247458, 8593703977821442979, 40108457599127726⟩,
  ⟨0, 0, 0, 0⟩,
  ⟨4739016182142013260, 12433567496673952941, 16956579312525014509, 596646251662680532⟩,
  ⟨899835313390383283, 10922138075185035991, 10399061813978257330, 1225969452739805970⟩,
  ⟨5425553862160636710, 10155674884481011840, 8882505056945541629, 629430891711291823⟩,
  ⟨1974709593969888668, 3838580677334353595, 4105349786837999128, 16966368926604082⟩,
  ⟨16299857180872679507, 9990704222165585528, 17839066130443287287, 1300929190020977365⟩,
  ⟨0, 0, 0, 0⟩,
  ⟨15744576121486695479, 10597769634158624533, 14136093497735719287, 512698864094506675⟩,
  ⟨6368857132124103246, 3738999983005063047, 6786228693787372954, 743414762217018339⟩,
  ⟨5693655221984583188, 5078045342146247458, 8593703977821442979, 40108457599127726⟩,
  ⟨16299857180872679507, 9990704222165585528, 17839066130443287287, 1300929190020977365⟩,
  ⟨14268832143359565128, 14009303067203234749, 1311318265344615584, 224271541899878138⟩]

/-- `v_collection`, poseidon377/src/params/rate_5.rs:2669-3662 -/
def rate5_vCollection : List (List Limbs) := [
  [⟨14878706952858838161, 15410104227655356999, 17393275270132988194, 905602962502284432⟩, ⟨17721242321237835775, 11985636621509722110, 11478464757469040638, 960562638525520553⟩, ⟨17640631015407645126, 17416650484724036037, 14803487960933328666, 554882262980868625⟩, ⟨10632745392742701465, 7191381972905833266, 10576427669223334706, 1037506184958051122⟩, ⟨7989155441247042094, 18276457113184108543, 17999817914616464103, 943187440870955565⟩],
  [⟨15846042622821125949, 5578170090212244723, 14386484975980635087, 1162081450610719662⟩, ⟨9425713365442649542, 17724400577059603932, 10835235343511845981, 1179696731387397906⟩, ⟨15470398571621834328, 8748455436620348445, 11923882037413103894, 147851229490754041⟩, ⟨3205030528550848740, 11233883805951482885, 4631904539047675327, 85240573307222008⟩, ⟨4306955861584430579, 2866573513612242948, 5009794262667624955, 295301720036234004⟩],
  [⟨7251188616661835801, 8810908530742177026, 5438752491170217053, 624809552915168399⟩, ⟨8041373032028091555, 15486500451885216694, 2640515848525906572, 1101280997644118799⟩, ⟨1028894706146998760, 13234395603487812099, 310927904286248029, 1284009513603315703⟩, ⟨15907405187752122338, 7460014754810790101, 3112115084952575259, 1176166567473148345⟩, ⟨6667915961879815626, 11892868641826580977, 17153671363694122316, 1080025318281387536⟩],
  [⟨5168631598983031118, 1709031240629846937, 12176717122174422876, 1133547231698905845⟩, ⟨6505284181050366169, 6621303409684149204, 14721846886395529985, 756463071795143691⟩, ⟨10252599865552606113, 8719458131520431579, 4094128546015477610, 154229004185959046⟩, ⟨5962216050578461567, 1852471921743211935, 14625008624739847061, 402573870144144998⟩, ⟨2504232889257023710, 6382931252528192024, 946087668070181732, 39444081019304469⟩],
  [⟨8935875040282017923, 9359087371918622751, 4377160640113921337, 438001764693096006⟩, ⟨5964768355342862060, 12844248228508214834, 217390320027003427, 519739213235621144⟩, ⟨13476869152223212245, 14360104411032897136, 16239873007321200914, 3853403215029221⟩, ⟨14270258435530476850, 16224741710497622821, 15034723833298150364, 1105854585395665472⟩, ⟨3034628514738856022, 14677362698363483188, 10612467457981582049, 621317746892157952⟩],
  [⟨12356435149313176789, 14997081370594107955, 2318538420922195008, 27051273329381197⟩, ⟨14179669150985422172, 1587784931571575237, 15544226047094276906, 265503486564006544⟩, ⟨15848703335457516734, 12988350955449684774, 10747751923255963574, 192884410298894891⟩, ⟨13283753749608228542, 15731192032524989112, 10134977648663526427, 1011453356572734072⟩, ⟨8372393423324448788, 2642634076467295974, 2238857053734841195, 713995311234362151⟩],
  [⟨6650896784315049976, 8618299026172959087, 4613782712309215097, 1194575414958458214⟩, ⟨8401059625843059611, 9360504521211886317, 9752588986385800578, 35467022242567223⟩, ⟨14549311442558804272, 14851474988790195550, 17243272363514665510, 556891460284998050⟩, ⟨8839260009215695166, 5332337195891362342, 10215113273837828390, 53276328504747705⟩, ⟨4743214023748331668, 16150812970442549102, 3607008032772749996, 71636842460588166⟩],
  [⟨7745993606763106157, 400962028791523193, 14448679365436054364, 127361796442057001⟩, ⟨4881557665307853374, 16503843953516371036, 2631138906021440407, 1145135568670602972⟩, ⟨3748730199472583624, 1701168955512052480, 1204298795241125154, 919171892692993894⟩, ⟨16293341788272558865, 17325870627390234246, 16387125646971798797, 1009137174300676172⟩, ⟨2499133372428019558, 15739123510404573354, 10677356306660504584, 958976143899963938⟩],
  [⟨14252792066102246657, 15864171804698265189, 11911247415967054910, 961487415285183784⟩, ⟨9957038734178160162, 250039500043978770, 375263104710602935, 35544998893003180⟩, ⟨831877114936420076, 2002790044227393828, 11129740988708533905, 746550053534881799⟩, ⟨4734226494958051881, 18003010652169239318, 16569731595317548852, 109984045623665701⟩, ⟨10630025490758573206, 12380598183142825838, 1493124485160554052, 492990263362994025⟩],
  [⟨9005167414234319760, 16535434979210366835, 5819620234707341946, 602158252276980823⟩, ⟨9119416898454972043, 8049431789793640151, 13607373929564011639, 761938773322253558⟩, ⟨11646529739221266743, 15631506041020749904, 7526925524884509569, 797718489067789891⟩, ⟨14242496370333104920, 8841581893310155090, 1684451748824201839, 293704403017488420⟩, ⟨12068414265588270249, 7748413288237551533, 18041956849707733339, 1127727052880210045⟩],
  [⟨16896144613183838177, 12574347096617734902, 8321293894060275613, 1181815496381441993⟩, ⟨11490675786236053006, 9698599818026366787, 5948732065795477184, 425414085344036431⟩, ⟨13535638352040032845, 11010719926202516879, 10750188616385991719, 450767332534563092⟩, ⟨3178227411283526947, 463456667345831080, 14382176159228633426, 829036438269219798⟩, ⟨15205960183032177355, 12047942859395994973, 5508647109209154207, 409271998288939244⟩],
  [⟨5842441710461865655, 14354544144458273887, 16159087842820577493, 1102018593492537867⟩, ⟨10259604216221740521, 2737735964532783652, 1934594841398453131, 915029026536998488⟩, ⟨5389086520584317977, 2729523047482171967, 12492070423980987131, 339278797072716184⟩, ⟨11961359983369405646, 8872285219479794351, 11590963834161858363, 847871031745582321⟩, ⟨15708428924964800383, 9689329403735339585, 876235638671718277, 1293191834696859659⟩],
  [⟨10926323662882715805, 6357617649943251603, 3882295273855196975, 302265041875854273⟩, ⟨11884492353389440282, 10865891220420186719, 1506391581950765997, 1273730401079532625⟩, ⟨6062018478948078733, 2238300480159412589, 4475922925472998435, 427700151782713553⟩, ⟨14998626184060509521, 8084520935552429366, 16157620168154649636, 936139145933018848⟩, ⟨5424440642649697210, 11030005216981850100, 3736937858414725236, 353926131228082038⟩],
  [⟨6991010538111487096, 3208699080691172022, 15674148293257243198, 528616403431683993⟩, ⟨5895680427204256637, 15308092775755115835, 5725537177674079322, 624044939296156178⟩, ⟨15682781481863573356, 12524037328552645708, 13137829315048512550, 453866324724543378⟩, ⟨5999454803832491786, 11757829240759186672, 16786792833686808980, 1008783050525293123⟩, ⟨4965854579231858650, 4470286827276633884, 18255756957602409470, 1257925856629374202⟩],
  [⟨6756792567489648436, 9174065877200954316, 14588982300344994878, 495558322589948188⟩, ⟨16407708660026263913, 17259087838077364390, 13625416430514248811, 207969270690764399⟩, ⟨11870501170821012713, 18047340589874750756, 93512878936056238, 478288405689674144⟩, ⟨873793291822892867, 17836937206243952238, 5128543094009831337, 132104142075103351⟩, ⟨930043501771119768, 15613823438280495150, 6464828430156696004, 359908580296612711⟩],
  [⟨18438521383060368690, 14476395006954860191, 3425945854098388541, 944003065485357481⟩, ⟨3311768994809575814, 10503690422660653146, 10526674813249312919, 864802385440313737⟩, ⟨8810438360452481727, 12680118392135545157, 13641246557527810849, 1252645481585559515⟩, ⟨14299022666252422420, 14841944407301251201, 15136912555606442873, 856379827147710042⟩, ⟨2062956481566651544, 12093197892291904316, 11631702561466346010, 144441024184915083⟩],
  [⟨7993143086113878189, 3624434478267440806, 13278019726447600986, 654136378501676754⟩, ⟨7992479798903963387, 7895372341947686019, 4334209577850630153, 1180883581857163505⟩, ⟨3027910113375733204, 4485846847893599917, 15294205594975595333, 100423190749786506⟩, ⟨4120333963287836783, 11671291525241561103, 9901986613770683621, 651573815597675240⟩, ⟨11428233072419105889, 2944089198827741952, 5214300364587140869, 1189260788971714219⟩],
  [⟨4551784723657471230, 11207660824801473415, 13918603200560666189, 909618049825337324⟩, ⟨2675501742361862254, 5250455330270200426, 12586684907650118989, 1330284139416672144⟩, ⟨12040165191610290428, 16503275216221829144, 5260280485839874467, 1227840433161545716⟩, ⟨7679795588389348013, 15191087003013740641, 15555116922073130768, 344262909715092301⟩, ⟨6169211658344078831, 531166906056818046, 1322277761354587680, 210108348638141620⟩],
  [⟨2248963634255452368, 15563761402233708045, 3393738612726595863, 270037018221350140⟩, ⟨11601309892240246141, 3638465656527027416, 1395756619190043331, 138813074475309167⟩, ⟨5291125713635089368, 14819398438069773983, 13114950161797142217, 25590678184791818⟩, ⟨5534877013314393609, 1759072288627502628, 16181954987325767733, 134682133959402637⟩, ⟨4161482061465148858, 16683675972158421075, 3099920947049254669, 957124783703318342⟩],
  [⟨4510595409768553239, 4974517727576987266, 15978837518179150731, 335342136683204977⟩, ⟨6636059739397131000, 9640261418262971507, 18005427333200225259, 755356145676404050⟩, ⟨15131021729179035121, 3322699383837917438, 16694361960801514505, 921109580640113983⟩, ⟨7634123202466598220, 810298720516221902, 840599007384281843, 656905365051140366⟩, ⟨11303104649441347181, 12152859936809161042, 8157805368560172079, 226879006121087093⟩],
  [⟨4222768071479979923, 6221868890067618237, 6706788302094795072, 470857396285528184⟩, ⟨837480829798517493, 2139750872442256742, 5213024737969853757, 586284678362031355⟩, ⟨18413923626929455705, 12351565965899756217, 17706788027426014962, 396824563157594134⟩, ⟨11865172518676463006, 15009302994533156097, 16026973397263722566, 1243693536982901909⟩, ⟨7252462303444002809, 9549080656602382200, 6400682688095758738, 206059245034621582⟩],
  [⟨8375555895564253468, 7925422648691473256, 16821885625729885556, 985921094928817309⟩, ⟨2046299323863281369, 13882781361146929705, 15448488877161513887, 490830679341871217⟩, ⟨7429671875567937801, 10229990955659579326, 17998819479213658262, 468703275856634003⟩, ⟨935091299463462187, 8817490257427535584, 4201099561438792936, 308509415209580254⟩, ⟨15175273292104113428, 15547411926550064745, 18326735472470278187, 46288025765161350⟩],
  [⟨2376775726955536549, 7198072882321834778, 5820986721223000167, 1305597767879405697⟩, ⟨11562318758115257029, 422264710018175990, 4674708296176782956, 321605471576378125⟩, ⟨14422446717346283559, 4522943560525804925, 12524200552641302343, 992174839589322314⟩, ⟨2660063348396745477, 3046452749899310106, 12556614243413712855, 292167348848223777⟩, ⟨6669133378666467376, 16135058416591179983, 5627772722389914612, 379140231019033687⟩],
  [⟨5810827329069058342, 9466338503926448033, 13219994636736965707, 1133919653888422832⟩, ⟨11390689618371396272, 9685029449622007826, 13242820419679967997, 1063349475949275121⟩, ⟨17763514783930037833, 4809121417820211582, 2875494172038972593, 296043141357624455⟩, ⟨11611692421411999894, 15220040608516358932, 282037844166434278, 281687965959955676⟩, ⟨4438433961554370400, 12877811549841781756, 15741991214229698793, 280844842261162310⟩],
  [⟨17169851287016280826, 10822471821114911500, 1491721488328495957, 216887165418048275⟩, ⟨10994016828848236257, 13445735015422423625, 5018165562796963731, 602535974428869013⟩, ⟨15126102334199024880, 12867057351876414370, 11159159194149946143, 115881007342718723⟩, ⟨2794226167942571109, 1548538606305510804, 18291849409425428450, 1340198361306759329⟩, ⟨4267162633414624824, 10477712998553375282, 6267269603855607198, 982787929756500753⟩],
  [⟨17381305832731585223, 9268492096935184370, 5234949576450927455, 21981840360160805⟩, ⟨4087927870940191769, 13753414599816622073, 13058329164603291227, 834131236566284313⟩, ⟨2546006251271733188, 17600491598884247746, 14062949050289708021, 821447001112770449⟩, ⟨11557892681183640983, 3553808879521780009, 5828391499760976335, 706816644254127358⟩, ⟨87239843232890664, 15700472350663595467, 174519885711847558, 1123281110015984026⟩],
  [⟨2827103361153395332, 9771223936028754360, 17019668270000185744, 250846897334218988⟩, ⟨5119814427033781946, 2081312228775851068, 14150656259150135415, 412824983197785589⟩, ⟨8649749569221526485, 520969763542437761, 18397072919079815484, 473314797287595707⟩, ⟨8194315404853463748, 15060811055660635178, 11318868018104656047, 759678196288305769⟩, ⟨10987085614436524099, 8214999842286961244, 5709575456336614864, 1056310210546073817⟩],
  [⟨6532789592575228069, 3265438887018026818, 17111525378271668948, 1320499686924692082⟩, ⟨2197318288869911886, 307033351054159068, 14033422988641489555, 689909787061505964⟩, ⟨3507717375223769090, 10033023697975699121, 15321810854570355253, 890016110699860569⟩, ⟨6897743854949081968, 10158161465287387801, 9179072886178700686, 620001185095628667⟩, ⟨17448998618237282714, 2553852017375909, 1793419264718581373, 725044591608116521⟩],
  [⟨16012268534560097932, 13416075297285506301, 16493211465851903420, 1091948493998105984⟩, ⟨14392369108156989804, 10617956576365144165, 11809714324716728769, 1188444181516740870⟩, ⟨15466384892561009653, 10941962222512674624, 1913904384440848129, 606922266921522145⟩, ⟨14584618083984398210, 14186299915288736440, 17757535025721844034, 1063945284694781692⟩, ⟨6792570643359499560, 4535097730077924957, 12073011546773881134, 1137378726981169881⟩],
  [⟨15102847980540220978, 5520326730982346297, 2698729817022762322, 1194738055539544118⟩, ⟨6147044654176302920, 2364057582092333147, 11540841437940787480, 556063025467036658⟩, ⟨1647311829762859720, 13415217341886740242, 16485335404491864284, 491439704095662519⟩, ⟨12141727361360860468, 9821467392353266448, 11166495178510190210, 245664677516946430⟩, ⟨5360382176507266601, 768193387830048410, 3996566068451735831, 795512106745688059⟩],
  [⟨2189128173409064762, 11499748369225599949, 13499847782281945694, 1340871250773004273⟩, ⟨1159278411248794850, 6701355601329876701, 10476550252580870928, 490304301636428667⟩, ⟨4466317563581149355, 15128213745330326318, 5257941398512314848, 1111650855813054172⟩, ⟨8839577424282800883, 7949855030699078116, 2996553645008704135, 85398623640375889⟩, ⟨9514362250339879637, 13706294199150347872, 11853022932563321890, 818790762833572114⟩]]

/-- `w_hat_collection`, poseidon377/src/params/rate_5.rs:3663-4657 -/
def rate5_wHatCollection : List (List Limbs) := [
  [⟨15152119682022281684, 2079168917784381610, 8548836536267236340, 524962922610130041⟩, ⟨16770218796354446865, 6164915921600418774, 18434642018604219177, 984431242893424161⟩, ⟨12257484635811173124, 3332345693021229804, 9856107590709416500, 1159223252431020322⟩, ⟨9979132349322887614, 3961848182433907151, 8799570660063224410, 475862931364908156⟩, ⟨3872788615927669352, 15152509537124089722, 5205890896288656861, 1231307161030894178⟩],
  [⟨311271084272320082, 5284197557048869863, 14669222562574339674, 571307699885408030⟩, ⟨11625781241601592791, 14885568706820662540, 17941376171308792723, 783918507477975660⟩, ⟨226868460330872644, 12734244079593541616, 10451890082278586850, 32508669310149618⟩, ⟨6020187144675607048, 11405887127978088053, 4712122969940341979, 1080334010198437810⟩, ⟨5933505187504807441, 3473057270652036730, 6105009132686901569, 114203646444743763⟩],
  [⟨1120856672192884245, 16247214934320106390, 15323677081999960076, 62404200512763570⟩, ⟨8831161875549232238, 6077491870312206017, 14081883006003626391, 1154651324772984368⟩, ⟨5661890842653089732, 13320534556163866242, 9035321631852285107, 903630770886300483⟩, ⟨15889657237181390432, 15162271575679238159, 1491114731026258819, 287846816690944321⟩, ⟨7238626723934307483, 13278275328632196610, 8627741857269318907, 925711656222055996⟩],
  [⟨16274331391150039806, 1623594389399151027, 11932333738554132870, 706372249166702105⟩, ⟨732452989467352943, 1044771601653765712, 7295501005775861284, 241383337916425122⟩, ⟨1055111559926828336, 436063422223614235, 8237830476387497674, 486023893828905207⟩, ⟨11846198484218265818, 8058524634853844099, 813566309310159764, 1342803580678902586⟩, ⟨13415802809644488728, 14511002260322793565, 4157389022600774011, 262652662563663469⟩],
  [⟨6280812441180517055, 6148355053508262675, 10298538567830482124, 549753875811636329⟩, ⟨824304312279887084, 5198474444698315745, 4090895165493551175, 1217302205153655151⟩, ⟨4735542953263469139, 612014805877448122, 12832372076520494984, 750953222849642269⟩, ⟨147828622890240493, 128044761765714597, 12093927754417303852, 132385902652165260⟩, ⟨18171144465445367562, 4015656370081309510, 15930285771575041073, 1269412572744267545⟩],
  [⟨14398639038380864956, 6619595958723804843, 12719064233121758133, 406442443563323199⟩, ⟨10762946454330918789, 5528361687335835568, 3991418360765486778, 286492429663333048⟩, ⟨11742168906901241463, 15503883602330266637, 15831515237753512854, 1044066191448484616⟩, ⟨10525155675978585492, 4670730111394235591, 5961373269656674720, 95271963105126236⟩, ⟨584627878861922239, 7921433855087631798, 7615313333543717641, 1109592926172816575⟩],
  [⟨15091688909514107804, 654570390524891199, 16494576826680457410, 30762953858016498⟩, ⟨2761325807027693284, 11935489432137753301, 3489012309486987802, 239715377721177782⟩, ⟨10454593178969047515, 1040128098662881642, 5632035830401774632, 554859180328868399⟩, ⟨5107303737176549426, 15727856129637397988, 6051568784602114728, 873492972237083876⟩, ⟨12130743148391729861, 11271998017451462639, 10929122930592304172, 194097991947183661⟩],
  [⟨14867630937298531794, 9612402140924249048, 15791934086459495277, 701876161263964392⟩, ⟨4800492369986485195, 837798357520426667, 11678651630838500929, 1197393486814847593⟩, ⟨7361531118817265902, 10654842008121782114, 11329661993953094409, 53031172666072441⟩, ⟨13678736880795169285, 11579896750305940195, 16427828830934341434, 373548996986898141⟩, ⟨3113965972245214273, 3618222426215928202, 14280489027814430075, 1227439762891391632⟩],
  [⟨1519481477607620457, 10318567135550122014, 263846661207466096, 640929643224454153⟩, ⟨14263939264430200097, 8800960240049783032, 10525864428412568060, 1229598433830944803⟩, ⟨4737100860592755646, 3405741585209394827, 3774719897330733186, 1001424607855656625⟩, ⟨4527327887926361650, 5195716198788998780, 2452454045651672598, 1114842100489228591⟩, ⟨12639481132070877116, 6184431555458882642, 13833172896014011365, 138391625804209902⟩],
  [⟨3025469591916962139, 1116358649574420645, 10697299179333984962, 1100828152488463516⟩, ⟨17596104129549385707, 117028884523868090, 6843789980420923220, 394144012237385792⟩, ⟨76569421022187354, 7618174529699040891, 14258607882742494097, 325795777168928125⟩, ⟨9488688453300333348, 6023458951346117124, 8882873536266522192, 1011335963622574163⟩, ⟨10273078691683312131, 14951774310795138631, 5056574235010407582, 216683108447003755⟩],
  [⟨16270690847183812253, 8396384187123364284, 15973135291934403644, 337754294626036574⟩, ⟨11537970389959600601, 15344885270945805038, 16062179622496264928, 634770789960495300⟩, ⟨16629897675960611498, 9857864935176241914, 16649516829790580187, 879077994781187974⟩, ⟨15757760830891963153, 1980968732617718233, 363417887657441819, 1245373320221094018⟩, ⟨1369140419065411691, 114665172743829173, 16025067317418460214, 772519184136728441⟩],
  [⟨5166287970903668709, 13178607088194812953, 13394943015525495010, 1136891698590635716⟩, ⟨6786739958142009449, 3712291089779086337, 11114170296176591543, 412243655343207746⟩, ⟨2483986099773441215, 6355297372287593359, 12546131765129037338, 850333435641268865⟩, ⟨4129060137994461513, 15810046888600142778, 14959377549727103485, 983509352989716443⟩, ⟨5375190994774345144, 6642323264045992752, 697489999924152538, 711658337986264203⟩],
  [⟨10789013922038705474, 15907427163103262467, 6211828439721814286, 821662973636748389⟩, ⟨1245892911222176515, 1760690499003421411, 7411938278280460519, 996198333836410116⟩, ⟨14902739397227121611, 9677074799597948924, 16338232095647494428, 107475751267019502⟩, ⟨14751552868296217802, 10957219946410361892, 2609386566023075942, 795435587890350748⟩, ⟨14228026094996696402, 2826584103258174948, 1310186622837843420, 912856498151667865⟩],
  [⟨632309018718566470, 8852208976226519541, 5569100181556353071, 984010564169166433⟩, ⟨6992820576439012611, 9698447268226822027, 17633082455161111009, 90244636707781414⟩, ⟨6543679712083684758, 10736979596575357883, 4698076992795071575, 1270787674212113⟩, ⟨16044338327666607926, 3960206126744122590, 4858706793602461066, 561666947698425720⟩, ⟨3368306314740365965, 9177942911310203166, 18367144956945019416, 653903203015259414⟩],
  [⟨12874723854177830125, 5100681384941725656, 9285950066462290781, 858148062800653733⟩, ⟨4768366185853611631, 14842169834008972704, 16645218449281418514, 817503519482950628⟩, ⟨3007496102230569523, 11399958112043651698, 15787521760129406401, 826416774444573023⟩, ⟨10890936042157055266, 8565215756042961896, 1054057862367192487, 202049359204983814⟩, ⟨2425581217694278079, 12792279644970276082, 4689036727185422224, 1064336763331781201⟩],
  [⟨2764179143636297935, 18061233587720561716, 12411254568157467507, 427402914001475058⟩, ⟨2924816478430507635, 9786303437156946185, 13021435082088378496, 78702703698317598⟩, ⟨8200525868229314140, 16881303073057711951, 4187547714670888467, 455617381392152389⟩, ⟨8310666736636434815, 16453325372394262716, 13511049246920939341, 416209098687774975⟩, ⟨7508636928089493550, 1778929466519171040, 9865075252470321631, 222439820478088778⟩],
  [⟨26427962923262805, 13400472629512916744, 3808805306352074297, 128699596583089680⟩, ⟨18283636998376248321, 5779768391741799708, 8993926161412908836, 272788598277303242⟩, ⟨385260822800957491, 7888556288710245505, 12785711973091118063, 1290081227789032623⟩, ⟨7370461305656006315, 8097104282146432375, 3693139275053762963, 1200841519361465892⟩, ⟨12067130442173286908, 2170379854767453652, 13201336336736961495, 927175852053928205⟩],
  [⟨11214687023235424600, 5560314158648804455, 17670625093449035024, 1242366510949799159⟩, ⟨8409895882379798325, 14471144258274119497, 5245528502428581668, 869805265859067382⟩, ⟨2802161834127193832, 181192611793840022, 1581405763136818654, 674326086636803499⟩, ⟨5748156006252401196, 9530968273316544473, 1373075747037319701, 478917773953068122⟩, ⟨10550634859635316442, 11115297058518078301, 15167740297739703393, 499663014055796942⟩],
  [⟨8737679817842057617, 14335003891544767889, 5806471893265243804, 1199697546794663346⟩, ⟨18312746592170672376, 2468171777169034619, 11588707770047473860, 1167607620745843361⟩, ⟨8991056605371192176, 9683166706953599777, 3207279773035228554, 1036594322405142084⟩, ⟨10715958137830220707, 13790797151438523296, 3814352367403212083, 338399526865285980⟩, ⟨7602766395993095249, 15421116878917379598, 9842919232591540089, 811441858348229638⟩],
  [⟨11240616276279859335, 18168970638218441074, 12681307963217316671, 529653072592394540⟩, ⟨15804354330800222400, 2664362506755913571, 15220567525462081033, 415854075276634564⟩, ⟨6499893156022247982, 5370094427775939872, 12693314181999023046, 334522766633278821⟩, ⟨2043116979793859192, 5901796972056645976, 14393765505679755827, 861233648011975692⟩, ⟨15324644517910983402, 7402962800234459251, 15501703598689014650, 866765414305968533⟩],
  [⟨12865534582606617484, 5710240921655628764, 10047828149580190691, 1035217630777023330⟩, ⟨7623115266181592594, 15654093656542240609, 17584343833694408578, 965948623120670646⟩, ⟨12322860754126106334, 5704375241169042821, 5005598195199710337, 599456016816833315⟩, ⟨3114048235662948861, 3186724356925890101, 12603030351469960653, 784880135590304822⟩, ⟨10542157016978853051, 375232718281833036, 8419637174785911645, 480073460241875582⟩],
  [⟨4619753066505217513, 16240034683968173295, 101722798642334078, 1093802332804170111⟩, ⟨11772483107625265757, 10206667679119141509, 18114554164862022458, 1023031741792146569⟩, ⟨13246284581489263787, 14406389897239052674, 3455768173607702603, 1053480392953200960⟩, ⟨6494604848840235336, 6851286908738110852, 6952092093989720037, 528933354597117664⟩, ⟨625815039158913101, 3482039923172880345, 11185655673758240856, 30871173764135737⟩],
  [⟨11116836871987577766, 8109541581819717708, 14249648100460872066, 228964235140475035⟩, ⟨10850735048215572309, 4250918544830268539, 1159262399998108531, 597017478561992605⟩, ⟨2429928267440692097, 1037103561750764536, 14249565405637869240, 238948313464233222⟩, ⟨15908449453336200948, 14778706528145004443, 1518131124404071948, 342204757203960757⟩, ⟨10343358798246302148, 4716916005406799178, 1280891908040278925, 33904180033936995⟩],
  [⟨13657049778223062917, 16159025960783232211, 4256662595768243763, 769690080070442279⟩, ⟨8630441296206546010, 15101393911422801574, 15765903519913875666, 1059019903719527397⟩, ⟨17353580961907941474, 11690315434040365887, 1919970450761622105, 1284644920565762622⟩, ⟨9142190750578974954, 7982580406830591641, 139105874244767315, 1037725609814647069⟩, ⟨8274397077677504305, 7550323696121525646, 13342176390347462405, 495524022793746412⟩],
  [⟨1300654639607007076, 5418426225271078814, 17799220415649590999, 578082611305900028⟩, ⟨15087651230680029653, 14061399273111500513, 13990992483413246139, 217274859442961675⟩, ⟨17409038465662970942, 16739652419107899003, 1728243859263530675, 1005030425295937500⟩, ⟨9881137796190779983, 3738513419678193257, 6908712468714119492, 128170763609761066⟩, ⟨5980808904168005021, 6535637039411031048, 4353709569732736105, 985581940426054692⟩],
  [⟨9266459364560412147, 1675941305082716910, 2644496138354097667, 593111726451400001⟩, ⟨11923296558184512186, 14335481794247232343, 1756296816003311831, 1337227067587852298⟩, ⟨15213177739061556154, 5962926969279075759, 9583168463456919751, 1345102811307691605⟩, ⟨7236531265332214668, 11730813784468030291, 3260041626130793112, 413423911331686730⟩, ⟨9992377390528540244, 10251294356867851146, 15408569698061863503, 686801780474850525⟩],
  [⟨12551312954021730815, 8771782951882110027, 8266520452918776358, 585025591233977219⟩, ⟨5063400267728024015, 14290329839247601111, 12614604995283750144, 230714106990743170⟩, ⟨14919127087277880180, 1233913841901824423, 2945855199399696462, 1124234888120832064⟩, ⟨6630767633426865082, 4134529385803270273, 547558622173751939, 1276870556955963960⟩, ⟨6194800795402001302, 7453146289235044346, 1846631670011345424, 373216392925072559⟩],
  [⟨8530038482194296425, 1186609470593087346, 1550686771111894200, 918591303091561115⟩, ⟨5499603817197150545, 6278523764748797546, 9492893478468221078, 76690422627606484⟩, ⟨7172281043633854180, 9586248386574401986, 4695159959373826247, 291013948190359675⟩, ⟨1958470378825944596, 13429774428855320394, 14915732503423284573, 675396101420063305⟩, ⟨11013259379518244436, 12321083210650373617, 18169826561711333453, 1123565689252234229⟩],
  [⟨8538081673660833158, 9406736474943528419, 1248182586638760682, 566915522520784434⟩, ⟨871762597826126451, 16952899443646083570, 9760070688515351533, 1153171851787119216⟩, ⟨17099176922694092192, 828730151529195508, 4040300595746784683, 896316263468400176⟩, ⟨17895859754552623107, 12372008340476127191, 15869904838348331177, 775743200601290861⟩, ⟨7009270681870686791, 2613922803678169165, 14616132396476908383, 1266967860663970985⟩],
  [⟨2842431186863606520, 5016515943888671695, 1025755096788745830, 118497541762157376⟩, ⟨15651700296535015112, 8569612184315077364, 15451942282818992185, 541946385718467129⟩, ⟨17425453868458867672, 13259317954798539165, 14653762240483553886, 1289545541558928924⟩, ⟨10182995923953810379, 1555053058248744878, 14233166151877877681, 1314025239224831524⟩, ⟨5382307905322995124, 14222432758856306145, 3195810595195159237, 932323741878209391⟩],
  [⟨4093215837977364819, 1786552664558589683, 15811959916460894504, 1122605521342489905⟩, ⟨6757580137997166235, 13857613907011413182, 729793288849614944, 140426125151203814⟩, ⟨18248567113979980306, 15307246736403175565, 7970334653691291978, 817641900996362744⟩, ⟨13209637935471398448, 10485350831767594057, 18120173774880047238, 981942705210324429⟩, ⟨13041861333642835240, 17156211741149643971, 4775992643478887474, 160471371624793379⟩]]

/-- `optimized_arc`, poseidon377/src/params/rate_5.rs:4658-5315 -/
def rate5_optimizedArc : List Limbs := [
  ⟨11114527869315019992, 204777424233041404, 11091912519069240090, 121969426625488706⟩,
  ⟨11602548353808217299, 6197238791893869094, 15622579320964543388, 1298930792120594487⟩,
  ⟨838896996119702820, 9307552859605174720, 8035142733069793771, 274230695041989171⟩,
  ⟨3026923182969617970, 17802669379857452552, 12317599963821296502, 1025681681724348483⟩,
  ⟨5608950751956253759, 13524340746668180438, 15318090696011006995, 777019565914500344⟩,
  ⟨1158035626778037273, 17664260243497899213, 16296355254226759288, 950557495952381678⟩,
  ⟨11235491782021601934, 3148198093287396523, 17540068057551648414, 246938399961631601⟩,
  ⟨17389082769676787279, 4715116371725704005, 680633748837086801, 1023507596971258305⟩,
  ⟨7398967334233665984, 13695483063991186800, 18171031240540141567, 1071188377250033509⟩,
  ⟨8901013324099486427, 14221538804433703579, 421845258270117661, 1118364576196477055⟩,
  ⟨3792995620986947754, 8295286409031689804, 7023787899825757992, 899023674461718667⟩,
  ⟨8793784762096018942, 15222981485936247095, 17829285903963587033, 104381350073974926⟩,
  ⟨11268502072074030331, 4494658873172678747, 10565307326465463378, 784696444351308107⟩,
  ⟨13330824150800116849, 4890131204868069348, 16795432331983276560, 678123243378284364⟩,
  ⟨16154775053781645033, 5239747136963640569, 16611876759537507645, 759623577554638126⟩,
  ⟨8392188723943358220, 16791142993973140668, 13297749232586734563, 426701908934618073⟩,
  ⟨17606532937509352288, 2853753027669231277, 1878611917293492305, 643977045852461225⟩,
  ⟨5784332265294899224, 10677876800438676900, 18301919197560353192, 1242300655560067148⟩,
  ⟨11412543805884713089, 4404535555399600518, 4605611364617586616, 706261397170793623⟩,
  ⟨2724614443579353257, 12190950292326203757, 12944786940879400957, 90707148364678769⟩,
  ⟨16664686769040599810, 7492639236725157146, 1787480043672337070, 1043615315016757716⟩,
  ⟨4392261116480034202, 16508253691140740970, 1257682754845069496, 1301148167322522764⟩,
  ⟨139213556258184346, 16303671450556136664, 10342805884525342231, 508792166529776861⟩,
  ⟨14643711485787161846, 5395142180975966192, 12467589421402803020, 144762579288366866⟩,
  ⟨15255437222491521014, 14721462158275437977, 2057221655333534074, 1325734657361576891⟩,
  ⟨15414140179948612967, 18192784700743189854, 9643806020156298087, 376775047158942797⟩,
  ⟨18092841461306760003, 2807423972236024481, 7922348787325395480, 1212285078601209657⟩,
  ⟨16708900869096362927, 2122564142804905834, 13890195487457233383, 126050338062319781⟩,
  ⟨13016765056631510317, 775825654612492872, 1519488323304929971, 511775234197862995⟩,
  ⟨10798249763854349440, 8782377489797979147, 12405352952342825868, 1275110544094341666⟩,
  ⟨9330052657446344303, 4964707063063280466, 2747936433058978798, 1286324345607159919⟩,
  ⟨0, 0, 0, 0⟩,
  ⟨0, 0, 0, 0⟩,
  ⟨0, 0, 0, 0⟩,
  ⟨0, 0, 0, 0⟩,
  ⟨0, 0, 0, 0⟩,
  ⟨13438421980365571751, 13764047089799136418, 6549510980996449235, 89638406717638204⟩,
  ⟨0, 0, 0, 0⟩,
  ⟨0, 0, 0, 0⟩,
  ⟨0, 0, 0, 0⟩,
  ⟨0, 0, 0, 0⟩,
  ⟨0, 0, 0, 0⟩,
  ⟨3120082900215749818, 2506463968951363665, 5751682941173719701, 1183280915899386044⟩,
  ⟨0, 0, 0, 0⟩,
  ⟨0, 0, 0, 0⟩,
  ⟨0, 0, 0, 0⟩,
  ⟨0, 0, 0, 0⟩,
  ⟨0, 0, 0, 0⟩,
  ⟨3889637240168755614, 14778096222179630956, 16885419836575361353, 250222614360102585⟩,
  ⟨0, 0, 0, 0⟩,
  ⟨0, 0, 0, 0⟩,
  ⟨0, 0, 0, 0⟩,
  ⟨0, 0, 0, 0⟩,
  ⟨0, 0, 0, 0⟩,
  ⟨8994135098656528858, 6054905993385110489, 15955209030417792186, 417192650490068388⟩,
  ⟨0, 0, 0, 0⟩,
  ⟨0, 0, 0, 0⟩,
  ⟨0, 0, 0, 0⟩,
  ⟨0, 0, 0, 0⟩,
  ⟨0, 0, 0, 0⟩,
  ⟨10542836021159102202, 3922552091508743640, 15499449205954987041, 257248375734524697⟩,
  ⟨0, 0, 0, 0⟩,
  ⟨0, 0, 0, 0⟩,
  ⟨0, 0, 0, 0⟩,
  ⟨0, 0, 0, 0⟩,
  ⟨0, 0, 0, 0⟩,
  ⟨18307747395340188800, 7047747805490525925, 11242708609504355532, 793276497114397997⟩,
  ⟨0, 0, 0, 0⟩,
  ⟨0, 0, 0, 0⟩,
  ⟨0, 0, 0, 0⟩,
  ⟨0, 0, 0, 0⟩,
  ⟨0, 0, 0, 0⟩,
  ⟨16022663073357324949, 3551519053939817423, 3374093457075448733, 95641413276534082⟩,
  ⟨0, 0, 0, 0⟩,
  ⟨0, 0, 0, 0⟩,
  ⟨0, 0, 0, 0⟩,
  ⟨0, 0, 0, 0⟩,
  ⟨0, 0, 0, 0⟩,
  ⟨16611512242802281767, 13417278867724672960, 12339427782843337847, 1029453794287724677⟩,
  ⟨0, 0, 0, 0⟩,
  ⟨0, 0, 0, 0⟩,
  ⟨0, 0, 0, 0⟩,
  ⟨0, 0, 0, 0⟩,
  ⟨0, 0, 0, 0⟩,
  ⟨9587606159882976610, 13065183120609796571, 5134588985846741978, 1052742636206989263⟩,
  ⟨0, 0, 0, 0⟩,
  ⟨0, 0, 0, 0⟩,
  ⟨0, 0, 0, 0⟩,
  ⟨0, 0, 0, 0⟩,
  ⟨0, 0, 0, 0⟩,
  ⟨5120379400595969817, 4824276514479560160, 15209383162223813538, 98360897446496767⟩,
  ⟨0, 0, 0, 0⟩,
  ⟨0, 0, 0, 0⟩,
  ⟨0, 0, 0, 0⟩,
  ⟨0, 0, 0, 0⟩,
  ⟨0, 0, 0, 0⟩,
  ⟨7633930096380799602, 2831233200869503763, 6933925156133583675, 45431990866667491⟩,
  ⟨0, 0, 0, 0⟩,
  ⟨0, 0, 0, 0⟩,
  ⟨0, 0, 0, 0⟩,
  ⟨0, 0, 0, 0⟩,
  ⟨0, 0, 0, 0⟩,
  ⟨4063032547170944262, 2228607997293084806, 376103209766462421, 748529159788109811⟩,
  ⟨0, 0, 0, 0⟩,
  ⟨0, 0, 0, 0⟩,
  ⟨0, 0, 0, 0⟩,
  ⟨0, 0, 0, 0⟩,
  ⟨0, 0, 0, 0⟩,
  ⟨8393715434195231445, 15247401046663606451, 1655959932549342287, 101776028083387641⟩,
  ⟨0, 0, 0, 0⟩,
  ⟨0, 0, 0, 0⟩,
  ⟨0, 0, 0, 0⟩,
  ⟨0, 0, 0, 0⟩,
  ⟨0, 0, 0, 0⟩,
  ⟨15008767674909606325, 531227893384812653, 7210523396658562084, 437386864972028358⟩,
  ⟨0, 0, 0, 0⟩,
  ⟨0, 0, 0, 0⟩,
  ⟨0, 0, 0, 0⟩,
  ⟨0, 0, 0, 0⟩,
  ⟨0, 0, 0, 0⟩,
  ⟨16809071159722694272, 6830450328296125348, 6475300827542698627, 399257887526004612⟩,
  ⟨0, 0, 0, 0⟩,
  ⟨0, 0, 0, 0⟩,
  ⟨0, 0, 0, 0⟩,
  ⟨0, 0, 0, 0⟩,
  ⟨0, 0, 0, 0⟩,
  ⟨82825596177761974, 11317217432462243029, 6642795994570466536, 54497338514902862⟩,
  ⟨0, 0, 0, 0⟩,
  ⟨0, 0, 0, 0⟩,
  ⟨0, 0, 0, 0⟩,
  ⟨0, 0, 0, 0⟩,
  ⟨0, 0, 0, 0⟩,
  ⟨6850975607505382161, 14495312419830721473, 12467132244094124841, 869971081325966252⟩,
  ⟨0, 0, 0, 0⟩,
  ⟨0, 0, 0, 0⟩,
  ⟨0, 0, 0, 0⟩,
  ⟨0, 0, 0, 0⟩,
  ⟨0, 0, 0, 0⟩,
  ⟨6776972065809629900, 14404993916899429083, 14745271791343793348, 1281731922471929435⟩,
  ⟨0, 0, 0, 0⟩,
  ⟨0, 0, 0, 0⟩,
  ⟨0, 0, 0, 0⟩,
  ⟨0, 0, 0, 0⟩,
  ⟨0, 0, 0, 0⟩,
  ⟨12167414230777830458, 3579196606687723355, 14118801611883897825, 1188804452360844569⟩,
  ⟨0, 0, 0, 0⟩,
  ⟨0, 0, 0, 0⟩,
  ⟨0, 0, 0, 0⟩,
  ⟨0, 0, 0, 0⟩,
  ⟨0, 0, 0, 0⟩,
  ⟨7553145712183260477, 18113523762458916439, 13422344310762339471, 121199852036910351⟩,
  ⟨0, 0, 0, 0⟩,
  ⟨0, 0, 0, 0⟩,
  ⟨0, 0, 0, 0⟩,
  ⟨0, 0, 0, 0⟩,
  ⟨0, 0, 0, 0⟩,
  ⟨6210598847695513673, 10694250862598493782, 1063552736172580723, 859901328112942851⟩,
  ⟨0, 0, 0, 0⟩,
  ⟨0, 0, 0, 0⟩,
  ⟨0, 0, 0, 0⟩,
  ⟨0, 0, 0, 0⟩,
  ⟨0, 0, 0, 0⟩,
  ⟨10747937872207229763, 13786226828072394952, 274364464850991752, 1218823234058712778⟩,
  ⟨0, 0, 0, 0⟩,
  ⟨0, 0, 0, 0⟩,
  ⟨0, 0, 0, 0⟩,
  ⟨0, 0, 0, 0⟩,
  ⟨0, 0, 0, 0⟩,
  ⟨2520693279910212484, 15286253593138229505, 9531050394238581262, 329181833527084527⟩,
  ⟨0, 0, 0, 0⟩,
  ⟨0, 0, 0, 0⟩,
  ⟨0, 0, 0, 0⟩,
  ⟨0, 0, 0, 0⟩,
  ⟨0, 0, 0, 0⟩,
  ⟨3226526077625644436, 2588404341480318661, 9070433711166827508, 1188235207132643549⟩,
  ⟨0, 0, 0, 0⟩,
  ⟨0, 0, 0, 0⟩,
  ⟨0, 0, 0, 0⟩,
  ⟨0, 0, 0, 0⟩,
  ⟨0, 0, 0, 0⟩,
  ⟨16703563760445846403, 8620998770380437284, 8858436416497897390, 1102236124390324251⟩,
  ⟨0, 0, 0, 0⟩,
  ⟨0, 0, 0, 0⟩,
  ⟨0, 0, 0, 0⟩,
  ⟨0, 0, 0, 0⟩,
  ⟨0, 0, 0, 0⟩,
  ⟨5630089007465765576, 6410026402258852609, 17160884434802874754, 420357023452589124⟩,
  ⟨0, 0, 0, 0⟩,
  ⟨0, 0, 0, 0⟩,
  ⟨0, 0, 0, 0⟩,
  ⟨0, 0, 0, 0⟩,
  ⟨0, 0, 0, 0⟩,
  ⟨12644008863026136496, 11315917635237722843, 12364361333201119848, 946242401908845264⟩,
  ⟨0, 0, 0, 0⟩,
  ⟨0, 0, 0, 0⟩,
  ⟨0, 0, 0, 0⟩,
  ⟨0, 0, 0, 0⟩,
  ⟨0, 0, 0, 0⟩,
  ⟨9089855529735912751, 11711947227707110137, 12189800517249432550, 1037376283079163315⟩,
  ⟨0, 0, 0, 0⟩,
  ⟨0, 0, 0, 0⟩,
  ⟨0, 0, 0, 0⟩,
  ⟨0, 0, 0, 0⟩,
  ⟨0, 0, 0, 0⟩,
  ⟨2642673912191614581, 8420261709120249882, 7567649328018501241, 1090882039889692225⟩,
  ⟨0, 0, 0, 0⟩,
  ⟨0, 0, 0, 0⟩,
  ⟨0, 0, 0, 0⟩,
  ⟨0, 0, 0, 0⟩,
  ⟨0, 0, 0, 0⟩,
  ⟨624108744920628033, 7222337173749652537, 6177234009439253836, 1305879330650409183⟩,
  ⟨4047186108818890838, 8293278676301284463, 45421248765572143, 11849077013826147⟩,
  ⟨13734838437817111564, 14067107962177066014, 6283538344938866018, 943068615468766850⟩,
  ⟨9459753653362225504, 13412221550119657532, 11719554885145159458, 1038210702444171410⟩,
  ⟨17258590752825572441, 4422385439615665045, 10963985232294213328, 673097344483052623⟩,
  ⟨4350910935437581306, 17071656780821887075, 17526744607642225290, 489524084357985818⟩,
  ⟨8703107470067448452, 734592437454660319, 6370216058631913860, 984849913832896286⟩,
  ⟨15847437253128917127, 13204151715277535095, 13151742340803361913, 492775982398767260⟩,
  ⟨13378140148769271177, 11023068523390522139, 1729259508144916727, 998491139322015796⟩,
  ⟨15868115462640964898, 5808184910810487816, 17891106563868657547, 1273423536878729280⟩,
  ⟨17498572932499506726, 4915375148198704347, 16526318329827242193, 172885368041045335⟩,
  ⟨12175858961476635194, 8395097384299796850, 16561947957716644135, 118811035529307344⟩,
  ⟨1364632949773972783, 5616500288305274826, 2744828291285230257, 1337220218752536168⟩,
  ⟨7125704632582034340, 2413935880315792634, 16253134495760827214, 1013353907442898755⟩,
  ⟨9926413936648370716, 9286244748248440505, 5620697470790885637, 1050126432920929832⟩,
  ⟨2286190222160729638, 1205027650655862007, 284571302335235840, 754838472987631454⟩,
  ⟨18032942241472576701, 12877723516371231014, 5304401947346162660, 638292803799023432⟩,
  ⟨1301734909908791963, 3999021096443686109, 8224194566860360743, 975889756225576945⟩,
  ⟨13137758236377688944, 15164889622744579310, 9510882901247182860, 507443416341514201⟩,
  ⟨7442629497476523514, 15402336932582436695, 12267702252685663951, 406181490859224216⟩,
  ⟨3020913173034234370, 7615906519537783167, 14373843007930618441, 268952515824125262⟩,
  ⟨8510711668693637739, 16478737597936355688, 4962621450185609628, 274948738817040348⟩,
  ⟨175794307933344111, 2355200265651483892, 17868773626579092521, 52492857067069690⟩,
  ⟨13918504549178190575, 13563258972352289042, 5310731325887509548, 465559440844068311⟩]

/-- The literal tables of `rate_5()`, poseidon377/src/params/rate_5.rs -/
def rate5Raw : RawTables :=
  { arc := rate5_arc, mds := rate5_mds, mHat := rate5_mHat, v := rate5_v, w := rate5_w, mPrime := rate5_mPrime, mDoublePrime := rate5_mDoublePrime, mInverse := rate5_mInverse, mHatInverse := rate5_mHatInverse, m00 := rate5_m00, mI := rate5_mI, vCollection := rate5_vCollection, wHatCollection := rate5_wHatCollection, optimizedArc := rate5_optimizedArc }

theorem rate5Raw_wf : rate5Raw.wf 6 = true := by decide +kernel

/-- `rate_5()`, i.e. `RATE_5_PARAMS` (poseidon377/src/lib.rs) -/
def rate5Params : Params Fq 6 5 36 25 39 6 234 31 := rate5Raw.toParams rate5Raw_wf

end Poseidon
