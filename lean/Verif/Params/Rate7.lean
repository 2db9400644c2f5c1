import Verif.Model.Tables

/-! Generated by tools/gen_params.py from poseidon377/src/params/rate_7.rs; do not edit. -/

namespace Poseidon

/-- `arc`, poseidon377/src/params/rate_7.rs:11-1884 -/
def rate7_arc : List Limbs := [
  ⟨17670646277747935280, 16706444459999957760, 7654997937391160943, 659194013361630234⟩,
  ⟨9306410324956668761, 11918867663968452855, 16159669320449336406, 1027263653273380654⟩,
  ⟨10424544810878645940, 11533042162917906716, 11405431418950019185, 1181592306684207657⟩,
  ⟨15511314950168773025, 2706584092620486610, 12589344906057924987, 198949415522711747⟩,
  ⟨6463242934034011456, 4480775049700236083, 1147244402884869561, 251099301522684222⟩,
  ⟨6076653156556680739, 6058362204127962922, 2609006430585927072, 1274277644859784421⟩,
  ⟨4034147285618545471, 16309046946281719379, 11732506942908882170, 1141734761043516350⟩,
  ⟨15181402120606708665, 769117698742393942, 8000709366545785093, 128042919054960870⟩,
  ⟨1723632755773767909, 7425611528820224114, 3846361608213771012, 1317157014229771878⟩,
  ⟨1180004570926588292, 9835115993104089813, 255514544102365106, 370024046994873563⟩,
  ⟨16507101987459533719, 15603514395660572922, 14849362947260167652, 1094669615299361663⟩,
  ⟨1641419564627940104, 1734977130266781622, 2359844858057393580, 88569664018692634⟩,
  ⟨16267328831985402574, 4504129177123355587, 2430336937000039615, 182724946762968945⟩,
  ⟨17793535158928999608, 5634031392654154747, 10364337635238532583, 1179994829791766723⟩,
  ⟨145700301814233551, 7743364595931833861, 13600389751414362190, 60896176710147956⟩,
  ⟨17934232373820563709, 6533845630243602776, 15324676632824344806, 193078344538210235⟩,
  ⟨3358859423299088468, 11840854300859333122, 8971776175135254558, 1017237487419914281⟩,
  ⟨16328481477177681368, 1582997519876787207, 5731557971602616313, 498420306800783215⟩,
  ⟨12526989383108933614, 11731194362815364383, 12171285115754354694, 1149426086446852474⟩,
  ⟨809732533742229508, 9195963923014534752, 11886583635578374853, 1292532069463172705⟩,
  ⟨15459398930996981001, 17972537529111616674, 6256384561719931081, 1099908904421687269⟩,
  ⟨6194631511262826563, 5980361634035332899, 6132585703186883039, 1343152289862207638⟩,
  ⟨13704532277655419198, 9493963458736770267, 12653804519172949169, 218428805830292650⟩,
  ⟨8013496787819495990, 18081394694809078101, 14689354188530395484, 215594972753885108⟩,
  ⟨1765918642197202432, 14609627278749496598, 17838479232731490790, 483435431183692300⟩,
  ⟨16887594024800193480, 1328476430727273505, 17409984215868190656, 1068059229250495642⟩,
  ⟨15487315671093445122, 4028755842123792652, 14118515559434131307, 600004660835889583⟩,
  ⟨13620558349664282044, 9072735252525972202, 312787852320488038, 47231029883010665⟩,
  ⟨9895950479699930991, 1320083262020086701, 9381389112858508819, 928504768072893822⟩,
  ⟨10747871248019763953, 4479404654791651748, 11550770912037988700, 438216942461032792⟩,
  ⟨18385142532667962947, 12272398000439779637, 7461987138462771945, 558726769125714997⟩,
  ⟨14139485618053732983, 8348792317702713313, 367233286875102863, 186067690854023043⟩,
  ⟨9041249832633195933, 456527929350696070, 3136123267563166118, 862425036609816636⟩,
  ⟨9876321727332632023, 772451632218152169, 2580763841740601079, 1142028710995573927⟩,
  ⟨10533796008132988682, 170935373731786369, 14423133339980810247, 95055508444762275⟩,
  ⟨4649364153559136229, 7934671244579715116, 1725602943667409585, 43552745816587563⟩,
  ⟨8961999013353095080, 2142418418315880644, 4123910506434734507, 397827113331247074⟩,
  ⟨2830645454593024582, 16129482998540180384, 14637878185709838570, 838139034347032562⟩,
  ⟨12946263415316598300, 14878150584739579253, 16849157713730765625, 1119287030817500036⟩,
  ⟨15997726492611173881, 1184045769764515709, 17570821640390521168, 1030525166811213785⟩,
  ⟨4265559081433102256, 11769099699992876903, 10631998596214553362, 629920260964559213⟩,
  ⟨5157337023141684195, 9558723136849813533, 17067637485396248185, 1292601583198374157⟩,
  ⟨11353399385134117629, 2171806967430036166, 13097746482717663094, 586742781877852644⟩,
  ⟨1069667428899547423, 10788650400324959681, 5252327185070245031, 819088289991387988⟩,
  ⟨4718192935689796196, 936436242961860243, 3017815728777383941, 780298204568547665⟩,
  ⟨4440526970403334531, 4424298208172375576, 10234579833526167822, 505023592953711511⟩,
  ⟨4918322558939638760, 9690520639912900881, 5542814067313497246, 380973540266134644⟩,
  ⟨9286878702031291355, 4012311069843170007, 618344267270697646, 472052248696324346⟩,
  ⟨5515965792241216655, 12550695208348294011, 659754676577929048, 656440060717186789⟩,
  ⟨8831501139794786744, 7594112778983174926, 8104526671183916999, 495730236370502114⟩,
  ⟨17540013351656383980, 526615498448493498, 1434949581303472569, 432295170184586654⟩,
  ⟨16852826829533863229, 16646101864172251902, 17632936959873614814, 109658534507710529⟩,
  ⟨10636456498263271254, 15109124910717906315, 11668474560270048234, 1296049032043861262⟩,
  ⟨12825075668663632434, 5819798153387583193, 4880455503263027836, 801173774991292287⟩,
  ⟨14486651003108579603, 2482031833299980317, 11187840813488772056, 509321777815437929⟩,
  ⟨8118974380261220505, 16461246043293688641, 13082662763745388975, 1038588716762883494⟩,
  ⟨5731200332460900228, 8786620433378472829, 13932094144651464518, 488785602167183804⟩,
  ⟨10524031539917302527, 10788579146719387781, 2127880595616407095, 1059950077979303833⟩,
  ⟨5949937211870070822, 4596156438811326001, 16863220530278231284, 1206526762260473240⟩,
  ⟨8254843496528701475, 16430360916832531565, 7205448801338782124, 446338536784822815⟩,
  ⟨289840651692288450, 17201836854477413895, 13970461968236180401, 1087853954070862964⟩,
  ⟨580513008010762079, 829478851231913782, 10526131895320013439, 288889415938637383⟩,
  ⟨9443502181797148323, 7700433399763019139, 6523170715391691579, 690320529397890241⟩,
  ⟨17385565262285073596, 5652729129833809825, 5754846028854174174, 644301327458204078⟩,
  ⟨10591125214113881524, 9225725266018596826, 9355747915664481308, 776410040105357079⟩,
  ⟨9691894789652129853, 14667119801492707274, 4616580392236285481, 911862737929211265⟩,
  ⟨5328612994946451300, 11901467171940119902, 12066779857870668281, 563430691473174027⟩,
  ⟨5440290565189005724, 907133565222704805, 17434239031512456810, 1307317854813232623⟩,
  ⟨1968218328054856894, 2870644718005301826, 11704111566790320318, 859557807871195562⟩,
  ⟨9665243622030788996, 3894043111862548693, 8651495608452602974, 196890012228714384⟩,
  ⟨1811318098116764117, 13655150694370398684, 6815946900059011917, 290581066009768770⟩,
  ⟨5291662797603414486, 9976505778352937130, 18094101094996988099, 1244544548315716916⟩,
  ⟨9550922411414470754, 2559237915370255061, 4289970449795683516, 700825515431345401⟩,
  ⟨2966982422777393142, 3218865522692669697, 18384778728203892883, 1101167759984396250⟩,
  ⟨2248950665261207727, 17785118295943931326, 17515375671127827105, 271356461720641826⟩,
  ⟨2914870987885463507, 10687584786677185088, 9928447420467895555, 897829002169041990⟩,
  ⟨9461028554882623448, 3241431013683194658, 4200859715375860214, 247909540912074667⟩,
  ⟨9484762440333250094, 9154823463484785662, 5077140138132238606, 1217948890232839466⟩,
  ⟨1721708237225335663, 6589142598549247219, 16963982649759394752, 1325370920515859453⟩,
  ⟨1581154353773201694, 8859491775898173368, 3478556371389172479, 761951195116054505⟩,
  ⟨5414431534772354985, 5784939336020461618, 8193906688438115902, 619056837793590578⟩,
  ⟨5158566907177787182, 510437656260968539, 18375886464296814687, 496771913288779260⟩,
  ⟨646494282535877757, 12737151480704198413, 5471421123526354063, 634833038935883700⟩,
  ⟨16181443408673327918, 1926257882480036072, 190463000805340911, 725721205978748339⟩,
  ⟨7167760716023892074, 5428322849307462840, 14114178188915343377, 442277493806724508⟩,
  ⟨9842757490151171477, 12090204626601182995, 4235533359914016519, 235018089373226021⟩,
  ⟨689571657822682190, 10120322490102263749, 15349544629296264734, 879110129942909963⟩,
  ⟨10848673159730542826, 4254896082380917657, 7095278498028251644, 1283578418017245899⟩,
  ⟨11397620827145756612, 12197349421718102268, 667097273385403287, 776832025612247811⟩,
  ⟨9536830619644896323, 4636833749605880653, 12285714887794138165, 1202400709127503383⟩,
  ⟨12430146514789240945, 4526156431412134307, 513622053209881149, 214778917602192418⟩,
  ⟨6167098201419516498, 3154640343084703344, 14434779005902723423, 733632272342828673⟩,
  ⟨18346541912745902187, 17556217100268103816, 14141252440750669936, 569875244889036285⟩,
  ⟨15618469611711155008, 8545147381062171474, 13019086273197685281, 567609712932306745⟩,
  ⟨10102215164832802529, 12690048864743685174, 5165853392556586922, 270489738300122432⟩,
  ⟨11927164480530891201, 14108489374813791633, 13017388607106060581, 850938729783185225⟩,
  ⟨17624557745440616873, 2058796150101806399, 3985511902134676603, 388277619947822053⟩,
  ⟨2514382380191783963, 14675210002114941075, 17998140577033030519, 386023351355332372⟩,
  ⟨10528288814462561256, 8933204649364546390, 14874592129223984742, 399487853473549061⟩,
  ⟨5664751596212948671, 6514969831451331945, 12061422083014489160, 933043664098111606⟩,
  ⟨12225851766128513711, 17952953998987374262, 13430826736801915124, 1339971583679078644⟩,
  ⟨1845651887319106020, 6930431492749731513, 10484176960040080733, 1170790578042537798⟩,
  ⟨6348862923042548556, 1486875087558341712, 4194544242438091841, 78164005256144789⟩,
  ⟨14692463016290478473, 9329360702930196569, 1183214256895952754, 471672221434976115⟩,
  ⟨12425146353419210200, 11291312622557382836, 17924529967710695385, 316781213195510748⟩,
  ⟨18081335327542674793, 17730828508504228247, 15095343772187852738, 496240897850542584⟩,
  ⟨6906018396868182531, 7580743900120262926, 1967444667836204859, 273417108766582414⟩,
  ⟨16469004144906175061, 6719414013547880652, 7667039018964612703, 450462562192687741⟩,
  ⟨3699459642673757801, 8364096682669340023, 10547343127916338322, 1039413061935527341⟩,
  ⟨2771106982987870684, 8573563587841378420, 1206719325810700776, 143426260059118164⟩,
  ⟨4238031571774841747, 10683460310325108305, 10841990503446643706, 1301654934696530594⟩,
  ⟨5203929344429628388, 16885411007452841607, 17902872474369879449, 255936061345264752⟩,
  ⟨16419947603551223738, 15661157019396954707, 3821221238374718246, 416126177086460787⟩,
  ⟨16922553208005265111, 16360160113507055509, 536165461233550481, 608549986932555649⟩,
  ⟨3592206260685120065, 1954831133507660101, 5600597071609130865, 213648140091026624⟩,
  ⟨6516082392033585373, 13946838009919256327, 6452501836291584617, 506431739097044218⟩,
  ⟨5518181572807062513, 292110089321494827, 8886174429861609032, 814625545290394060⟩,
  ⟨12610347423199665749, 17943367344775386000, 17093121972053566454, 556259058966026962⟩,
  ⟨5583294814190562448, 18088402493981602497, 15928392856949829098, 901622636021551608⟩,
  ⟨16249951298748852814, 6111361788233877783, 12919350091432296884, 721226010556420107⟩,
  ⟨2218172102857239703, 2329323851667514953, 6784983166719863241, 993993486987443276⟩,
  ⟨14394544906593037198, 15461851001194987466, 12193473059473668298, 358314776306336360⟩,
  ⟨2603326905829233946, 16916036572436423298, 5790056800663566282, 1283614572025968285⟩,
  ⟨5913046777942823275, 8211910935104269782, 17190335617208567380, 38682663530408751⟩,
  ⟨6279799617741999852, 2368459429864835947, 13817854282822876412, 857599403523844060⟩,
  ⟨13513221728804468015, 11648472211124988287, 16337147311151149281, 1213356362315889859⟩,
  ⟨6735193215800666100, 13415126246050738636, 6546772491702052570, 864959054725113379⟩,
  ⟨13946560916675101048, 1305536234013471373, 1996487601117501987, 6637280482434640⟩,
  ⟨17986217868852303932, 266126649469053928, 4699823734038470617, 1235954369265597233⟩,
  ⟨9706578390759094801, 4557052655228011544, 6501501161504104166, 300118669717388750⟩,
  ⟨17271021878237926614, 16508898608489641541, 2510098231880106517, 1253549827753884905⟩,
  ⟨16081696380667951121, 12546061674505954303, 3027939816911481659, 1326122367352440135⟩,
  ⟨8750820783999769857, 14131264523532409831, 11860451755197446498, 745462829225755593⟩,
  ⟨7819519394598054633, 7533208822188068621, 3889432398222336031, 176964346604581200⟩,
  ⟨13626588278396502750, 15706390030365469804, 12311149232441048374, 610208895283453621⟩,
  ⟨11094868539621714049, 1330865564750703444, 8208579708506329523, 1146297945936422016⟩,
  ⟨7814348133249287361, 6078857359953567878, 15411726589694581351, 1299224180894534955⟩,
  ⟨8835381130778819320, 134779635200388096, 15334224426829348450, 785788572858947262⟩,
  ⟨16203055023538295629, 13066812413033753111, 13966479479457537321, 675899367132765792⟩,
  ⟨8545027219899966991, 6186973227993574577, 3038538378161392821, 535103590192673792⟩,
  ⟨3360320054957481727, 34336684756912399, 3413779266271394009, 764051173981439036⟩,
  ⟨293023250682873552, 7322391841105288851, 198244575944514326, 656738111777844461⟩,
  ⟨18423107368729444354, 5597408372052789576, 7207721424788749840, 943687777186537434⟩,
  ⟨13170086198505174331, 15859783812716989104, 5301807370963313339, 799729083241888205⟩,
  ⟨17279707292509004232, 10595487011792355137, 12602364184919926920, 311754230366163159⟩,
  ⟨8130970296785420178, 2169620052609587269, 1837093242073059498, 276242467334991300⟩,
  ⟨15139243365203952649, 4858541150918282204, 1228673366499097007, 1293322423335373790⟩,
  ⟨15413937563393284083, 365038001085082591, 11386425434875288889, 291771874675930828⟩,
  ⟨3865668766578896210, 14190581838784817460, 2274316418059288551, 870991438678094683⟩,
  ⟨9571157470530489958, 4980823355121973943, 5333320516499456270, 770038796278147152⟩,
  ⟨16981726629451591296, 5326474426552210602, 1524717641929835760, 219842939123356623⟩,
  ⟨16039208901368659229, 5184640515669419530, 3080932410472693273, 510043620105971072⟩,
  ⟨10111763974722315511, 8329709076294929314, 16998679271562967459, 574065224827752177⟩,
  ⟨8462560254681779659, 10954941970268851750, 14488455499782134046, 963141804021766550⟩,
  ⟨8265856446621399759, 16247707484341474163, 12400770599134010433, 771647552338284605⟩,
  ⟨5671942973524499, 18330128788177211715, 4789615159654137053, 622759709526318785⟩,
  ⟨17479950722059179918, 7049818057003906554, 10084589816123170899, 1193808990238611595⟩,
  ⟨896116343457540936, 2638281787069340966, 3380620512921535857, 36644632120836151⟩,
  ⟨2322146546165600970, 271027138366968218, 7162645116150464142, 441026262100973114⟩,
  ⟨11627404673587174924, 1016523621299971825, 8777376750651265173, 904797647346869914⟩,
  ⟨2336599983193427372, 18294536733010623722, 1910254562936909612, 288459876244919538⟩,
  ⟨10866222389981094234, 12754738301243938778, 2023962300189713384, 841827876240589471⟩,
  ⟨12337869057490259818, 9301235609521246009, 16444168617638171143, 1108049112276481315⟩,
  ⟨18388904709130326983, 14432270782760350172, 5671872767281599553, 996264049295637410⟩,
  ⟨2918495984421967960, 15152292474410287951, 16695048790099726675, 206789987868447903⟩,
  ⟨6798036226759712530, 2524547494567206246, 343094056066178021, 1079202981664139204⟩,
  ⟨283923512386736187, 6373209277312452652, 11471152742161283191, 352597911054493754⟩,
  ⟨18344480346791250887, 6055456955702765744, 13357935878541036141, 1170362631105533341⟩,
  ⟨17978397370482672109, 5066451535613649009, 14053101851847429570, 384003300586620459⟩,
  ⟨6537240767762022960, 15287887514003130639, 13714824082467376651, 325998042020099848⟩,
  ⟨4220213521712332659, 17903257264224768614, 14353077305493411978, 1217616808421443849⟩,
  ⟨6303107750424964008, 10553099269256611636, 5652309430855981542, 809187312341384962⟩,
  ⟨1467640326258074734, 9958994673877282208, 948807165231437865, 847979042319462524⟩,
  ⟨14465965197425638820, 1065990778266164589, 2272519010377842609, 171604326652711548⟩,
  ⟨16535399098764373288, 6722849851726415551, 12327525818310696665, 617153762162922214⟩,
  ⟨16271640629055517264, 6432350282845335097, 8618264300933865260, 264879473167088472⟩,
  ⟨9343764438142603568, 4076892716460943411, 4516415268764304436, 15742193002987304⟩,
  ⟨11522515971258098144, 3066993658503053898, 17512877804099724909, 611356418591586870⟩,
  ⟨4963578364552643616, 6202702392079615379, 7168882355307838637, 299344600077925413⟩,
  ⟨14129405866465653759, 354882826696964962, 9660427351909071801, 291149128932052640⟩,
  ⟨6569686896435195187, 1896994952028172314, 2117936942259387423, 1226223740596210813⟩,
  ⟨8136826296150976656, 5114560834461259857, 12698438831882127582, 1064812274674793315⟩,
  ⟨5204762908686848050, 18170247715344035008, 10079839806977450219, 1015117163163578828⟩,
  ⟨1971186989634095352, 5677558375626169162, 3790083583317699341, 158130166070339790⟩,
  ⟨9180297996268451616, 10521870846784715198, 11257197750166742798, 1008680790543022462⟩,
  ⟨15102432377621017232, 824737829862625480, 15733286904587679385, 359217550415334382⟩,
  ⟨4981259850785194804, 15036275071388584091, 17758791361697138722, 236481669158055589⟩,
  ⟨3901233362525026592, 12813965168957277386, 5314390603519503713, 998031094116574634⟩,
  ⟨4078498358432220507, 12075726151602811779, 5342542781210762674, 21775695708843112⟩,
  ⟨13735056988005095110, 9135371967743228564, 6185376342737833602, 666002395605514749⟩,
  ⟨18046228494581227779, 8202114407403963695, 4947702695068466084, 788320793950394154⟩,
  ⟨7218302974216051660, 3228464294576983613, 6671727537595126477, 173754647728010839⟩,
  ⟨7621257321835633802, 8049874917307223403, 9478314901912088133, 870251875807451739⟩,
  ⟨5044996355847148919, 273615366352511195, 4942152417670343549, 199398188932346157⟩,
  ⟨2595093843514271275, 1154391123098543540, 4985894556505531500, 854386142979270925⟩,
  ⟨12759949881257920813, 1010457605698465717, 5217636609151955807, 817084911938507107⟩,
  ⟨5979737281050353100, 3539786440569025402, 14471457140846241143, 907982120351578122⟩,
  ⟨16416626656337038566, 752298127295719085, 866476478245896231, 830777061413161901⟩,
  ⟨17284526810241082338, 13213233959887135278, 2713075662623866960, 1171532591409183723⟩,
  ⟨8064354122312926171, 4789249084747322790, 9919523931750221465, 419197152698850604⟩,
  ⟨16629353489243762868, 11598883503129680580, 278636461422073174, 1203042448092989642⟩,
  ⟨16545356932968522584, 10146757853340947518, 2437689509695855762, 464048598784979390⟩,
  ⟨5331959515776232924, 3487514764868921659, 5860818581382620461, 167831223077979532⟩,
  ⟨2682933818861368295, 7444683236761914337, 2283469126638096803, 272174229926312669⟩,
  ⟨5483054922977937779, 318986619952765070, 4791617305206485237, 1275035358174361434⟩,
  ⟨4586602402683656583, 11875566498302421311, 560651239278356123, 130789238180500900⟩,
  ⟨13475546304629005641, 1809680849885580336, 6148758205685753344, 1015272727127650918⟩,
  ⟨18199016777093209980, 5614538780880978862, 14532750892253808663, 1120673202287670548⟩,
  ⟨7979559541587633926, 1549411440381912045, 13170209322716529702, 561270408065407020⟩,
  ⟨15279595015844449808, 17853680372412830934, 12690878740975697658, 190806245751470341⟩,
  ⟨1933135302920649522, 2329259343686385217, 5986214093116711712, 437917490927487372⟩,
  ⟨12529279623600953551, 4004103524068207361, 17383023741426003338, 13318527301206951⟩,
  ⟨18009701980761163605, 4547817745757475315, 17631087904948254977, 246989508356009632⟩,
  ⟨14234349688403493927, 2241500746438474640, 1648115951043925356, 529436668472805988⟩,
  ⟨14111082894836574658, 4098316701848925924, 3720696502600521690, 977251546365326678⟩,
  ⟨2443616537395128437, 13678987928408466225, 16807254711436855033, 601335544571650468⟩,
  ⟨12969308795370128797, 1532941629572075493, 9106717660115400778, 1089446992863060197⟩,
  ⟨16646776755234291239, 15128084475268734564, 11393204553412007553, 838617701679652479⟩,
  ⟨13260373450845806376, 13305876398081489975, 15328643090518932448, 818860400916977295⟩,
  ⟨17906146044330204615, 17863342707079833111, 13022629852534083638, 1328181038047481506⟩,
  ⟨10820137181908478766, 5520339361329099025, 6461544718626485262, 866252272778375002⟩,
  ⟨14688227483907802311, 2519702212313051686, 8103674382557125023, 689198778502256390⟩,
  ⟨4422411727383004887, 38494189414052956, 7231885838058987299, 306462357471198280⟩,
  ⟨8147364543363235664, 5966406127022341654, 9906078756256022488, 1154653879133001463⟩,
  ⟨17616667317393619629, 8830117592103096180, 10242736408532701810, 367000561528732856⟩,
  ⟨9905329343001728010, 254719974105054165, 11980601159747742583, 1280526116709693810⟩,
  ⟨6868659545386222523, 8844781874090119286, 10793326335526947043, 1292404946512391578⟩,
  ⟨17850102253172036488, 16878929783220491580, 12148612402256632289, 1179496799944407367⟩,
  ⟨6929880085758156619, 4120392668704643628, 11836473204519946866, 28485748677085595⟩,
  ⟨7800178991375085209, 14774867153037785291, 11799747171946617460, 602919953250380891⟩,
  ⟨17054340314101625508, 4698130283999778899, 4742470825260640374, 959009998492737982⟩,
  ⟨2393186109518086396, 6858067904112781658, 250925929886996803, 813730459239750430⟩,
  ⟨2218833032329181388, 552395772797949524, 6530705058787819865, 835936496067889425⟩,
  ⟨3262056243364729906, 11024409760304501943, 1452785405793489479, 142671579891481074⟩,
  ⟨6735174709999307467, 2125505582074675403, 4509781828031030374, 108593715289115480⟩,
  ⟨498171931293929377, 12913268518770675643, 1815201461805994707, 946978086066606985⟩,
  ⟨16200210184230174374, 3713355895827454434, 14718940205181940826, 1064592931466804937⟩,
  ⟨13536929950841620194, 3713133295284324907, 4736815980159531884, 758794941833570859⟩,
  ⟨861407446467585047, 12743454769660930162, 7792877431815389510, 943863054041968511⟩,
  ⟨10460589994003660312, 13699084750678449563, 6912858821101282428, 983481932576822508⟩,
  ⟨6395189001561693172, 909428077299806733, 14034485419172147354, 892696750070934303⟩,
  ⟨16314238556028756835, 12721184065200972840, 4215220052710637306, 969581304771032797⟩,
  ⟨15243970771075793563, 7265733909785546869, 11400286633658577098, 227245542346740687⟩,
  ⟨2661479521314659209, 14172387955084721030, 12674281103636294869, 1085804564589438497⟩,
  ⟨18227002291515532973, 15774793184931310359, 6437329245046594308, 396285509955206909⟩,
  ⟨6914466148291815333, 4167126971788791314, 4527924238135969746, 1300810520025754908⟩,
  ⟨14395967678844513466, 14422556923576200015, 191387961653560003, 729196198527215531⟩,
  ⟨7196572830394614073, 16632412363674496211, 16792884878696839152, 457278866683205345⟩,
  ⟨9831172453260561658, 4633416154293085629, 748737550195349212, 1194104217944615385⟩,
  ⟨6973573180719962464, 5007888960458011612, 8062128917836753116, 744480032753315017⟩,
  ⟨16633938277270943002, 664463662401382838, 12794755704372974494, 554917201554530927⟩,
  ⟨13757343111051456383, 2277523607348509991, 12211485585154160377, 1191938841499200958⟩,
  ⟨2099651241677249799, 16005931431677972788, 4057176764026877324, 707860945208429696⟩,
  ⟨2165339887464167998, 7647994110899007446, 5094066233657896225, 709010531879165945⟩,
  ⟨3831632088851469384, 13057932256077855788, 8222411545973514625, 843256628060293546⟩,
  ⟨11183603857561726385, 11584937131366886392, 10218687281854749192, 1214449080735682681⟩,
  ⟨4616248479126876226, 7741252456972311173, 15728165050985347386, 1181171544306467254⟩,
  ⟨9990077617045592495, 15002413693275212677, 15144228310702885841, 620548150749293884⟩,
  ⟨11425804337294316958, 7221778875452068210, 12010104440786017368, 1011771244946000970⟩,
  ⟨5747596481169639613, 1104073856460899094, 9146430142057149431, 765525234705139109⟩,
  ⟨3812959281946602235, 14465851686889375345, 10322234575416122404, 932678259808721672⟩,
  ⟨8276661801860095514, 14823492496323764121, 13701004212965117137, 355220593809969742⟩,
  ⟨2822736401887161227, 7201497867288478670, 17622780267628213622, 1209422737251283832⟩,
  ⟨6817376778442520781, 4154445874851092990, 16808416654356258571, 874896460001984569⟩,
  ⟨6944399192847445119, 11369644718917282470, 2667187192361233639, 556544027948695271⟩,
  ⟨5985721645222736084, 16218645614583785224, 4868776535917705543, 340479768034825225⟩,
  ⟨423267142339143725, 10672508482801134053, 10023426192840323691, 143702757733007341⟩,
  ⟨16968412399372724525, 8496071221427589946, 10167242106830249881, 948296106142898645⟩,
  ⟨6077151186983453387, 15293901317827186404, 14701565635632126093, 255295815714470534⟩,
  ⟨2340976401132931162, 15060372762537152076, 53380542410648341, 264784757483154853⟩,
  ⟨18327041937543135548, 9711578301735907982, 14543056172433622210, 917652325595281384⟩,
  ⟨16912960214874381489, 15496697595960727025, 10003663904717205393, 692183641514800495⟩,
  ⟨631791826835558467, 6501686441307729051, 3099396544628491613, 61251147299142612⟩,
  ⟨17691931260195143223, 8098931117406259915, 9971027644422011861, 1136957700009068910⟩,
  ⟨2062604623511907833, 2446845511672682965, 13161140743748372941, 284099378520214643⟩,
  ⟨10652315713215424934, 14813440799481647832, 13466669344664711667, 1176746728204537787⟩,
  ⟨340206030049443520, 12731571821339495677, 14595218864578621848, 861695502136866474⟩,
  ⟨3281942488953589693, 3787812821549520969, 9952331543838149583, 1038372048519458034⟩,
  ⟨18390450269856250573, 10364014773689157664, 17543739276626667853, 671606213095247190⟩,
  ⟨12094846023530852586, 13769932740865047240, 113296399784931588, 214330261285932478⟩,
  ⟨6374588877936433558, 11607665174546753642, 15847675340170713041, 474145143590361300⟩,
  ⟨4088002413776997222, 16030858922743461837, 4313473177343544055, 817302900123673764⟩,
  ⟨18216186189548814543, 5687648301273358200, 6564098766262925833, 235647764529877689⟩,
  ⟨1421650618584051851, 9669410210003093316, 15430467067773365518, 994269415526604309⟩,
  ⟨7574559796775011993, 9643962694113220666, 1013275434882478619, 543427156325963008⟩,
  ⟨4532353768594877907, 2433286855157726742, 15167390808651362948, 914159030044677082⟩,
  ⟨14155199821083030453, 3642619697360819367, 7765405773737076472, 1202115259646869817⟩,
  ⟨16335533268534142579, 4358492749042076660, 16385044626223358243, 847268434257421024⟩,
  ⟨726136436292617217, 4735276118883290434, 6495677390337301519, 1007951275499954400⟩,
  ⟨1441892049918589996, 16125120862288806381, 5244917656153261337, 108755599353706277⟩,
  ⟨9330223445766086137, 9406197553353640417, 13281468059023600014, 500503138812404763⟩,
  ⟨5355456155777194776, 15418542913049291849, 7681885321566295504, 1188094463923126996⟩,
  ⟨11882193142358058793, 4624069509548102427, 6735235437551193554, 962114122876706035⟩,
  ⟨1819083831857771980, 8349663267034291058, 14403983179525206765, 942284040773068417⟩,
  ⟨7024062436534453440, 15203692147142724388, 17082973923084045231, 1191890185052815108⟩,
  ⟨6672719206476059341, 18362672287252020084, 3555226216430454216, 300718449399370145⟩,
  ⟨5828458911011841758, 9271852277477872143, 18378348640149073615, 591074353691784318⟩,
  ⟨15397757499179479361, 1878199828613873660, 4164621900891789384, 558990401377082502⟩,
  ⟨11069496558892348093, 10253211614498485032, 11458203419889384673, 575447664584685933⟩,
  ⟨9808353214047792416, 4805184465312945639, 3985871967202506787, 1229730183276593449⟩,
  ⟨8420435996312062450, 11100705514596499443, 1523101111273631766, 639557004587150270⟩,
  ⟨15630012259368829028, 15079774099427294323, 16765804689810369633, 834886070512612798⟩,
  ⟨2000344807995355152, 8654391083188520616, 13301563010992444431, 490951127405891771⟩,
  ⟨11761875542266860374, 709339183471929228, 17682621289319303167, 570040706396372700⟩,
  ⟨3366481512891059038, 12720609556939839584, 1707138651265172645, 36940608792331559⟩,
  ⟨2427334396528044490, 10170194639028880515, 18243990154741074229, 607502491270396977⟩,
  ⟨6267947100515031640, 14520122887125811439, 6695614471931546770, 251319533602819784⟩,
  ⟨7663026857490478572, 15777701966597798170, 10617198553182548195, 642318201966621785⟩,
  ⟨9959998770754152632, 13119241263216166622, 6328810982306793729, 571460896430554998⟩,
  ⟨12042605027273090048, 14859482580111939906, 11509134713697889199, 561895216440235106⟩,
  ⟨1156916933025613310, 4529329408550568088, 14286907616576238972, 1309540780962817079⟩,
  ⟨7510365353910652337, 14538991928012962248, 4644117500717216624, 1340316749461135700⟩]

/-- `mds`, poseidon377/src/params/rate_7.rs:1885-2238 -/
def rate7_mds : List Limbs := [
  ⟨17721242321237835775, 11985636621509722110, 11478464757469040638, 960562638525520553⟩,
  ⟨17640631015407645126, 17416650484724036037, 14803487960933328666, 554882262980868625⟩,
  ⟨10632745392742701465, 7191381972905833266, 10576427669223334706, 1037506184958051122⟩,
  ⟨7989155441247042094, 18276457113184108543, 17999817914616464103, 943187440870955565⟩,
  ⟨18204910156218979669, 16293041589642941780, 9975069610392864084, 1088801882579738168⟩,
  ⟨15441359965645378481, 7022857083512140090, 11162758362666494739, 1108530997049617801⟩,
  ⟨7802104352665277001, 1712233803072817444, 12180777293186749586, 1125441666595228915⟩,
  ⟨7330330845985706257, 6947957132670498679, 9373711551562393463, 1140097580201425214⟩,
  ⟨17640631015407645126, 17416650484724036037, 14803487960933328666, 554882262980868625⟩,
  ⟨10632745392742701465, 7191381972905833266, 10576427669223334706, 1037506184958051122⟩,
  ⟨7989155441247042094, 18276457113184108543, 17999817914616464103, 943187440870955565⟩,
  ⟨18204910156218979669, 16293041589642941780, 9975069610392864084, 1088801882579738168⟩,
  ⟨15441359965645378481, 7022857083512140090, 11162758362666494739, 1108530997049617801⟩,
  ⟨7802104352665277001, 1712233803072817444, 12180777293186749586, 1125441666595228915⟩,
  ⟨7330330845985706257, 6947957132670498679, 9373711551562393463, 1140097580201425214⟩,
  ⟨0, 0, 0, 1152921504606846976⟩,
  ⟨10632745392742701465, 7191381972905833266, 10576427669223334706, 1037506184958051122⟩,
  ⟨7989155441247042094, 18276457113184108543, 17999817914616464103, 943187440870955565⟩,
  ⟨18204910156218979669, 16293041589642941780, 9975069610392864084, 1088801882579738168⟩,
  ⟨15441359965645378481, 7022857083512140090, 11162758362666494739, 1108530997049617801⟩,
  ⟨7802104352665277001, 1712233803072817444, 12180777293186749586, 1125441666595228915⟩,
  ⟨7330330845985706257, 6947957132670498679, 9373711551562393463, 1140097580201425214⟩,
  ⟨0, 0, 0, 1152921504606846976⟩,
  ⟨829043150522309210, 7485532467658058089, 17072453966431109601, 610297755857677130⟩,
  ⟨7989155441247042094, 18276457113184108543, 17999817914616464103, 943187440870955565⟩,
  ⟨18204910156218979669, 16293041589642941780, 9975069610392864084, 1088801882579738168⟩,
  ⟨15441359965645378481, 7022857083512140090, 11162758362666494739, 1108530997049617801⟩,
  ⟨7802104352665277001, 1712233803072817444, 12180777293186749586, 1125441666595228915⟩,
  ⟨7330330845985706257, 6947957132670498679, 9373711551562393463, 1140097580201425214⟩,
  ⟨0, 0, 0, 1152921504606846976⟩,
  ⟨829043150522309210, 7485532467658058089, 17072453966431109601, 610297755857677130⟩,
  ⟨18043687544558598371, 8708325242362018018, 16625116017321440141, 277441131490434312⟩,
  ⟨18204910156218979669, 16293041589642941780, 9975069610392864084, 1088801882579738168⟩,
  ⟨15441359965645378481, 7022857083512140090, 11162758362666494739, 1108530997049617801⟩,
  ⟨7802104352665277001, 1712233803072817444, 12180777293186749586, 1125441666595228915⟩,
  ⟨7330330845985706257, 6947957132670498679, 9373711551562393463, 1140097580201425214⟩,
  ⟨0, 0, 0, 1152921504606846976⟩,
  ⟨829043150522309210, 7485532467658058089, 17072453966431109601, 610297755857677130⟩,
  ⟨18043687544558598371, 8708325242362018018, 16625116017321440141, 277441131490434312⟩,
  ⟨1903578231313020389, 13252279451564941743, 6429417326301386859, 900077037001125169⟩,
  ⟨15441359965645378481, 7022857083512140090, 11162758362666494739, 1108530997049617801⟩,
  ⟨7802104352665277001, 1712233803072817444, 12180777293186749586, 1125441666595228915⟩,
  ⟨7330330845985706257, 6947957132670498679, 9373711551562393463, 1140097580201425214⟩,
  ⟨0, 0, 0, 1152921504606846976⟩,
  ⟨829043150522309210, 7485532467658058089, 17072453966431109601, 610297755857677130⟩,
  ⟨18043687544558598371, 8708325242362018018, 16625116017321440141, 277441131490434312⟩,
  ⟨1903578231313020389, 13252279451564941743, 6429417326301386859, 900077037001125169⟩,
  ⟨14902495609461984461, 16049616749407607193, 8772353492731922841, 1191393277823112260⟩,
  ⟨7802104352665277001, 1712233803072817444, 12180777293186749586, 1125441666595228915⟩,
  ⟨7330330845985706257, 6947957132670498679, 9373711551562393463, 1140097580201425214⟩,
  ⟨0, 0, 0, 1152921504606846976⟩,
  ⟨829043150522309210, 7485532467658058089, 17072453966431109601, 610297755857677130⟩,
  ⟨18043687544558598371, 8708325242362018018, 16625116017321440141, 277441131490434312⟩,
  ⟨1903578231313020389, 13252279451564941743, 6429417326301386859, 900077037001125169⟩,
  ⟨14902495609461984461, 16049616749407607193, 8772353492731922841, 1191393277823112260⟩,
  ⟨5443236819267423281, 9444106377351672003, 16592192658774520588, 1198721234626210409⟩,
  ⟨7330330845985706257, 6947957132670498679, 9373711551562393463, 1140097580201425214⟩,
  ⟨0, 0, 0, 1152921504606846976⟩,
  ⟨829043150522309210, 7485532467658058089, 17072453966431109601, 610297755857677130⟩,
  ⟨18043687544558598371, 8708325242362018018, 16625116017321440141, 277441131490434312⟩,
  ⟨1903578231313020389, 13252279451564941743, 6429417326301386859, 900077037001125169⟩,
  ⟨14902495609461984461, 16049616749407607193, 8772353492731922841, 1191393277823112260⟩,
  ⟨5443236819267423281, 9444106377351672003, 16592192658774520588, 1198721234626210409⟩,
  ⟨13217949757478296855, 18361600593446830079, 18223280994163007859, 471593720435477782⟩]

/-- `M_hat`, poseidon377/src/params/rate_7.rs:2239-2499 -/
def rate7_mHat : List Limbs := [
  ⟨10632745392742701465, 7191381972905833266, 10576427669223334706, 1037506184958051122⟩,
  ⟨7989155441247042094, 18276457113184108543, 17999817914616464103, 943187440870955565⟩,
  ⟨18204910156218979669, 16293041589642941780, 9975069610392864084, 1088801882579738168⟩,
  ⟨15441359965645378481, 7022857083512140090, 11162758362666494739, 1108530997049617801⟩,
  ⟨7802104352665277001, 1712233803072817444, 12180777293186749586, 1125441666595228915⟩,
  ⟨7330330845985706257, 6947957132670498679, 9373711551562393463, 1140097580201425214⟩,
  ⟨0, 0, 0, 1152921504606846976⟩,
  ⟨7989155441247042094, 18276457113184108543, 17999817914616464103, 943187440870955565⟩,
  ⟨18204910156218979669, 16293041589642941780, 9975069610392864084, 1088801882579738168⟩,
  ⟨15441359965645378481, 7022857083512140090, 11162758362666494739, 1108530997049617801⟩,
  ⟨7802104352665277001, 1712233803072817444, 12180777293186749586, 1125441666595228915⟩,
  ⟨7330330845985706257, 6947957132670498679, 9373711551562393463, 1140097580201425214⟩,
  ⟨0, 0, 0, 1152921504606846976⟩,
  ⟨829043150522309210, 7485532467658058089, 17072453966431109601, 610297755857677130⟩,
  ⟨18204910156218979669, 16293041589642941780, 9975069610392864084, 1088801882579738168⟩,
  ⟨15441359965645378481, 7022857083512140090, 11162758362666494739, 1108530997049617801⟩,
  ⟨7802104352665277001, 1712233803072817444, 12180777293186749586, 1125441666595228915⟩,
  ⟨7330330845985706257, 6947957132670498679, 9373711551562393463, 1140097580201425214⟩,
  ⟨0, 0, 0, 1152921504606846976⟩,
  ⟨829043150522309210, 7485532467658058089, 17072453966431109601, 610297755857677130⟩,
  ⟨18043687544558598371, 8708325242362018018, 16625116017321440141, 277441131490434312⟩,
  ⟨15441359965645378481, 7022857083512140090, 11162758362666494739, 1108530997049617801⟩,
  ⟨7802104352665277001, 1712233803072817444, 12180777293186749586, 1125441666595228915⟩,
  ⟨7330330845985706257, 6947957132670498679, 9373711551562393463, 1140097580201425214⟩,
  ⟨0, 0, 0, 1152921504606846976⟩,
  ⟨829043150522309210, 7485532467658058089, 17072453966431109601, 610297755857677130⟩,
  ⟨18043687544558598371, 8708325242362018018, 16625116017321440141, 277441131490434312⟩,
  ⟨1903578231313020389, 13252279451564941743, 6429417326301386859, 900077037001125169⟩,
  ⟨7802104352665277001, 1712233803072817444, 12180777293186749586, 1125441666595228915⟩,
  ⟨7330330845985706257, 6947957132670498679, 9373711551562393463, 1140097580201425214⟩,
  ⟨0, 0, 0, 1152921504606846976⟩,
  ⟨829043150522309210, 7485532467658058089, 17072453966431109601, 610297755857677130⟩,
  ⟨18043687544558598371, 8708325242362018018, 16625116017321440141, 277441131490434312⟩,
  ⟨1903578231313020389, 13252279451564941743, 6429417326301386859, 900077037001125169⟩,
  ⟨14902495609461984461, 16049616749407607193, 8772353492731922841, 1191393277823112260⟩,
  ⟨7330330845985706257, 6947957132670498679, 9373711551562393463, 1140097580201425214⟩,
  ⟨0, 0, 0, 1152921504606846976⟩,
  ⟨829043150522309210, 7485532467658058089, 17072453966431109601, 610297755857677130⟩,
  ⟨18043687544558598371, 8708325242362018018, 16625116017321440141, 277441131490434312⟩,
  ⟨1903578231313020389, 13252279451564941743, 6429417326301386859, 900077037001125169⟩,
  ⟨14902495609461984461, 16049616749407607193, 8772353492731922841, 1191393277823112260⟩,
  ⟨5443236819267423281, 9444106377351672003, 16592192658774520588, 1198721234626210409⟩,
  ⟨0, 0, 0, 1152921504606846976⟩,
  ⟨829043150522309210, 7485532467658058089, 17072453966431109601, 610297755857677130⟩,
  ⟨18043687544558598371, 8708325242362018018, 16625116017321440141, 277441131490434312⟩,
  ⟨1903578231313020389, 13252279451564941743, 6429417326301386859, 900077037001125169⟩,
  ⟨14902495609461984461, 16049616749407607193, 8772353492731922841, 1191393277823112260⟩,
  ⟨5443236819267423281, 9444106377351672003, 16592192658774520588, 1198721234626210409⟩,
  ⟨13217949757478296855, 18361600593446830079, 18223280994163007859, 471593720435477782⟩]

/-- `v`, poseidon377/src/params/rate_7.rs:2500-2543 -/
def rate7_v : List Limbs := [
  ⟨17640631015407645126, 17416650484724036037, 14803487960933328666, 554882262980868625⟩,
  ⟨10632745392742701465, 7191381972905833266, 10576427669223334706, 1037506184958051122⟩,
  ⟨7989155441247042094, 18276457113184108543, 17999817914616464103, 943187440870955565⟩,
  ⟨18204910156218979669, 16293041589642941780, 9975069610392864084, 1088801882579738168⟩,
  ⟨15441359965645378481, 7022857083512140090, 11162758362666494739, 1108530997049617801⟩,
  ⟨7802104352665277001, 1712233803072817444, 12180777293186749586, 1125441666595228915⟩,
  ⟨7330330845985706257, 6947957132670498679, 9373711551562393463, 1140097580201425214⟩]

/-- `w`, poseidon377/src/params/rate_7.rs:2544-2587 -/
def rate7_w : List Limbs := [
  ⟨17640631015407645126, 17416650484724036037, 14803487960933328666, 554882262980868625⟩,
  ⟨10632745392742701465, 7191381972905833266, 10576427669223334706, 1037506184958051122⟩,
  ⟨7989155441247042094, 18276457113184108543, 17999817914616464103, 943187440870955565⟩,
  ⟨18204910156218979669, 16293041589642941780, 9975069610392864084, 1088801882579738168⟩,
  ⟨15441359965645378481, 7022857083512140090, 11162758362666494739, 1108530997049617801⟩,
  ⟨7802104352665277001, 1712233803072817444, 12180777293186749586, 1125441666595228915⟩,
  ⟨7330330845985706257, 6947957132670498679, 9373711551562393463, 1140097580201425214⟩]

/-- `M_prime`, poseidon377/src/params/rate_7.rs:2588-2868 -/
def rate7_mPrime : List Limbs := [
  ⟨9015221291577245683, 8239323489949974514, 1646089257421115374, 958099254763297437⟩,
  ⟨0, 0, 0, 0⟩,
  ⟨0, 0, 0, 0⟩,
  ⟨0, 0, 0, 0⟩,
  ⟨0, 0, 0, 0⟩,
  ⟨0, 0, 0, 0⟩,
  ⟨0, 0, 0, 0⟩,
  ⟨0, 0, 0, 0⟩,
  ⟨0, 0, 0, 0⟩,
  ⟨10632745392742701465, 7191381972905833266, 10576427669223334706, 1037506184958051122⟩,
  ⟨7989155441247042094, 18276457113184108543, 17999817914616464103, 943187440870955565⟩,
  ⟨18204910156218979669, 16293041589642941780, 9975069610392864084, 1088801882579738168⟩,
  ⟨15441359965645378481, 7022857083512140090, 11162758362666494739, 1108530997049617801⟩,
  ⟨7802104352665277001, 1712233803072817444, 12180777293186749586, 1125441666595228915⟩,
  ⟨7330330845985706257, 6947957132670498679, 9373711551562393463, 1140097580201425214⟩,
  ⟨0, 0, 0, 1152921504606846976⟩,
  ⟨0, 0, 0, 0⟩,
  ⟨7989155441247042094, 18276457113184108543, 17999817914616464103, 943187440870955565⟩,
  ⟨18204910156218979669, 16293041589642941780, 9975069610392864084, 1088801882579738168⟩,
  ⟨15441359965645378481, 7022857083512140090, 11162758362666494739, 1108530997049617801⟩,
  ⟨7802104352665277001, 1712233803072817444, 12180777293186749586, 1125441666595228915⟩,
  ⟨7330330845985706257, 6947957132670498679, 9373711551562393463, 1140097580201425214⟩,
  ⟨0, 0, 0, 1152921504606846976⟩,
  ⟨829043150522309210, 7485532467658058089, 17072453966431109601, 610297755857677130⟩,
  ⟨0, 0, 0, 0⟩,
  ⟨18204910156218979669, 16293041589642941780, 9975069610392864084, 1088801882579738168⟩,
  ⟨15441359965645378481, 7022857083512140090, 11162758362666494739, 1108530997049617801⟩,
  ⟨7802104352665277001, 1712233803072817444, 12180777293186749586, 1125441666595228915⟩,
  ⟨7330330845985706257, 6947957132670498679, 9373711551562393463, 1140097580201425214⟩,
  ⟨0, 0, 0, 1152921504606846976⟩,
  ⟨829043150522309210, 7485532467658058089, 17072453966431109601, 610297755857677130⟩,
  ⟨18043687544558598371, 8708325242362018018, 16625116017321440141, 277441131490434312⟩,
  ⟨0, 0, 0, 0⟩,
  ⟨15441359965645378481, 7022857083512140090, 11162758362666494739, 1108530997049617801⟩,
  ⟨7802104352665277001, 1712233803072817444, 12180777293186749586, 1125441666595228915⟩,
  ⟨7330330845985706257, 6947957132670498679, 9373711551562393463, 1140097580201425214⟩,
  ⟨0, 0, 0, 1152921504606846976⟩,
  ⟨829043150522309210, 7485532467658058089, 17072453966431109601, 610297755857677130⟩,
  ⟨18043687544558598371, 8708325242362018018, 16625116017321440141, 277441131490434312⟩,
  ⟨1903578231313020389, 13252279451564941743, 6429417326301386859, 900077037001125169⟩,
  ⟨0, 0, 0, 0⟩,
  ⟨7802104352665277001, 1712233803072817444, 12180777293186749586, 1125441666595228915⟩,
  ⟨7330330845985706257, 6947957132670498679, 9373711551562393463, 1140097580201425214⟩,
  ⟨0, 0, 0, 1152921504606846976⟩,
  ⟨829043150522309210, 7485532467658058089, 17072453966431109601, 610297755857677130⟩,
  ⟨18043687544558598371, 8708325242362018018, 16625116017321440141, 277441131490434312⟩,
  ⟨1903578231313020389, 13252279451564941743, 6429417326301386859, 900077037001125169⟩,
  ⟨14902495609461984461, 16049616749407607193, 8772353492731922841, 1191393277823112260⟩,
  ⟨0, 0, 0, 0⟩,
  ⟨7330330845985706257, 6947957132670498679, 9373711551562393463, 1140097580201425214⟩,
  ⟨0, 0, 0, 1152921504606846976⟩,
  ⟨829043150522309210, 7485532467658058089, 17072453966431109601, 610297755857677130⟩,
  ⟨18043687544558598371, 8708325242362018018, 16625116017321440141, 277441131490434312⟩,
  ⟨1903578231313020389, 13252279451564941743, 6429417326301386859, 900077037001125169⟩,
  ⟨14902495609461984461, 16049616749407607193, 8772353492731922841, 1191393277823112260⟩,
  ⟨5443236819267423281, 9444106377351672003, 16592192658774520588, 1198721234626210409⟩,
  ⟨0, 0, 0, 0⟩,
  ⟨0, 0, 0, 1152921504606846976⟩,
  ⟨829043150522309210, 7485532467658058089, 17072453966431109601, 610297755857677130⟩,
  ⟨18043687544558598371, 8708325242362018018, 16625116017321440141, 277441131490434312⟩,
  ⟨1903578231313020389, 13252279451564941743, 6429417326301386859, 900077037001125169⟩,
  ⟨14902495609461984461, 16049616749407607193, 8772353492731922841, 1191393277823112260⟩,
  ⟨5443236819267423281, 9444106377351672003, 16592192658774520588, 1198721234626210409⟩,
  ⟨13217949757478296855, 18361600593446830079, 18223280994163007859, 471593720435477782⟩]

/-- `M_doubleprime`, poseidon377/src/params/rate_7.rs:2869-3044 -/
def rate7_mDoublePrime : List Limbs := [
  ⟨17721242321237835775, 11985636621509722110, 11478464757469040638, 960562638525520553⟩,
  ⟨17640631015407645126, 17416650484724036037, 14803487960933328666, 554882262980868625⟩,
  ⟨10632745392742701465, 7191381972905833266, 10576427669223334706, 1037506184958051122⟩,
  ⟨7989155441247042094, 18276457113184108543, 17999817914616464103, 943187440870955565⟩,
  ⟨18204910156218979669, 16293041589642941780, 9975069610392864084, 1088801882579738168⟩,
  ⟨15441359965645378481, 7022857083512140090, 11162758362666494739, 1108530997049617801⟩,
  ⟨7802104352665277001, 1712233803072817444, 12180777293186749586, 1125441666595228915⟩,
  ⟨7330330845985706257, 6947957132670498679, 9373711551562393463, 1140097580201425214⟩,
  ⟨5469465372454405746, 11693688927749785195, 9284229770381589387, 263916402201309764⟩,
  ⟨9015221291577245683, 8239323489949974514, 1646089257421115374, 958099254763297437⟩,
  ⟨0, 0, 0, 0⟩,
  ⟨0, 0, 0, 0⟩,
  ⟨0, 0, 0, 0⟩,
  ⟨0, 0, 0, 0⟩,
  ⟨0, 0, 0, 0⟩,
  ⟨0, 0, 0, 0⟩,
  ⟨8025142443496737775, 1611073224873590596, 1595200312703520851, 268362793599128279⟩,
  ⟨0, 0, 0, 0⟩,
  ⟨9015221291577245683, 8239323489949974514, 1646089257421115374, 958099254763297437⟩,
  ⟨0, 0, 0, 0⟩,
  ⟨0, 0, 0, 0⟩,
  ⟨0, 0, 0, 0⟩,
  ⟨0, 0, 0, 0⟩,
  ⟨0, 0, 0, 0⟩,
  ⟨2646197433325367530, 3327161674116363870, 17523969835882673765, 1224872920276084181⟩,
  ⟨0, 0, 0, 0⟩,
  ⟨0, 0, 0, 0⟩,
  ⟨9015221291577245683, 8239323489949974514, 1646089257421115374, 958099254763297437⟩,
  ⟨0, 0, 0, 0⟩,
  ⟨0, 0, 0, 0⟩,
  ⟨0, 0, 0, 0⟩,
  ⟨0, 0, 0, 0⟩,
  ⟨3531022552160069605, 1044916798369741293, 13484540382795405112, 975392012720575741⟩,
  ⟨0, 0, 0, 0⟩,
  ⟨0, 0, 0, 0⟩,
  ⟨0, 0, 0, 0⟩,
  ⟨9015221291577245683, 8239323489949974514, 1646089257421115374, 958099254763297437⟩,
  ⟨0, 0, 0, 0⟩,
  ⟨0, 0, 0, 0⟩,
  ⟨0, 0, 0, 0⟩,
  ⟨3532672362950129848, 13232567668052949956, 3949082925084889589, 1169300250855119928⟩,
  ⟨0, 0, 0, 0⟩,
  ⟨0, 0, 0, 0⟩,
  ⟨0, 0, 0, 0⟩,
  ⟨0, 0, 0, 0⟩,
  ⟨9015221291577245683, 8239323489949974514, 1646089257421115374, 958099254763297437⟩,
  ⟨0, 0, 0, 0⟩,
  ⟨0, 0, 0, 0⟩,
  ⟨17405909644706202533, 9068195655028130334, 4993737853698066182, 760630245260613434⟩,
  ⟨0, 0, 0, 0⟩,
  ⟨0, 0, 0, 0⟩,
  ⟨0, 0, 0, 0⟩,
  ⟨0, 0, 0, 0⟩,
  ⟨0, 0, 0, 0⟩,
  ⟨9015221291577245683, 8239323489949974514, 1646089257421115374, 958099254763297437⟩,
  ⟨0, 0, 0, 0⟩,
  ⟨10760096219897954109, 15819961273994906871, 12000866060961275644, 494051747708222359⟩,
  ⟨0, 0, 0, 0⟩,
  ⟨0, 0, 0, 0⟩,
  ⟨0, 0, 0, 0⟩,
  ⟨0, 0, 0, 0⟩,
  ⟨0, 0, 0, 0⟩,
  ⟨0, 0, 0, 0⟩,
  ⟨9015221291577245683, 8239323489949974514, 1646089257421115374, 958099254763297437⟩]

/-- `M_inverse`, poseidon377/src/params/rate_7.rs:3045-3430 -/
def rate7_mInverse : List Limbs := [
  ⟨13084505025340709209, 6658414703856389670, 1229628874832604981, 544699057731131701⟩,
  ⟨9271504314401065906, 16573554673674659136, 11112785265390720139, 695302674280213266⟩,
  ⟨17755863455076530065, 714019269282123475, 2516777105896065646, 758853547373067215⟩,
  ⟨18230149865394473823, 17597653080170983126, 8526134725373349310, 254065511080298010⟩,
  ⟨12943062609168455850, 4036522178185995734, 13999395164871811986, 158263095242933732⟩,
  ⟨9727917081763370379, 12523860206965601712, 6438415234309761598, 578292727069385307⟩,
  ⟨4722164372208948539, 6191995659471889704, 9488304077820150497, 383493821809394045⟩,
  ⟨6308417298426862088, 11443735935349473316, 5741617995111411363, 1072746374115513684⟩,
  ⟨9271504314401065906, 16573554673674659136, 11112785265390720139, 695302674280213266⟩,
  ⟨6461820328084053982, 3713881430924031860, 2384237101556363354, 925204973024161309⟩,
  ⟨11045222492845432763, 12330616953129622165, 6721295490146207098, 737212261478666249⟩,
  ⟨17374877272010299584, 12910097275334870758, 11030123918921243889, 999547114982057960⟩,
  ⟨2710620113890028948, 7440189668352585633, 11434649235474493285, 24415954842353912⟩,
  ⟨7017296967873341431, 5083670538613016079, 13450510072544819929, 553876772227031394⟩,
  ⟨13756252569614172144, 10114182252140374927, 8424160399132869901, 370135544443278065⟩,
  ⟨8192890567029291618, 6189339163642963502, 10515708329663122411, 718287917303790275⟩,
  ⟨17755863455076530065, 714019269282123475, 2516777105896065646, 758853547373067215⟩,
  ⟨11045222492845432763, 12330616953129622165, 6721295490146207098, 737212261478666249⟩,
  ⟨1107303498763469844, 5522738209527454529, 7444362964372879018, 94326278492989394⟩,
  ⟨17301615911438019293, 6207101570101901683, 6912719408314906153, 670136716188149414⟩,
  ⟨8052773691804060961, 7894827066734284032, 17737200459541160653, 1344927881702280038⟩,
  ⟨3579877764578944756, 17358359975581377230, 2902328015395623063, 1076553286270705854⟩,
  ⟨7922495546740583511, 13377932406425725078, 312087136472518954, 724215661521432074⟩,
  ⟨14304988956035390969, 2978747834443270582, 211153190861140083, 1101825800236420991⟩,
  ⟨18230149865394473823, 17597653080170983126, 8526134725373349310, 254065511080298010⟩,
  ⟨17374877272010299584, 12910097275334870758, 11030123918921243889, 999547114982057960⟩,
  ⟨17301615911438019293, 6207101570101901683, 6912719408314906153, 670136716188149414⟩,
  ⟨11280947822772662719, 3998258523005585690, 3083179120639342004, 919842772758514385⟩,
  ⟨9288629788793402586, 2259376874925369448, 13217169487415398853, 539099117435770765⟩,
  ⟨8430375547150652021, 1001249403497996831, 16789953243695164761, 1344355087100203329⟩,
  ⟨527596723520651020, 15187839531048996200, 6255568353483246533, 170911683896477388⟩,
  ⟨1734565667097520919, 12020388067710193448, 6095663732563761512, 1138214739842689620⟩,
  ⟨12943062609168455850, 4036522178185995734, 13999395164871811986, 158263095242933732⟩,
  ⟨2710620113890028948, 7440189668352585633, 11434649235474493285, 24415954842353912⟩,
  ⟨8052773691804060961, 7894827066734284032, 17737200459541160653, 1344927881702280038⟩,
  ⟨9288629788793402586, 2259376874925369448, 13217169487415398853, 539099117435770765⟩,
  ⟨11829305752964125757, 10778200385642703226, 2095381984842221696, 365296429444826263⟩,
  ⟨9209237328018148115, 9013177660724622161, 13411670809827118984, 1159740245409298491⟩,
  ⟨1786760175787716883, 16585118128488698423, 3661827234912273881, 1175179421357105610⟩,
  ⟨6997506992288193640, 3314349379260916067, 10669743096907430976, 828027530724672872⟩,
  ⟨9727917081763370379, 12523860206965601712, 6438415234309761598, 578292727069385307⟩,
  ⟨7017296967873341431, 5083670538613016079, 13450510072544819929, 553876772227031394⟩,
  ⟨3579877764578944756, 17358359975581377230, 2902328015395623063, 1076553286270705854⟩,
  ⟨8430375547150652021, 1001249403497996831, 16789953243695164761, 1344355087100203329⟩,
  ⟨9209237328018148115, 9013177660724622161, 13411670809827118984, 1159740245409298491⟩,
  ⟨2800053360411677182, 7739112841912438666, 4458443078052365313, 1221561517743072277⟩,
  ⟨5714397546912390046, 7204578223640664713, 3369806468691410388, 19539807714888073⟩,
  ⟨7912928165080095595, 10691173171385779887, 7900069818404182519, 558654216499734169⟩,
  ⟨4722164372208948539, 6191995659471889704, 9488304077820150497, 383493821809394045⟩,
  ⟨13756252569614172144, 10114182252140374927, 8424160399132869901, 370135544443278065⟩,
  ⟨7922495546740583511, 13377932406425725078, 312087136472518954, 724215661521432074⟩,
  ⟨527596723520651020, 15187839531048996200, 6255568353483246533, 170911683896477388⟩,
  ⟨1786760175787716883, 16585118128488698423, 3661827234912273881, 1175179421357105610⟩,
  ⟨5714397546912390046, 7204578223640664713, 3369806468691410388, 19539807714888073⟩,
  ⟨11467623733094325177, 12601944683740404995, 14270804009154313170, 1283543454792166291⟩,
  ⟨1591478553039085540, 13629203225225281079, 9223729349286412660, 541375501705678927⟩,
  ⟨6308417298426862088, 11443735935349473316, 5741617995111411363, 1072746374115513684⟩,
  ⟨8192890567029291618, 6189339163642963502, 10515708329663122411, 718287917303790275⟩,
  ⟨14304988956035390969, 2978747834443270582, 211153190861140083, 1101825800236420991⟩,
  ⟨1734565667097520919, 12020388067710193448, 6095663732563761512, 1138214739842689620⟩,
  ⟨6997506992288193640, 3314349379260916067, 10669743096907430976, 828027530724672872⟩,
  ⟨7912928165080095595, 10691173171385779887, 7900069818404182519, 558654216499734169⟩,
  ⟨1591478553039085540, 13629203225225281079, 9223729349286412660, 541375501705678927⟩,
  ⟨1183879673177082740, 4195985459140120089, 6602546398975040286, 268356784116832629⟩]

/-- `M_hat_inverse`, poseidon377/src/params/rate_7.rs:3431-3726 -/
def rate7_mHatInverse : List Limbs := [
  ⟨4596204885914937926, 7838695242625897787, 3035134948628881865, 1207227057562625259⟩,
  ⟨15896440128761118173, 15649465122428497798, 4384954020081155217, 913236075158308182⟩,
  ⟨2335397575999068166, 14422783505571319241, 2719190544357073120, 274885737548821162⟩,
  ⟨9009029437947626511, 7346990291023997455, 3414440920242711508, 50729493538167678⟩,
  ⟨1147572841630042462, 8929633407603160962, 14641836547291178689, 426104246454882272⟩,
  ⟨17053865508971679549, 2198382506890441430, 11312636819879946010, 1106661992673439325⟩,
  ⟨13854198271768011224, 4053309739918946052, 18433076019880982368, 615216866081782140⟩,
  ⟨15896440128761118173, 15649465122428497798, 4384954020081155217, 913236075158308182⟩,
  ⟨4761711418629517518, 591743220415883789, 2347216482122737487, 541885199414988935⟩,
  ⟨16049706050976647208, 9176322874162797755, 12242590547654900654, 61012554895502211⟩,
  ⟨10907149703911289876, 345335516406280141, 13671249158696272740, 1076200797284812494⟩,
  ⟨3783029764742972160, 8718337959668375608, 9493474458284681386, 1324609056502214356⟩,
  ⟨7820919546658569809, 8474571377527450081, 15463257988737541409, 600187776405677822⟩,
  ⟨17765856891579054878, 11653192174908829654, 4966200605019140816, 13151716642854399⟩,
  ⟨2335397575999068166, 14422783505571319241, 2719190544357073120, 274885737548821162⟩,
  ⟨16049706050976647208, 9176322874162797755, 12242590547654900654, 61012554895502211⟩,
  ⟨13442108051579804680, 3187031622749351601, 18435466452818364440, 257424390549798158⟩,
  ⟨14787872399840322022, 11612292071578382904, 2915446897265489403, 1027394734812832541⟩,
  ⟨14650186278276933856, 11736505343490130034, 4478509448304020774, 790137565622286814⟩,
  ⟨16227186307902919639, 13050765287152844350, 6672057872444298207, 1120660629979522345⟩,
  ⟨17280730943809781377, 2101938472365641700, 2221542087098170284, 682975842437066220⟩,
  ⟨9009029437947626511, 7346990291023997455, 3414440920242711508, 50729493538167678⟩,
  ⟨10907149703911289876, 345335516406280141, 13671249158696272740, 1076200797284812494⟩,
  ⟨14787872399840322022, 11612292071578382904, 2915446897265489403, 1027394734812832541⟩,
  ⟨9754754145024164416, 9500194995930094065, 4605218223030367360, 489015282389927384⟩,
  ⟨11235823697266068713, 9767911161281654263, 15004902496107301847, 1252504438181231825⟩,
  ⟨773466991163756584, 6984379341355406564, 2865211391772182450, 1128797324971138943⟩,
  ⟨3783029764742972160, 8718337959668375608, 9493474458284681386, 1324609056502214356⟩,
  ⟨1147572841630042462, 8929633407603160962, 14641836547291178689, 426104246454882272⟩,
  ⟨3783029764742972160, 8718337959668375608, 9493474458284681386, 1324609056502214356⟩,
  ⟨14650186278276933856, 11736505343490130034, 4478509448304020774, 790137565622286814⟩,
  ⟨11235823697266068713, 9767911161281654263, 15004902496107301847, 1252504438181231825⟩,
  ⟨10750604789646168140, 372497979918419381, 10429606583776526343, 928966821232337907⟩,
  ⟨10962493869149920375, 10887885654637674355, 384224715829329873, 165837155970255258⟩,
  ⟨2645295168975782308, 13863838601458690618, 7409022743292405220, 617686796815916414⟩,
  ⟨17053865508971679549, 2198382506890441430, 11312636819879946010, 1106661992673439325⟩,
  ⟨7820919546658569809, 8474571377527450081, 15463257988737541409, 600187776405677822⟩,
  ⟨16227186307902919639, 13050765287152844350, 6672057872444298207, 1120660629979522345⟩,
  ⟨773466991163756584, 6984379341355406564, 2865211391772182450, 1128797324971138943⟩,
  ⟨10962493869149920375, 10887885654637674355, 384224715829329873, 165837155970255258⟩,
  ⟨17704196732594477900, 7529737242141985421, 3056083190610322131, 537754595320396000⟩,
  ⟨4588045927327100104, 15273424236288740466, 3730020508107780990, 1184499396891674504⟩,
  ⟨13854198271768011224, 4053309739918946052, 18433076019880982368, 615216866081782140⟩,
  ⟨17765856891579054878, 11653192174908829654, 4966200605019140816, 13151716642854399⟩,
  ⟨17280730943809781377, 2101938472365641700, 2221542087098170284, 682975842437066220⟩,
  ⟨3783029764742972160, 8718337959668375608, 9493474458284681386, 1324609056502214356⟩,
  ⟨2645295168975782308, 13863838601458690618, 7409022743292405220, 617686796815916414⟩,
  ⟨4588045927327100104, 15273424236288740466, 3730020508107780990, 1184499396891674504⟩,
  ⟨5513671693009890019, 13840477803572862779, 13148892977164251883, 530785029804846654⟩]

/-- `M_00`, poseidon377/src/params/rate_7.rs:3727-3732 -/
def rate7_m00 : Limbs := ⟨17721242321237835775, 11985636621509722110, 11478464757469040638, 960562638525520553⟩

/-- `M_i`, poseidon377/src/params/rate_7.rs:3733-4048 -/
def rate7_mI : List Limbs := [
  ⟨9015221291577245683, 8239323489949974514, 1646089257421115374, 958099254763297437⟩,
  ⟨0, 0, 0, 0⟩,
  ⟨0, 0, 0, 0⟩,
  ⟨0, 0, 0, 0⟩,
  ⟨0, 0, 0, 0⟩,
  ⟨0, 0, 0, 0⟩,
  ⟨0, 0, 0, 0⟩,
  ⟨0, 0, 0, 0⟩,
  ⟨0, 0, 0, 0⟩,
  ⟨6320288599439722802, 17139790906886685752, 15622446705354855394, 1250967766698858445⟩,
  ⟨12907953951183108118, 570406863259453574, 9479663564103955646, 1023356057988386223⟩,
  ⟨5445632916888334837, 1254961675994290676, 17739625680446876718, 887995330051968477⟩,
  ⟨6322290143919737275, 6221802074515073157, 3956268074861890555, 1230594881276209560⟩,
  ⟨6707360385690721071, 168555159922046132, 3944622502497320499, 871144945884010465⟩,
  ⟨2037533433720590943, 11084683233172165964, 9053730132862546054, 793120143512682509⟩,
  ⟨16034329588701802957, 3903236010590312092, 9048724434495743556, 974216030141738060⟩,
  ⟨0, 0, 0, 0⟩,
  ⟨12907953951183108118, 570406863259453574, 9479663564103955646, 1023356057988386223⟩,
  ⟨2630356400630794821, 484400404306129097, 10294032504232056871, 1245743613753800727⟩,
  ⟨7020374536790409354, 11449249974296852948, 11812715459389350230, 761793057268134936⟩,
  ⟨14832891855204883256, 1120380609975889545, 13112310496604860424, 265468754987956357⟩,
  ⟨1471871698735710625, 5066062283984961905, 18437666505161167766, 732132698348695885⟩,
  ⟨12165164801578981607, 2595888614156384905, 3065973630931260883, 580278735590489736⟩,
  ⟨14321853632102951979, 5605761176730605396, 4630454347263185176, 122758557320262262⟩,
  ⟨0, 0, 0, 0⟩,
  ⟨5445632916888334837, 1254961675994290676, 17739625680446876718, 887995330051968477⟩,
  ⟨7020374536790409354, 11449249974296852948, 11812715459389350230, 761793057268134936⟩,
  ⟨8776438364931459725, 12817858402105398175, 11110959846851041399, 66365362687656724⟩,
  ⟨8240747731577468633, 14565407531273622630, 3117214821926093855, 377503066268731506⟩,
  ⟨3910521513192788403, 13982250796740762630, 7488541789654977578, 950543461716681145⟩,
  ⟨13037154073613592925, 5935342861935913439, 15852552537899162249, 940304910644322576⟩,
  ⟨6931234819087160937, 3778580043557980929, 15772931149205513556, 42782763261291533⟩,
  ⟨0, 0, 0, 0⟩,
  ⟨6322290143919737275, 6221802074515073157, 3956268074861890555, 1230594881276209560⟩,
  ⟨14832891855204883256, 1120380609975889545, 13112310496604860424, 265468754987956357⟩,
  ⟨8240747731577468633, 14565407531273622630, 3117214821926093855, 377503066268731506⟩,
  ⟨11125067532471981344, 14191984257965181085, 12061981722855456559, 593208493053362841⟩,
  ⟨12343763401003110605, 14101666204297852634, 12890733422632852105, 917529488625337921⟩,
  ⟨12402063032118952752, 2700777936756282138, 16216549649819784559, 1155661828697936045⟩,
  ⟨2194969812170857806, 13161078840371575175, 5264735936454844546, 101144700881461918⟩,
  ⟨0, 0, 0, 0⟩,
  ⟨6707360385690721071, 168555159922046132, 3944622502497320499, 871144945884010465⟩,
  ⟨1471871698735710625, 5066062283984961905, 18437666505161167766, 732132698348695885⟩,
  ⟨3910521513192788403, 13982250796740762630, 7488541789654977578, 950543461716681145⟩,
  ⟨12343763401003110605, 14101666204297852634, 12890733422632852105, 917529488625337921⟩,
  ⟨11359111242441949022, 11240352269459571893, 17263815313749644065, 781240072875924051⟩,
  ⟨16712698548631210778, 8113828394758785535, 9984182942939561022, 781254146059533921⟩,
  ⟨7404478796369705144, 1939616247903098428, 2043282094878258870, 67588237262069794⟩,
  ⟨0, 0, 0, 0⟩,
  ⟨2037533433720590943, 11084683233172165964, 9053730132862546054, 793120143512682509⟩,
  ⟨12165164801578981607, 2595888614156384905, 3065973630931260883, 580278735590489736⟩,
  ⟨13037154073613592925, 5935342861935913439, 15852552537899162249, 940304910644322576⟩,
  ⟨12402063032118952752, 2700777936756282138, 16216549649819784559, 1155661828697936045⟩,
  ⟨16712698548631210778, 8113828394758785535, 9984182942939561022, 781254146059533921⟩,
  ⟨6959694198409880686, 10513484520296585955, 17245503495642767610, 326963768321955511⟩,
  ⟨10751863449412314814, 12531617507536929183, 2333159255918151628, 108101348738232165⟩,
  ⟨0, 0, 0, 0⟩,
  ⟨16034329588701802957, 3903236010590312092, 9048724434495743556, 974216030141738060⟩,
  ⟨14321853632102951979, 5605761176730605396, 4630454347263185176, 122758557320262262⟩,
  ⟨6931234819087160937, 3778580043557980929, 15772931149205513556, 42782763261291533⟩,
  ⟨2194969812170857806, 13161078840371575175, 5264735936454844546, 101144700881461918⟩,
  ⟨7404478796369705144, 1939616247903098428, 2043282094878258870, 67588237262069794⟩,
  ⟨10751863449412314814, 12531617507536929183, 2333159255918151628, 108101348738232165⟩,
  ⟨8242539079403140188, 8061347952042345076, 11707135840504604934, 914785475508666052⟩]

/-- `v_collection`, poseidon377/src/params/rate_7.rs:4049-5414 -/
def rate7_vCollection : List (List Limbs) := [
  [⟨17640631015407645126, 17416650484724036037, 14803487960933328666, 554882262980868625⟩, ⟨10632745392742701465, 7191381972905833266, 10576427669223334706, 1037506184958051122⟩, ⟨7989155441247042094, 18276457113184108543, 17999817914616464103, 943187440870955565⟩, ⟨18204910156218979669, 16293041589642941780, 9975069610392864084, 1088801882579738168⟩, ⟨15441359965645378481, 7022857083512140090, 11162758362666494739, 1108530997049617801⟩, ⟨7802104352665277001, 1712233803072817444, 12180777293186749586, 1125441666595228915⟩, ⟨7330330845985706257, 6947957132670498679, 9373711551562393463, 1140097580201425214⟩],
  [⟨18366132767879360967, 5431013863214313926, 3325023203464288028, 747241129062195048⟩, ⟨4861545468195100803, 11791803721085820360, 16861242526837808182, 587224779081284519⟩, ⟨6038434302262732315, 17199494462234427620, 17847977008226730647, 613398622514363430⟩, ⟨8422783269805610096, 16656220536572751252, 7918639979705401643, 170910085608382473⟩, ⟨18349346982789927355, 8017591337915184637, 18372658176979362927, 927323834744911125⟩, ⟨6098144161467281354, 2162126959782930019, 8016715582812993181, 87916415604842323⟩, ⟨14926888907449900570, 16034226105739794058, 8242495446855270900, 170857479056428767⟩],
  [⟨13761299995988853307, 10330765076738035315, 13655052507848964233, 121839220114831784⟩, ⟨15369322242721768225, 7050142047224256972, 12643665775034470999, 1102328692521833676⟩, ⟨10555474781715655116, 6656109843697517764, 16567476834724252290, 1315407115111807184⟩, ⟨15635518385029844173, 579774923863089338, 4907175580968184975, 679471495325209728⟩, ⟨11185461100085345821, 8221939874744266357, 12287775310123057539, 1019299127883999231⟩, ⟨586274284242963056, 8310909834705600558, 3054222778649762639, 763190023338919332⟩, ⟨6717490082866871699, 9561189803595277803, 2358146706687598339, 229707033421591253⟩],
  [⟨9862704231385218313, 13914100249743202263, 10014223727046890158, 679200801234608014⟩, ⟨16286005160576575401, 2766108936000922095, 13859049965904094985, 720362228683248654⟩, ⟨18028696975939559798, 6945291324150110288, 3594371327059432745, 1256526022736975448⟩, ⟨13724722228213474447, 17954541567374385206, 10748596771783277924, 116970063643881223⟩, ⟨17627786090808150672, 7901620020601608720, 1877160764958626418, 756288000881176875⟩, ⟨14537377980409294015, 18005737005152562388, 9571375812741383887, 59753059053707643⟩, ⟨4228748937594043872, 11086846199995865064, 15359245871481193897, 1099589394616459299⟩],
  [⟨6835681309479739469, 2522595035308448012, 13579423836020142879, 321430679545810677⟩, ⟨8928134061485321773, 14157720579697729134, 10344780082168020995, 97202987142506800⟩, ⟨3126697640027307204, 1153410184564297189, 4809813821719177551, 994774295722128937⟩, ⟨3918576597698600036, 13183810862438807325, 15214887128855617985, 279159001700097111⟩, ⟨2830967354854515654, 17469509170635724421, 8035672669498122237, 267629026497518109⟩, ⟨13871567487914888086, 5246409741722402492, 16832389611931438025, 1295010963726258350⟩, ⟨17057934674164606699, 6421519839681476555, 2956724044796119398, 327825682992218753⟩],
  [⟨4795884052041907920, 14375534011696101577, 2427060550596560456, 393919458849239754⟩, ⟨15372002461943753964, 11342165919824154367, 11980800855746001270, 994521975576249810⟩, ⟨3093026885592381242, 16909708896875106142, 9191689902351332536, 192118286974103755⟩, ⟨2545301077237922815, 15144706238324940883, 6113286606593174468, 372600161316484359⟩, ⟨2142773713360590483, 4755608127774394592, 14813148169732966311, 917761966614679749⟩, ⟨4228649950611283773, 11633437476481650378, 40335982213672820, 963989416626637070⟩, ⟨7391565095119442761, 5231979613403440246, 15148609598356850747, 95369680580052342⟩],
  [⟨6221242600163036024, 13151745595003222769, 1880070415953293074, 859483057557051135⟩, ⟨4057704583061373110, 330438596431033553, 11138603368324646862, 567019942240333219⟩, ⟨6808348652855723900, 16038145083514774712, 7335293401571608063, 1256860263027810296⟩, ⟨14712597649859914536, 2461131389363589307, 14971367896336061978, 440886131765627826⟩, ⟨12563821899625315748, 1397025790367362621, 11711011249975071041, 1326491445493487906⟩, ⟨7386366618870533036, 17891650149672567880, 7623078793319051970, 896259535119079804⟩, ⟨10076387373785417531, 11621404135443198278, 2342191148009104794, 1208570082728513479⟩],
  [⟨15679839989875735864, 3094159736795405193, 8433247987399569527, 598394739716746812⟩, ⟨13169926426306420693, 1494478164246339314, 1807871555080064306, 341871317105251652⟩, ⟨8871477167695700102, 7124763693791718581, 9576781928097497051, 714519781637518717⟩, ⟨5983131451216637528, 14746501237947100556, 5131581902376092495, 53578888100518755⟩, ⟨4061768962354414816, 11864639021370326188, 865372274790703007, 960248048765553610⟩, ⟨13741178490350281184, 16104064291813496481, 430569565272838614, 1002559943654640050⟩, ⟨2394748621667543278, 9724971631453415812, 4137744279709050144, 1128204720227512009⟩],
  [⟨8347131072359520901, 7051906710316929352, 16145803176151958291, 425602845445213918⟩, ⟨1777783046051939958, 9344856863579469212, 15141578180236122558, 1282494716270035254⟩, ⟨9034384578885080751, 4457232682759798992, 2752092198692805323, 133997596024339666⟩, ⟨6632806707492790657, 4419466991289176034, 10545594397744340230, 225792487504094029⟩, ⟨13666870638471858948, 6325954648727450515, 6820384268867641136, 650912658514216838⟩, ⟨18425172866543397587, 460014089142918565, 13475177727189665478, 755199790640816277⟩, ⟨17074816481639390245, 8326625026248068453, 11628221368426774047, 168403074861182097⟩],
  [⟨6496117145112017285, 8108611305258852743, 1288333658986417240, 489166257449840915⟩, ⟨5905164426314492425, 14726319284315803257, 15419119459033009106, 748785652021292365⟩, ⟨2903900515980491508, 14518787377368638193, 5737950893394728457, 1246585555966129910⟩, ⟨13545067403644787822, 12929589241462425919, 6328577959723156897, 669792805130642725⟩, ⟨10880665937604410417, 12182942785008105675, 8043148962657686879, 114751567600998309⟩, ⟨475884094757470315, 13519631230544868403, 15555278094421071668, 284046901452720062⟩, ⟨4404185810772829111, 13082485550708084688, 4458404332519456617, 747118566938719314⟩],
  [⟨9005422667436345080, 6610327294069915149, 3392047280994887983, 185928194404395622⟩, ⟨5907489245706778002, 2611521107474717810, 15424563447378789128, 1081732924695236796⟩, ⟨6936175948569238427, 16265819354303431672, 9296694820053549015, 380971488662375691⟩, ⟨11847879878992849222, 17246157629192690467, 2240336221502957918, 551120206298529047⟩, ⟨13322826606934505627, 11726197427344458839, 11800080869580456447, 426669602496174268⟩, ⟨6217036164702465819, 14690910531871435703, 13161157531336562298, 732442567722820811⟩, ⟨14882293327891629398, 9369498032959659338, 7000848696812799171, 754562041670533469⟩],
  [⟨7595387151201254327, 16626796275200533088, 2940178911825115337, 1184031511121567741⟩, ⟨9948362750111031958, 14209593175711129688, 8446364573948386189, 802006068920106393⟩, ⟨15169311970095301438, 12318244252296365506, 11639105278755798079, 84817162733084173⟩, ⟨5831579622220754273, 10846086049576885619, 15991974831220053526, 756084870377153501⟩, ⟨4538407139413953048, 3210811593774606829, 7928892177512965493, 295438458271184500⟩, ⟨16833512221632219759, 4464061448066183306, 13162091753490675863, 292236190186079508⟩, ⟨13779800725609980259, 9773765625728017659, 15074810316420391540, 950783607166623145⟩],
  [⟨15895706787288222123, 9777370406550782832, 1347824831892755594, 1241011767014366278⟩, ⟨12826978362776209042, 10633709265050784734, 17957605540213546613, 887698438045779720⟩, ⟨7324188878915493946, 6492479003127466111, 8377249725203128879, 1000161290003049779⟩, ⟨6704086117324761110, 146265122731217307, 2383903051894120264, 719647807141165334⟩, ⟨1940312057575972126, 17930067253838912265, 317360086895888872, 5748540581767140⟩, ⟨17103257683729273147, 13931874259783487325, 11872224486078756015, 956814895668207498⟩, ⟨13769500095117682353, 516850361598419166, 16964626273259476242, 769634211482580445⟩],
  [⟨3113137472185380309, 3788943308088978270, 15570984136244536866, 64143465381601420⟩, ⟨7162163846740423034, 17407158529676601980, 982523548091459495, 1241886141897586570⟩, ⟨14248266967200521181, 12810010597713281838, 15956352259342376510, 1249991327654319042⟩, ⟨14421471441198040024, 4052632755320875533, 10507979567878886533, 966126597683502788⟩, ⟨1330169793100628257, 5902370011388045841, 4268141693837804182, 504954696237745802⟩, ⟨12989224119893885561, 17234018500273188391, 10939008301878322098, 259903928118608299⟩, ⟨10430146681254844704, 16501713083418526441, 1818813698196386223, 290604987547570674⟩],
  [⟨2272958606081209500, 2462669223449072253, 9500254477224930595, 45443314528508583⟩, ⟨15776657251710579335, 14822492561927322901, 3903750765721394200, 630182332308162068⟩, ⟨12563868195165779174, 12561252953252587550, 11907364401269631108, 581676404653821486⟩, ⟨148332194159159988, 10068425626588210986, 13535393921505334097, 153553395999465163⟩, ⟨7747426768506042379, 7652171709845608793, 11069887529886935999, 60205371617013159⟩, ⟨9292570341502960523, 3236193786725371597, 8898130554136882239, 1009410450149925646⟩, ⟨12885815634665358426, 15963150787962414249, 4369817253063661209, 642948406974549063⟩],
  [⟨1380867230584918716, 16725144872260989882, 11444322500251449972, 837022230218511427⟩, ⟨1087920425360181417, 17141257576042242544, 8987292985620878561, 1110305532217600753⟩, ⟨10359964772262918650, 10077460265989495047, 17578499003187392916, 757342367774183991⟩, ⟨2779779035056260202, 2282975003625087828, 1919400866622348845, 493318954648288095⟩, ⟨15672164960009522373, 3256607523370073938, 13852207222752867333, 1244522698781289416⟩, ⟨12874545038411867774, 1217025423748364582, 75869870772488332, 1001217245879206186⟩, ⟨8523257600072604774, 8621165006673159831, 1464388999950649637, 1217963817687697670⟩],
  [⟨15922812187951378322, 4516460162368536866, 15018766830043386765, 1340613465456337965⟩, ⟨287441026936003136, 14764192345714853717, 4173276030750185119, 472111033963352598⟩, ⟨10839733167051473961, 3454260583859678864, 11304905847738494430, 650946296327920383⟩, ⟨9515448149018827481, 3488032113770392732, 10593726245432275549, 583635792309485522⟩, ⟨2742448600840811735, 6652758193289359848, 9635320418424938172, 967821689260084870⟩, ⟨9881468678921411834, 11537438085600848038, 7216253876764370660, 1304070984061260617⟩, ⟨6196769084394513175, 1271040910625745125, 11073763102896512393, 1165794523446068715⟩],
  [⟨15799597978241847363, 12818531158251383624, 6963429972659041410, 397194962489148197⟩, ⟨138391674938830183, 6888521073413350790, 13718840433311127770, 1101538822720967029⟩, ⟨12684981053383903956, 5500073381157750545, 4169486943568405011, 879134225324190092⟩, ⟨464851715795247463, 2927900015464510347, 17346267830876442053, 1137028262870600951⟩, ⟨1966072756669882436, 14267740345733608423, 3868025407329923728, 1329300268340841458⟩, ⟨12791556832852048085, 7187847328998161782, 6410129678700860221, 1141843742471101195⟩, ⟨17394082241710727109, 3925707544410201182, 15631236622778680461, 867359934041458160⟩],
  [⟨12197981561714622691, 3447558190007550222, 8731482567404865792, 504033851083789168⟩, ⟨15548011549070215821, 18176746913742005334, 6759691930131684149, 748826448544702472⟩, ⟨14426381672075599127, 6754779155763548400, 1569326308679565884, 301254674498691116⟩, ⟨1190926793578469751, 4569874070454135204, 15349066761719847213, 1143729593598143496⟩, ⟨4377698380788322951, 626231241120536954, 5782570196326664329, 794203002404066761⟩, ⟨18203023968026598600, 769509082182406304, 14347905833288757784, 849309248009120890⟩, ⟨6219667569923491560, 12993749535175636460, 9317843769426981121, 466063065647080758⟩],
  [⟨12360205003642410439, 12233377474426101645, 8749241487473360725, 771733806369229100⟩, ⟨12909744147344161535, 15270140525914393786, 958053852923168614, 1122903083941798107⟩, ⟨11512594517381251244, 7788994558197263271, 17789727628017887833, 604964920168437514⟩, ⟨11365008776320664479, 7674849678441687585, 10947191902817323894, 745598673291635479⟩, ⟨9298337976025138670, 3504219772802793091, 18423486933153538231, 674863471944898182⟩, ⟨10037370553997808960, 5643541321548796784, 3954322339884102888, 1116686823797890292⟩, ⟨9151115627925470056, 1080688967380275155, 15991630648226528878, 1130423917661403285⟩],
  [⟨16294982486276945283, 7049820508618491066, 8145571059898393342, 186002704339584638⟩, ⟨755176559839955182, 11156178401444222993, 14456074258881310686, 278477091367678088⟩, ⟨1257685548905109784, 5141440235439936072, 17862579642779035136, 330137635933850138⟩, ⟨7830781886086349569, 12605497826381107847, 6483908192271317597, 742032532267494998⟩, ⟨15889009530646425854, 4873730462912310136, 2661766248464352916, 886629163939946863⟩, ⟨12291205541312705254, 7759245016766434277, 14282726477924298523, 275206715444074183⟩, ⟨7015277851946876128, 6540146872039720132, 3413400018095950201, 488630649619127768⟩],
  [⟨8080067703614789529, 14335022802712765520, 12181558540579879368, 1181883134308686818⟩, ⟨3930610870091700987, 11870595227272460342, 5614691549969018824, 1036838548873476989⟩, ⟨15116537084696928201, 6562302783432438956, 8446888808137423003, 1165521566881319341⟩, ⟨7622363474306732593, 14018499983613194146, 5504535021523794239, 1156251508187455677⟩, ⟨18353812883604490408, 7863175561039540930, 16157508248448358210, 295160799461001215⟩, ⟨9630152100811825815, 18335618989479732132, 8847214215895375728, 938895491334142608⟩, ⟨13116080893996470839, 13627909126954009780, 15760064020863415616, 884515223942721558⟩],
  [⟨6687780439253411478, 6719196503388333019, 88771745794551678, 987619641692746386⟩, ⟨18227317062064988196, 14045861136043637767, 16184554390694852575, 168316121892514264⟩, ⟨2567020624281662578, 12408201210305429297, 15172611508502121839, 184308211509770511⟩, ⟨6504349685450813046, 6151032549024957176, 8446915662866336279, 721911887099189465⟩, ⟨3337661731072526341, 2993440831960528581, 1509729075929391927, 478329275350342603⟩, ⟨1009230922039257241, 6930789170818330480, 4189309447677808153, 116099938331986078⟩, ⟨11734050699831527761, 10637489645393719148, 526453959140559372, 879302010498683200⟩],
  [⟨4873204063755775221, 9933480403362446589, 9949453296663390065, 246028972103247826⟩, ⟨1486515864865111240, 8186666825731582288, 17298579416284146352, 75432580959795592⟩, ⟨505624159752585300, 400192717675446053, 16830576854563029465, 1083591845791403649⟩, ⟨15707645648143644435, 15104101221834649015, 2714910978190477603, 1152442812583011873⟩, ⟨13680539759561187051, 166623071797346207, 14072328976002035503, 1262049047131890020⟩, ⟨1997216355444588659, 4362151030955817495, 4119100627602964220, 86616090171999332⟩, ⟨2511307420156057573, 14546073810053310617, 2740719298105876931, 1306803605810669667⟩],
  [⟨9796594921607316066, 9046940149281062534, 3066668479453506525, 629717731494457650⟩, ⟨15245080183700001743, 17772522498139932944, 1303200707700973869, 1321448515508953860⟩, ⟨15382852889694635458, 13258286043643865801, 9129565020842704924, 647265428745294973⟩, ⟨406339679439528630, 358526789424126981, 15360185281241795369, 402771395127408535⟩, ⟨14729795014613647379, 6659603767330364601, 10382867237853880917, 983014168589450240⟩, ⟨130913533882362207, 3464497722457480940, 6174897712775413536, 362284933576221116⟩, ⟨6802705157024058052, 13442544871481896094, 13780491571272760495, 909644424511448796⟩],
  [⟨15361452699552249664, 9640740743000109947, 5568737378741199451, 962844949024683508⟩, ⟨459261181401017545, 7171449908290213843, 15871949118083492196, 158962359341824787⟩, ⟨7906547241546612427, 7911718846541029411, 14951976648354808013, 421942213347946833⟩, ⟨11183093321955941025, 11064782095852757040, 17028937525080502941, 84626144143427215⟩, ⟨15224853022182992564, 6262171785917223470, 16177655818423871790, 1014568265658824394⟩, ⟨625719919361420446, 8380808592474630812, 3431067771421433694, 687333698000967202⟩, ⟨16024186533956349632, 6397405785318083633, 15989828043790400414, 850765743467676249⟩],
  [⟨16821206357298616469, 1130392039725774709, 5626389420189454642, 1118339463429080277⟩, ⟨8638502030638568937, 14913248685358382503, 2067471807256194154, 1100154439569300281⟩, ⟨17564526714798056567, 2679133728209391057, 12485118550630518387, 962529009983964522⟩, ⟨4671481911068696338, 11211404871059653651, 4714104003967750529, 460522700989518506⟩, ⟨6601065644493764993, 6108401876661130452, 518511813649845646, 611513774682652448⟩, ⟨2861830270848819795, 16356361265808876600, 12810879004275814176, 1286972374050895235⟩, ⟨15194368129140163866, 4422109454732341537, 16494227980417936974, 290982210272018089⟩],
  [⟨17007536869668539214, 3870339684122566773, 7418389053554657334, 263511272051190454⟩, ⟨12410612082473707857, 4040398757796296521, 16094020059960359234, 939075584469470040⟩, ⟨7418236128585187557, 15691596850766474049, 4839121991874976767, 1173030423683112566⟩, ⟨5215564176166340124, 2655381196051933641, 6045374250672288630, 176416756249057657⟩, ⟨13952195320089654608, 13938861125107555897, 13572960470464709581, 247820705708880751⟩, ⟨7397318582807137181, 18043760894393149278, 14776480882092071507, 1134492376276011511⟩, ⟨10024735062566598040, 5074414902312726054, 16541770110513564624, 1319392307629355494⟩],
  [⟨17701692352398604469, 12227868835058163041, 6355645072062803626, 46662470597422118⟩, ⟨17486353498011500258, 14688387905134443671, 86673003791736603, 334193962485781999⟩, ⟨2725938978570184818, 12538279414757715369, 4423739824876634382, 990960136859773111⟩, ⟨1658418413165666717, 4481948955101880251, 2380234418157645031, 242453692938449648⟩, ⟨16462799862547279938, 15860491361132810167, 17855590817263886803, 566253932393246465⟩, ⟨7795866114233701913, 671818567137775288, 8587656269292170703, 1248608466500904131⟩, ⟨12734974453986836356, 13876952892523324606, 8958492656376686082, 1219220119207244562⟩],
  [⟨16939094048589357804, 27828887622580244, 17879324893769825916, 1323982021311509582⟩, ⟨3829148264852223810, 16344601064097516632, 17405856957400469367, 1015406940125315334⟩, ⟨2496078501178333445, 3431033003985481851, 18046940389757892591, 78803126847324668⟩, ⟨10354574228107355459, 2956204224517963071, 4281810991966937657, 773005109651151512⟩, ⟨11661373254033173032, 7617994408757678472, 3818523458153749994, 1124211529831618075⟩, ⟨5343527255304572547, 18057091451537453565, 7219465431491887651, 438777407253439449⟩, ⟨6944386246740202781, 15457528402087694028, 3684425466632772887, 516255567451219667⟩],
  [⟨11265451120049686448, 17733431402661201252, 10181100791013355567, 1222168459125423207⟩, ⟨16541130910067039592, 8550248424255720611, 5388592089365012797, 401807388479450663⟩, ⟨15535862948076515909, 14246335147027067446, 3440553300570031637, 1140798916603065405⟩, ⟨181454369079184993, 10259998444066142751, 13378833995981646023, 1233479771041134216⟩, ⟨16855179079358889281, 15202871199402424660, 10704979988227736970, 1092640973189828568⟩, ⟨8641652447153871125, 14767053670343766852, 14349039701716536407, 776309354634057048⟩, ⟨16709348381005515895, 522436120289473263, 2848448538858947951, 930729981926185853⟩]]

/-- `w_hat_collection`, poseidon377/src/params/rate_7.rs:5415-6781 -/
def rate7_wHatCollection : List (List Limbs) := [
  [⟨5469465372454405746, 11693688927749785195, 9284229770381589387, 263916402201309764⟩, ⟨8025142443496737775, 1611073224873590596, 1595200312703520851, 268362793599128279⟩, ⟨2646197433325367530, 3327161674116363870, 17523969835882673765, 1224872920276084181⟩, ⟨3531022552160069605, 1044916798369741293, 13484540382795405112, 975392012720575741⟩, ⟨3532672362950129848, 13232567668052949956, 3949082925084889589, 1169300250855119928⟩, ⟨17405909644706202533, 9068195655028130334, 4993737853698066182, 760630245260613434⟩, ⟨10760096219897954109, 15819961273994906871, 12000866060961275644, 494051747708222359⟩],
  [⟨6362811837083607038, 10112120774028974554, 18223478424715278594, 334017453759956923⟩, ⟨9425287269899366801, 11550170751949156528, 13535057945185910331, 481928711879823346⟩, ⟨17472259370242997056, 5455690506444253075, 8901482994501262481, 216965978934341710⟩, ⟨6461374808168440859, 2522061882145442234, 15960549034903032234, 172640120507478914⟩, ⟨15948529219279584260, 15982605346874278694, 6269535640895470052, 598935737770408401⟩, ⟨6387843144535167444, 3817387412721348785, 8453759171668596794, 249153266075439378⟩, ⟨12733356128673768262, 1719659461140646111, 6773786044742649854, 1187765335723023490⟩],
  [⟨13381096107094038201, 17813208526318089114, 18335536409132991824, 339697501389957039⟩, ⟨17742161265183589279, 16788867255988109560, 14412857631192854758, 241525962952821929⟩, ⟨3132656462108501803, 7337059831094147936, 10405916960575845901, 228104793330536468⟩, ⟨4603265731852134279, 5399214122633296191, 8344043762552329652, 985455486033881462⟩, ⟨14183899592653698860, 2177269342994828180, 10884678024220653483, 217447665355687992⟩, ⟨11323936221359713158, 3341391736943984982, 17508560691141182274, 13239895022264913⟩, ⟨13840945524485292215, 9974520753931283863, 4195523720400973895, 762227204403897594⟩],
  [⟨4114179516470424298, 6425976053490693203, 12882959905974456947, 110103675307258331⟩, ⟨15116210321604905525, 4118549106744296512, 3828886987178664227, 25697701772294022⟩, ⟨17140438063675080897, 14878172760305139023, 16025135762152951507, 855206538655380046⟩, ⟨10902652921411376407, 298732053043081440, 3474200546567636561, 73249755607734230⟩, ⟨10553805817393106605, 11201074828085121396, 245273431044608348, 1118444153373328294⟩, ⟨10914295885365195477, 9781502968861552189, 3016024785085649390, 1070566622248381309⟩, ⟨17207023773498274582, 16270409020606599297, 15615674408609362833, 496415543408113636⟩],
  [⟨12908589501999937487, 8065526495594728145, 14801981742319743709, 275346991162297736⟩, ⟨17950935244956210974, 2150016307817314195, 16459867286579284659, 1042519399748946084⟩, ⟨17900103050404502082, 14452186078281849672, 6480606341801761206, 622530813027865777⟩, ⟨6659043465579778142, 5257478652828025077, 4476708827204863480, 16044674601944326⟩, ⟨12982211781831995222, 12049124325752315255, 8705698258631367529, 1297634030024262944⟩, ⟨6491213021781179190, 6621864740150572837, 16900492784527502379, 1222186981051134852⟩, ⟨10406390218848689011, 15713870170786523261, 10757974052401463167, 1094311561986616580⟩],
  [⟨7587047764889575280, 11453570134345482138, 6685160859155170229, 1173043895898907255⟩, ⟨16754290437895255736, 9337309604462582506, 12206937090776739366, 420058562194519310⟩, ⟨6762379518159147694, 8708770658919355547, 10850018038610162125, 1008085848049838570⟩, ⟨13364112208667503342, 15694121621742726571, 10880035211673377855, 373642360429768529⟩, ⟨2270999049018193688, 1120874468185376800, 411758025544146420, 1286339318101647584⟩, ⟨6487825500972649335, 16454995602857338429, 5467561124775466727, 878704090415683008⟩, ⟨1065155450424764553, 12374494253224172277, 8660000041795033471, 1111585064452242609⟩],
  [⟨13207693125029693018, 4845337225517968099, 6777888238547968314, 1213784418907181141⟩, ⟨8840475980926169942, 2439983533649319439, 10722568534952104178, 237040204857642763⟩, ⟨12845192406743600306, 2989732167685602396, 9737375858921653666, 1230697363927166390⟩, ⟨17347381872588777362, 13861116144606039805, 13092379011701123650, 764219716687899335⟩, ⟨17560394342108123527, 2417597080550067173, 4892519055479234860, 41147728874013821⟩, ⟨16525591378009204013, 15575464991459515509, 8422968616365174468, 411199147172891757⟩, ⟨2381387149440902461, 5412036122050682991, 13528312040883572709, 906698787086289152⟩],
  [⟨3906793572005745013, 18158346260651031144, 13885155522309058406, 81682927312739464⟩, ⟨11556601788249882111, 16294603434168644341, 3233905800589936432, 205935519984731⟩, ⟨15060956636956141748, 14545891040349678052, 11359264221189720465, 356824974507480378⟩, ⟨13651037643855144634, 9057349283398801990, 11128939939991098829, 339192257850626331⟩, ⟨13297032679166497156, 9615759066125111838, 17802636590285232697, 561508163130847528⟩, ⟨8397658199708546603, 7714753189153428100, 7790178778963243461, 185139104215370464⟩, ⟨2180790926999539040, 13412426570621087300, 11981287146222961423, 639288905678439923⟩],
  [⟨14052035671409641250, 13059764049401289819, 11971569074865081653, 1150074447408905206⟩, ⟨9430708294750522894, 10157980309621419039, 15263989057722108309, 986177323832836397⟩, ⟨16901845294627087710, 3489277370587647922, 16697435307791475526, 77304496269930872⟩, ⟨11082416581543669906, 10393162674600623371, 3285406343096341615, 1301030845466123760⟩, ⟨18004954247480805141, 5840089398123238351, 10933632362911021710, 691842568234993272⟩, ⟨17084441454288473640, 2235549442526480819, 4281084601663253516, 854500520628530615⟩, ⟨15995978179451110635, 5254996480963543781, 12228168137501357375, 768298814850744789⟩],
  [⟨14897923782972976882, 14769556083418318998, 1736582590048574781, 834637190815349022⟩, ⟨15951362473351174286, 7550580364442366310, 1142582367377712360, 493901798774432186⟩, ⟨6843713892592087790, 17187186375181169829, 2346758743517403254, 440860120126405528⟩, ⟨16233685001159101924, 3591097020136681981, 3308092724991209243, 753631765436882275⟩, ⟨12817371395153180792, 11781447572225130349, 6186298687319142696, 3684689165947228⟩, ⟨373243522249877820, 14362378102133706173, 11334127490376039043, 1029386563565171794⟩, ⟨3320051586177558481, 3693313581776176503, 4243258718797155237, 280296683627599109⟩],
  [⟨15777714567664176983, 13315644392893971158, 17663595314793470728, 277994346352588461⟩, ⟨10698748229571229513, 4993514528007275782, 9851470184989070944, 486473547501834583⟩, ⟨15731541659238915573, 10580160097474154328, 14072730437229004460, 541485168141790138⟩, ⟨3621838382408245781, 5140837518507686846, 692462686779552266, 1071238232671920069⟩, ⟨16903035807706989718, 16402342976729397848, 6638418596135594138, 766006849863633370⟩, ⟨3391835462656069558, 8478240763735883610, 6583767175704093831, 605702159954668519⟩, ⟨13153440956937332187, 8778062398439311613, 14496687227146002795, 1184865635693926839⟩],
  [⟨5492025723621450587, 4802310335533070821, 5103778166610184416, 1237824309223979752⟩, ⟨13230781860208750726, 13444089818089484139, 17921412814723519524, 1222680843018701540⟩, ⟨6469994574006187252, 9454411230540098121, 347262197325431191, 486705196263913773⟩, ⟨3947674970632735265, 2916300977963946491, 6881904307166023017, 457112286806257099⟩, ⟨8734203063029639947, 9235030054635977911, 17117573327238268274, 1336943205846791314⟩, ⟨14915061407614767729, 5343187615398945512, 5552119928369165945, 230612833250200287⟩, ⟨15343760251811669074, 11849716817931855852, 12235003752862513196, 1092174591577707855⟩],
  [⟨16055670419025007879, 10167255563356161134, 5873677174484181331, 1119183194058634412⟩, ⟨6545073505115712765, 12208880957985144024, 2413898051352165752, 200177087583496979⟩, ⟨10675772825457541870, 13221200307080776964, 8360161479127911800, 166239764386669819⟩, ⟨2006419824145230446, 1298290087846863922, 11954724771700273308, 1258575857924774921⟩, ⟨5182647705377916601, 12490693483304324120, 16433633239279713593, 95750642123415707⟩, ⟨95333990082317168, 17157473840728451869, 10012571168547117601, 89162384671094023⟩, ⟨4909644498074356100, 4736187679400324044, 5882012018493447769, 1092049061252631253⟩],
  [⟨7311109856180655396, 11772066066061778775, 4758323204662324777, 424401521788398695⟩, ⟨10327551942056000767, 7896891757351259654, 5415141459879741043, 970729526627356745⟩, ⟨16598021919990022911, 4748198554306289116, 17393884082489388120, 1042289367721564407⟩, ⟨6071815438135838764, 6957160250256416369, 5727172448350823478, 363080876294209892⟩, ⟨9289142807381535883, 17159982138314567248, 17888157697874972247, 525936327365438813⟩, ⟨13845673834923418042, 3021171551531346231, 6196055431827427575, 879039969582851499⟩, ⟨5868202154697212122, 13487005442942356371, 16163257120298149093, 656445568990681140⟩],
  [⟨6021369790491535593, 2415914828808962567, 8804789562076458409, 141257607088107152⟩, ⟨8888538666372726960, 417693810472292690, 6625260792856360214, 48639855527887045⟩, ⟨6477686476345016713, 5099365493188187874, 9710843539546247353, 356644031678310872⟩, ⟨514050899336931730, 1305432265166896997, 3022676376566559511, 992533360610514607⟩, ⟨3586775418789355531, 9516764397514990497, 13077440505677103078, 1193605133897764836⟩, ⟨11915336245727353796, 3787026284924392313, 9686187959466848805, 331336880299973516⟩, ⟨13079652964588155522, 3686330961737298646, 12410090506639101095, 1254304946836077906⟩],
  [⟨14841602521644800285, 9707581858559806753, 8194272850889842673, 1175777861699186223⟩, ⟨8340457880130547197, 17733479127111148650, 9935013927746385786, 727641041410784864⟩, ⟨15762625424586722564, 3435382265052399320, 8159926067386473340, 197998409655179296⟩, ⟨8605915918798970675, 13692084072552856212, 4328810091072359910, 868588572376767645⟩, ⟨1361081942051675201, 15249716130118278159, 2121941051566676057, 559576702023081922⟩, ⟨10752810451997705936, 2862464874834320603, 10309748098106940300, 1304236557076849780⟩, ⟨2835871431608154484, 1749514314752450621, 2725234542965358215, 1201694229063035252⟩],
  [⟨1073940549267563537, 6847045449574399581, 17756819714770896582, 1117463338790312145⟩, ⟨12704094153865092665, 8539050408973245584, 17734788789994913591, 929238621728331350⟩, ⟨10082772236499648827, 15108304350645714070, 3086595294879967436, 1200387991311725607⟩, ⟨5047622605931054175, 7557906648527048263, 9624095609160422424, 45506591031030909⟩, ⟨6965550813182250949, 565066047981282920, 13462964114732145360, 980356066902323608⟩, ⟨15558299170349086309, 1286346204199469533, 3574858446200038472, 851991524979889708⟩, ⟨7325586067383897002, 10233684635542340023, 17557031856919477181, 132029230490414274⟩],
  [⟨7217923862445368663, 3794612520606418012, 8670181285195573375, 240971390392704685⟩, ⟨537441915444801171, 3014981172602304732, 1479722163959615169, 155749091741220885⟩, ⟨13062793399299583557, 1159027774347651884, 2336679478816355142, 270200510125259051⟩, ⟨3831694067573543757, 10964370664526245902, 4087998121879874921, 905965084930019006⟩, ⟨13194259065052094927, 388722439697642959, 178624285496351497, 578824842066706531⟩, ⟨17948259725763227950, 9014484167981796209, 6107081279184176814, 69534426400404264⟩, ⟨7978550262967360739, 7491565367832202367, 4365729291374404994, 1335365781615388178⟩],
  [⟨10669459440663038789, 6552676677342008487, 13316372054996453680, 550925049999738916⟩, ⟨4419333495078684322, 6927538080001000341, 2225108594758156053, 1079053614093719540⟩, ⟨1972675078636948291, 12089663092664065043, 17766574022138625521, 121432615644490431⟩, ⟨1053520141057629369, 10770912132989963882, 1148187868111152786, 707938827427743885⟩, ⟨3260322753636284964, 10729835216415125135, 716444025392599556, 690504199610876560⟩, ⟨6934370135811844333, 6301658833825444793, 4848235658034124485, 472091301484588447⟩, ⟨9777643377073268806, 791842489813847254, 12448150674843197239, 458910758561278370⟩],
  [⟨15803810666230694733, 17547487450377911929, 11906139405746854533, 825285431509255503⟩, ⟨16600353337473024459, 1886864376737549006, 616311009164692973, 639902607392049032⟩, ⟨1680268521087434801, 1091097160854707765, 18087803601592847532, 572438372434779394⟩, ⟨13425154509660903739, 7155042440442144058, 5484293510771639701, 440694050533320954⟩, ⟨18374411341880395201, 14499066397809595914, 13606711309161552316, 988627169135416549⟩, ⟨2227485226860398923, 6037771840516072237, 10092335873046301438, 263890669231622026⟩, ⟨16396442279804673220, 11758563075897600330, 14728620288909029404, 1009629620490761817⟩],
  [⟨17746049445618651584, 15474250106095074477, 6808865525843107141, 252069263355480366⟩, ⟨10094119795803932244, 10978354614679659751, 7451382830965148493, 1131617137883762978⟩, ⟨16463020271793267367, 16484453755363327531, 16299428051085732734, 1215317962997421603⟩, ⟨222141886324808295, 13928396678279854231, 10143359980064533818, 815662865945589973⟩, ⟨12231656940181472813, 6572412520702222123, 12613052303172694748, 266113525618574574⟩, ⟨988110300489242272, 2246797931487708434, 10572926100714461647, 903118853801541805⟩, ⟨530795899436597525, 8521163943052335338, 8151289800410686217, 36252124276088895⟩],
  [⟨15950738796712300438, 5211784799364900458, 10872161777257884476, 622500837165264302⟩, ⟨1796299668914971469, 10069069742410689124, 17398930418864211639, 571074796095573997⟩, ⟨17415629526903541572, 60522099572337001, 7357276421993594658, 67139681069623750⟩, ⟨3150476614427182634, 11400695529363767640, 9974085938634932190, 201799321821634924⟩, ⟨17211147489720667761, 15454125189814636772, 1785683860014593630, 1234545901167080662⟩, ⟨12917754021603623789, 10145571812631521550, 5237021007548635344, 113519696768852825⟩, ⟨15503258828146475946, 914788767927389955, 8850539145480636682, 452504293017031100⟩],
  [⟨3745554364046936255, 4597306622888789154, 5979651250338667136, 1238385628454513051⟩, ⟨3776630884323931547, 3549782146440747750, 5508785071859620867, 701959603932551327⟩, ⟨15669417982403128442, 4987063011318496848, 2675129774208819610, 752856218864954922⟩, ⟨12384169795306075140, 13266521557806758758, 8976316392650036414, 779369456063978984⟩, ⟨7882432423342926513, 17205292058596297059, 11479846445566224721, 1260089851413577942⟩, ⟨14020835325904272518, 10352766579517264043, 15417820050597494655, 621361945178146722⟩, ⟨17051687952810193326, 6871472877919148363, 3489400199188897362, 687766677359196782⟩],
  [⟨17382705588788402853, 4598916697035859633, 4518832565581736311, 653080619696360531⟩, ⟨2250500707327888710, 8472537755265510597, 8234912680399854173, 435433220178846885⟩, ⟨11580178681277497490, 5498607256285409706, 4135785859002967214, 1124489661838811902⟩, ⟨17779714097123614458, 8699423459123996923, 15631484148488778752, 909516986337557641⟩, ⟨18163751795979980990, 11867922209368440763, 10515761459427034219, 1332994349752029313⟩, ⟨6467500727988715108, 9306282235622577642, 13541102366651570877, 416775728642319774⟩, ⟨10383099790322168017, 17058343682036470720, 16556281441888606360, 1108176927190266030⟩],
  [⟨8622953880956768188, 7398970229585501839, 3084527402086859984, 1314489003639612227⟩, ⟨2647974631426734642, 3924418247812102940, 4184932287519868312, 1194114797716949792⟩, ⟨14598747211696490139, 10879316167117011549, 9287974170985802960, 731429090606059611⟩, ⟨9444556880219125709, 5586056795682328427, 7367116120983861589, 588219877692556070⟩, ⟨10966009764315859760, 10742608081271307349, 3709772539537310986, 497532886403996414⟩, ⟨15416260817024711436, 431667905910500746, 1387964135713748516, 918060216721194080⟩, ⟨11657403806820742348, 10510065601598889238, 8349835292055724063, 502241567933397208⟩],
  [⟨5125027997144123095, 7303165910753964935, 10691796975927186405, 1054799562052499765⟩, ⟨3677058682136778866, 2112392306281972958, 6200265695478657913, 720439016775781556⟩, ⟨8272146025997512256, 10341698166702554611, 15851101317909170235, 452521866559100336⟩, ⟨9968119379746477391, 13931547738079661500, 12809160964499846690, 770440521239403115⟩, ⟨11434415940462413800, 16684667769948280834, 17418898698438354203, 1004769570334088081⟩, ⟨3258653721799542419, 3871032496675885535, 15086212796812657551, 548348409520277973⟩, ⟨9315341100800814485, 16973311177794380607, 9399876472392037546, 371744665007363788⟩],
  [⟨13784204593688045203, 987916117600213001, 10766183396659311558, 616603627600417345⟩, ⟨16045652418239566399, 8490486261587787544, 17701136459350400996, 200715104605533295⟩, ⟨16284971980816740279, 8206294557799882679, 2790028614836001157, 1230396046687758171⟩, ⟨9870167375285365220, 7246310481239931900, 17367559916410875637, 828013539220163509⟩, ⟨16072962173730053757, 4193938980038706222, 11164976873168367038, 230857852443905890⟩, ⟨7523323272036182261, 7860098358273104019, 14378442365280097332, 1330897076351403427⟩, ⟨5166916295217303780, 12258429519770930476, 7573997247042435361, 682178487313104306⟩],
  [⟨2043764091903620445, 4485903403091863087, 7882707843266586726, 32588602135411527⟩, ⟨15445407966754968040, 18357001192960460653, 4704086230082948769, 786939246434391312⟩, ⟨16117366278228333427, 18271129267524238221, 10279609063883049289, 1039698878929789014⟩, ⟨7187518414442758799, 1779717612181090682, 11702580549115117112, 938810897647106356⟩, ⟨17722222577775244941, 9996465098177475040, 6523413930963943566, 594985722442752339⟩, ⟨14942503613037167587, 18043065733746265056, 18350946329946766564, 456482704506596726⟩, ⟨413913659191909137, 6804960474770818549, 11211569852612831192, 29172099643213194⟩],
  [⟨12244020429757927595, 7878431481226438368, 15736494002689538032, 952552586365680365⟩, ⟨6811639335636941408, 13087253934833450042, 14243138544038514009, 802500736974958878⟩, ⟨5119841013779673124, 924763452388520667, 13728889174508658116, 1253763325687067827⟩, ⟨15043507624384025219, 14829641103772380163, 3009461704678867396, 937642236989310683⟩, ⟨11671642017952121222, 16541053200478701290, 1980039776401781944, 588963913112990120⟩, ⟨10584858696775764162, 11016739814752144940, 16324314276275577748, 654922621317102495⟩, ⟨3244897877015736117, 11237789704802235882, 15022173147815144257, 40109243059779922⟩],
  [⟨13421818826894964525, 6843121314819036302, 177656756133214759, 1219229288475674852⟩, ⟨6718699512784917601, 586674041776306822, 18334677892276409595, 789222582574373919⟩, ⟨2284827956975526833, 6582209151387402444, 16582912253436322211, 341803586231976372⟩, ⟨7256396544134998118, 8214951682602116321, 3245431556959173874, 1245025275513704302⟩, ⟨15432965983836887543, 14720892157109837025, 15495565877696769481, 28040874075986580⟩, ⟨2845048156588876954, 8511864041625766030, 12227720668782503297, 751125685338714507⟩, ⟨16400929974316258476, 14955948068318960184, 10179371694614714547, 1203413977422071153⟩],
  [⟨6945749691605470013, 11814685140591736549, 9661986044853389934, 549110123010799116⟩, ⟨10314852142802128718, 16931011931436831749, 6272554436628472312, 613946066674111963⟩, ⟨7885885393747543748, 6205273416854026781, 3045614234898978712, 325443134576651832⟩, ⟨16340716059032367665, 13900104810468791197, 13840116352417324181, 807825755702914983⟩, ⟨11307065830129329386, 17314979792657924564, 1031027443933101440, 670942943796932032⟩, ⟨16427383528817659047, 269318770779983782, 12646967434416881049, 792232402464509209⟩, ⟨5305513183378836911, 3912518176481377699, 15813014949092997837, 717786010393961950⟩]]

/-- `optimized_arc`, poseidon377/src/params/rate_7.rs:6782-7607 -/
def rate7_optimizedArc : List Limbs := [
  ⟨17670646277747935280, 16706444459999957760, 7654997937391160943, 659194013361630234⟩,
  ⟨9306410324956668761, 11918867663968452855, 16159669320449336406, 1027263653273380654⟩,
  ⟨10424544810878645940, 11533042162917906716, 11405431418950019185, 1181592306684207657⟩,
  ⟨15511314950168773025, 2706584092620486610, 12589344906057924987, 198949415522711747⟩,
  ⟨6463242934034011456, 4480775049700236083, 1147244402884869561, 251099301522684222⟩,
  ⟨6076653156556680739, 6058362204127962922, 2609006430585927072, 1274277644859784421⟩,
  ⟨4034147285618545471, 16309046946281719379, 11732506942908882170, 1141734761043516350⟩,
  ⟨15181402120606708665, 769117698742393942, 8000709366545785093, 128042919054960870⟩,
  ⟨1723632755773767909, 7425611528820224114, 3846361608213771012, 1317157014229771878⟩,
  ⟨1180004570926588292, 9835115993104089813, 255514544102365106, 370024046994873563⟩,
  ⟨16507101987459533719, 15603514395660572922, 14849362947260167652, 1094669615299361663⟩,
  ⟨1641419564627940104, 1734977130266781622, 2359844858057393580, 88569664018692634⟩,
  ⟨16267328831985402574, 4504129177123355587, 2430336937000039615, 182724946762968945⟩,
  ⟨17793535158928999608, 5634031392654154747, 10364337635238532583, 1179994829791766723⟩,
  ⟨145700301814233551, 7743364595931833861, 13600389751414362190, 60896176710147956⟩,
  ⟨17934232373820563709, 6533845630243602776, 15324676632824344806, 193078344538210235⟩,
  ⟨3358859423299088468, 11840854300859333122, 8971776175135254558, 1017237487419914281⟩,
  ⟨16328481477177681368, 1582997519876787207, 5731557971602616313, 498420306800783215⟩,
  ⟨12526989383108933614, 11731194362815364383, 12171285115754354694, 1149426086446852474⟩,
  ⟨809732533742229508, 9195963923014534752, 11886583635578374853, 1292532069463172705⟩,
  ⟨15459398930996981001, 17972537529111616674, 6256384561719931081, 1099908904421687269⟩,
  ⟨6194631511262826563, 5980361634035332899, 6132585703186883039, 1343152289862207638⟩,
  ⟨13704532277655419198, 9493963458736770267, 12653804519172949169, 218428805830292650⟩,
  ⟨8013496787819495990, 18081394694809078101, 14689354188530395484, 215594972753885108⟩,
  ⟨1765918642197202432, 14609627278749496598, 17838479232731490790, 483435431183692300⟩,
  ⟨16887594024800193480, 1328476430727273505, 17409984215868190656, 1068059229250495642⟩,
  ⟨15487315671093445122, 4028755842123792652, 14118515559434131307, 600004660835889583⟩,
  ⟨13620558349664282044, 9072735252525972202, 312787852320488038, 47231029883010665⟩,
  ⟨9895950479699930991, 1320083262020086701, 9381389112858508819, 928504768072893822⟩,
  ⟨10747871248019763953, 4479404654791651748, 11550770912037988700, 438216942461032792⟩,
  ⟨18385142532667962947, 12272398000439779637, 7461987138462771945, 558726769125714997⟩,
  ⟨14139485618053732983, 8348792317702713313, 367233286875102863, 186067690854023043⟩,
  ⟨9041249832633195933, 456527929350696070, 3136123267563166118, 862425036609816636⟩,
  ⟨15124489565605096262, 9591776999407651202, 9949743867591863836, 379301809986101293⟩,
  ⟨7936212225265692567, 5167873242552786141, 15086007892632579186, 34123317109097916⟩,
  ⟨11979204740795107684, 9025639229793397244, 5413420333413553932, 863248811490344887⟩,
  ⟨9695363700834200933, 8045139581671731368, 11369126945536873679, 469549910005852030⟩,
  ⟨16001389245048329705, 14343919283544642008, 8770282828186128872, 609282374273682689⟩,
  ⟨3823216797063303082, 1094417965873836739, 128140664081656267, 505393735803371332⟩,
  ⟨11607694328136514560, 15466463320091898450, 1284330480161723488, 523170093647820661⟩,
  ⟨6591976781647884526, 13155313999173994351, 5534892153549946238, 596288575025257402⟩,
  ⟨0, 0, 0, 0⟩,
  ⟨0, 0, 0, 0⟩,
  ⟨0, 0, 0, 0⟩,
  ⟨0, 0, 0, 0⟩,
  ⟨0, 0, 0, 0⟩,
  ⟨0, 0, 0, 0⟩,
  ⟨0, 0, 0, 0⟩,
  ⟨11245287468508932221, 6475072057356916286, 8955917100198612964, 906270931915685321⟩,
  ⟨0, 0, 0, 0⟩,
  ⟨0, 0, 0, 0⟩,
  ⟨0, 0, 0, 0⟩,
  ⟨0, 0, 0, 0⟩,
  ⟨0, 0, 0, 0⟩,
  ⟨0, 0, 0, 0⟩,
  ⟨0, 0, 0, 0⟩,
  ⟨15725649958168108419, 4885330408482380508, 6484207300414290657, 1056573086606426860⟩,
  ⟨0, 0, 0, 0⟩,
  ⟨0, 0, 0, 0⟩,
  ⟨0, 0, 0, 0⟩,
  ⟨0, 0, 0, 0⟩,
  ⟨0, 0, 0, 0⟩,
  ⟨0, 0, 0, 0⟩,
  ⟨0, 0, 0, 0⟩,
  ⟨16437212199268506264, 15424576221688158299, 13027006101536779850, 608117920425829987⟩,
  ⟨0, 0, 0, 0⟩,
  ⟨0, 0, 0, 0⟩,
  ⟨0, 0, 0, 0⟩,
  ⟨0, 0, 0, 0⟩,
  ⟨0, 0, 0, 0⟩,
  ⟨0, 0, 0, 0⟩,
  ⟨0, 0, 0, 0⟩,
  ⟨17697959731033747413, 881277620659586097, 12999020138550792084, 218994748484938916⟩,
  ⟨0, 0, 0, 0⟩,
  ⟨0, 0, 0, 0⟩,
  ⟨0, 0, 0, 0⟩,
  ⟨0, 0, 0, 0⟩,
  ⟨0, 0, 0, 0⟩,
  ⟨0, 0, 0, 0⟩,
  ⟨0, 0, 0, 0⟩,
  ⟨12187347033384567067, 17834331425991885966, 8111171543195993305, 1237278747760332198⟩,
  ⟨0, 0, 0, 0⟩,
  ⟨0, 0, 0, 0⟩,
  ⟨0, 0, 0, 0⟩,
  ⟨0, 0, 0, 0⟩,
  ⟨0, 0, 0, 0⟩,
  ⟨0, 0, 0, 0⟩,
  ⟨0, 0, 0, 0⟩,
  ⟨11540996079264122621, 2083205448185058166, 346303233664255773, 67570065514985214⟩,
  ⟨0, 0, 0, 0⟩,
  ⟨0, 0, 0, 0⟩,
  ⟨0, 0, 0, 0⟩,
  ⟨0, 0, 0, 0⟩,
  ⟨0, 0, 0, 0⟩,
  ⟨0, 0, 0, 0⟩,
  ⟨0, 0, 0, 0⟩,
  ⟨10393932313960189738, 17658417030509504989, 4494310414388827903, 1083916009420136201⟩,
  ⟨0, 0, 0, 0⟩,
  ⟨0, 0, 0, 0⟩,
  ⟨0, 0, 0, 0⟩,
  ⟨0, 0, 0, 0⟩,
  ⟨0, 0, 0, 0⟩,
  ⟨0, 0, 0, 0⟩,
  ⟨0, 0, 0, 0⟩,
  ⟨2630959439345449795, 1305013099304121044, 14958893064556663587, 502133670161114876⟩,
  ⟨0, 0, 0, 0⟩,
  ⟨0, 0, 0, 0⟩,
  ⟨0, 0, 0, 0⟩,
  ⟨0, 0, 0, 0⟩,
  ⟨0, 0, 0, 0⟩,
  ⟨0, 0, 0, 0⟩,
  ⟨0, 0, 0, 0⟩,
  ⟨13496177055604370316, 12107925075218853848, 10893831346139387200, 735686689798442157⟩,
  ⟨0, 0, 0, 0⟩,
  ⟨0, 0, 0, 0⟩,
  ⟨0, 0, 0, 0⟩,
  ⟨0, 0, 0, 0⟩,
  ⟨0, 0, 0, 0⟩,
  ⟨0, 0, 0, 0⟩,
  ⟨0, 0, 0, 0⟩,
  ⟨12364352345596204590, 12473718848164928984, 2425158662567034925, 904357473540167435⟩,
  ⟨0, 0, 0, 0⟩,
  ⟨0, 0, 0, 0⟩,
  ⟨0, 0, 0, 0⟩,
  ⟨0, 0, 0, 0⟩,
  ⟨0, 0, 0, 0⟩,
  ⟨0, 0, 0, 0⟩,
  ⟨0, 0, 0, 0⟩,
  ⟨14250114029266561642, 9657963390342822389, 16617255202449702017, 52229193358824331⟩,
  ⟨0, 0, 0, 0⟩,
  ⟨0, 0, 0, 0⟩,
  ⟨0, 0, 0, 0⟩,
  ⟨0, 0, 0, 0⟩,
  ⟨0, 0, 0, 0⟩,
  ⟨0, 0, 0, 0⟩,
  ⟨0, 0, 0, 0⟩,
  ⟨3393942568576243306, 15201405507578251139, 6434177138638406256, 116816845492109945⟩,
  ⟨0, 0, 0, 0⟩,
  ⟨0, 0, 0, 0⟩,
  ⟨0, 0, 0, 0⟩,
  ⟨0, 0, 0, 0⟩,
  ⟨0, 0, 0, 0⟩,
  ⟨0, 0, 0, 0⟩,
  ⟨0, 0, 0, 0⟩,
  ⟨14360127524315233155, 4631991403443744392, 10826720762323261633, 1154614674523717146⟩,
  ⟨0, 0, 0, 0⟩,
  ⟨0, 0, 0, 0⟩,
  ⟨0, 0, 0, 0⟩,
  ⟨0, 0, 0, 0⟩,
  ⟨0, 0, 0, 0⟩,
  ⟨0, 0, 0, 0⟩,
  ⟨0, 0, 0, 0⟩,
  ⟨14829610837565210361, 7693159893394777397, 13277623225200387185, 263905793180518944⟩,
  ⟨0, 0, 0, 0⟩,
  ⟨0, 0, 0, 0⟩,
  ⟨0, 0, 0, 0⟩,
  ⟨0, 0, 0, 0⟩,
  ⟨0, 0, 0, 0⟩,
  ⟨0, 0, 0, 0⟩,
  ⟨0, 0, 0, 0⟩,
  ⟨4366690825327685189, 15770582084981330795, 9277162666554299542, 1073180600510589318⟩,
  ⟨0, 0, 0, 0⟩,
  ⟨0, 0, 0, 0⟩,
  ⟨0, 0, 0, 0⟩,
  ⟨0, 0, 0, 0⟩,
  ⟨0, 0, 0, 0⟩,
  ⟨0, 0, 0, 0⟩,
  ⟨0, 0, 0, 0⟩,
  ⟨16303997479448678802, 7666294877889688289, 2209941188570371640, 1162514781528013202⟩,
  ⟨0, 0, 0, 0⟩,
  ⟨0, 0, 0, 0⟩,
  ⟨0, 0, 0, 0⟩,
  ⟨0, 0, 0, 0⟩,
  ⟨0, 0, 0, 0⟩,
  ⟨0, 0, 0, 0⟩,
  ⟨0, 0, 0, 0⟩,
  ⟨1444309609555002006, 10573827461364748619, 2213854418060563275, 401298293463815465⟩,
  ⟨0, 0, 0, 0⟩,
  ⟨0, 0, 0, 0⟩,
  ⟨0, 0, 0, 0⟩,
  ⟨0, 0, 0, 0⟩,
  ⟨0, 0, 0, 0⟩,
  ⟨0, 0, 0, 0⟩,
  ⟨0, 0, 0, 0⟩,
  ⟨13603143649902644173, 267673648604347469, 14770735498081352270, 897064240488864979⟩,
  ⟨0, 0, 0, 0⟩,
  ⟨0, 0, 0, 0⟩,
  ⟨0, 0, 0, 0⟩,
  ⟨0, 0, 0, 0⟩,
  ⟨0, 0, 0, 0⟩,
  ⟨0, 0, 0, 0⟩,
  ⟨0, 0, 0, 0⟩,
  ⟨8455439882916778200, 7244379144226653693, 4901050804550540073, 742531378918583129⟩,
  ⟨0, 0, 0, 0⟩,
  ⟨0, 0, 0, 0⟩,
  ⟨0, 0, 0, 0⟩,
  ⟨0, 0, 0, 0⟩,
  ⟨0, 0, 0, 0⟩,
  ⟨0, 0, 0, 0⟩,
  ⟨0, 0, 0, 0⟩,
  ⟨9638569098999723413, 8668710516732565855, 12439587172429553092, 769864205315111320⟩,
  ⟨0, 0, 0, 0⟩,
  ⟨0, 0, 0, 0⟩,
  ⟨0, 0, 0, 0⟩,
  ⟨0, 0, 0, 0⟩,
  ⟨0, 0, 0, 0⟩,
  ⟨0, 0, 0, 0⟩,
  ⟨0, 0, 0, 0⟩,
  ⟨10577866480500504509, 15180092538013446632, 5047010252898418108, 950851917894966177⟩,
  ⟨0, 0, 0, 0⟩,
  ⟨0, 0, 0, 0⟩,
  ⟨0, 0, 0, 0⟩,
  ⟨0, 0, 0, 0⟩,
  ⟨0, 0, 0, 0⟩,
  ⟨0, 0, 0, 0⟩,
  ⟨0, 0, 0, 0⟩,
  ⟨3189260863075829869, 10864458126965265163, 3908173847970795616, 372196369105917792⟩,
  ⟨0, 0, 0, 0⟩,
  ⟨0, 0, 0, 0⟩,
  ⟨0, 0, 0, 0⟩,
  ⟨0, 0, 0, 0⟩,
  ⟨0, 0, 0, 0⟩,
  ⟨0, 0, 0, 0⟩,
  ⟨0, 0, 0, 0⟩,
  ⟨2051981355439501951, 5174689290614735930, 13076787589476369050, 248791600711156417⟩,
  ⟨0, 0, 0, 0⟩,
  ⟨0, 0, 0, 0⟩,
  ⟨0, 0, 0, 0⟩,
  ⟨0, 0, 0, 0⟩,
  ⟨0, 0, 0, 0⟩,
  ⟨0, 0, 0, 0⟩,
  ⟨0, 0, 0, 0⟩,
  ⟨18083408695123027967, 12620252496424532716, 15225720090085185173, 1087409511851215366⟩,
  ⟨0, 0, 0, 0⟩,
  ⟨0, 0, 0, 0⟩,
  ⟨0, 0, 0, 0⟩,
  ⟨0, 0, 0, 0⟩,
  ⟨0, 0, 0, 0⟩,
  ⟨0, 0, 0, 0⟩,
  ⟨0, 0, 0, 0⟩,
  ⟨1151518846415312778, 2617847070972026268, 11920538756871768189, 372494371299109617⟩,
  ⟨0, 0, 0, 0⟩,
  ⟨0, 0, 0, 0⟩,
  ⟨0, 0, 0, 0⟩,
  ⟨0, 0, 0, 0⟩,
  ⟨0, 0, 0, 0⟩,
  ⟨0, 0, 0, 0⟩,
  ⟨0, 0, 0, 0⟩,
  ⟨8129021687746030207, 5089594247705352277, 13404536729495455227, 996268291797137887⟩,
  ⟨0, 0, 0, 0⟩,
  ⟨0, 0, 0, 0⟩,
  ⟨0, 0, 0, 0⟩,
  ⟨0, 0, 0, 0⟩,
  ⟨0, 0, 0, 0⟩,
  ⟨0, 0, 0, 0⟩,
  ⟨0, 0, 0, 0⟩,
  ⟨9082481642086184012, 16123562957232930427, 113453873016526172, 1171240835007212511⟩,
  ⟨0, 0, 0, 0⟩,
  ⟨0, 0, 0, 0⟩,
  ⟨0, 0, 0, 0⟩,
  ⟨0, 0, 0, 0⟩,
  ⟨0, 0, 0, 0⟩,
  ⟨0, 0, 0, 0⟩,
  ⟨0, 0, 0, 0⟩,
  ⟨9619017927874739465, 12861346968534199922, 6474341695138246789, 329774666529093679⟩,
  ⟨0, 0, 0, 0⟩,
  ⟨0, 0, 0, 0⟩,
  ⟨0, 0, 0, 0⟩,
  ⟨0, 0, 0, 0⟩,
  ⟨0, 0, 0, 0⟩,
  ⟨0, 0, 0, 0⟩,
  ⟨0, 0, 0, 0⟩,
  ⟨4828844673239990367, 9237140426585666270, 4472429349292670700, 1211740921942321738⟩,
  ⟨0, 0, 0, 0⟩,
  ⟨0, 0, 0, 0⟩,
  ⟨0, 0, 0, 0⟩,
  ⟨0, 0, 0, 0⟩,
  ⟨0, 0, 0, 0⟩,
  ⟨0, 0, 0, 0⟩,
  ⟨0, 0, 0, 0⟩,
  ⟨6374588877936433558, 11607665174546753642, 15847675340170713041, 474145143590361300⟩,
  ⟨4088002413776997222, 16030858922743461837, 4313473177343544055, 817302900123673764⟩,
  ⟨18216186189548814543, 5687648301273358200, 6564098766262925833, 235647764529877689⟩,
  ⟨1421650618584051851, 9669410210003093316, 15430467067773365518, 994269415526604309⟩,
  ⟨7574559796775011993, 9643962694113220666, 1013275434882478619, 543427156325963008⟩,
  ⟨4532353768594877907, 2433286855157726742, 15167390808651362948, 914159030044677082⟩,
  ⟨14155199821083030453, 3642619697360819367, 7765405773737076472, 1202115259646869817⟩,
  ⟨16335533268534142579, 4358492749042076660, 16385044626223358243, 847268434257421024⟩,
  ⟨726136436292617217, 4735276118883290434, 6495677390337301519, 1007951275499954400⟩,
  ⟨1441892049918589996, 16125120862288806381, 5244917656153261337, 108755599353706277⟩,
  ⟨9330223445766086137, 9406197553353640417, 13281468059023600014, 500503138812404763⟩,
  ⟨5355456155777194776, 15418542913049291849, 7681885321566295504, 1188094463923126996⟩,
  ⟨11882193142358058793, 4624069509548102427, 6735235437551193554, 962114122876706035⟩,
  ⟨1819083831857771980, 8349663267034291058, 14403983179525206765, 942284040773068417⟩,
  ⟨7024062436534453440, 15203692147142724388, 17082973923084045231, 1191890185052815108⟩,
  ⟨6672719206476059341, 18362672287252020084, 3555226216430454216, 300718449399370145⟩,
  ⟨5828458911011841758, 9271852277477872143, 18378348640149073615, 591074353691784318⟩,
  ⟨15397757499179479361, 1878199828613873660, 4164621900891789384, 558990401377082502⟩,
  ⟨11069496558892348093, 10253211614498485032, 11458203419889384673, 575447664584685933⟩,
  ⟨9808353214047792416, 4805184465312945639, 3985871967202506787, 1229730183276593449⟩,
  ⟨8420435996312062450, 11100705514596499443, 1523101111273631766, 639557004587150270⟩,
  ⟨15630012259368829028, 15079774099427294323, 16765804689810369633, 834886070512612798⟩,
  ⟨2000344807995355152, 8654391083188520616, 13301563010992444431, 490951127405891771⟩,
  ⟨11761875542266860374, 709339183471929228, 17682621289319303167, 570040706396372700⟩,
  ⟨3366481512891059038, 12720609556939839584, 1707138651265172645, 36940608792331559⟩,
  ⟨2427334396528044490, 10170194639028880515, 18243990154741074229, 607502491270396977⟩,
  ⟨6267947100515031640, 14520122887125811439, 6695614471931546770, 251319533602819784⟩,
  ⟨7663026857490478572, 15777701966597798170, 10617198553182548195, 642318201966621785⟩,
  ⟨9959998770754152632, 13119241263216166622, 6328810982306793729, 571460896430554998⟩,
  ⟨12042605027273090048, 14859482580111939906, 11509134713697889199, 561895216440235106⟩,
  ⟨1156916933025613310, 4529329408550568088, 14286907616576238972, 1309540780962817079⟩,
  ⟨7510365353910652337, 14538991928012962248, 4644117500717216624, 1340316749461135700⟩]

/-- The literal tables of `rate_7()`, poseidon377/src/params/rate_7.rs -/
def rate7Raw : RawTables :=
  { arc := rate7_arc, mds := rate7_mds, mHat := rate7_mHat, v := rate7_v, w := rate7_w, mPrime := rate7_mPrime, mDoublePrime := rate7_mDoublePrime, mInverse := rate7_mInverse, mHatInverse := rate7_mHatInverse, m00 := rate7_m00, mI := rate7_mI, vCollection := rate7_vCollection, wHatCollection := rate7_wHatCollection, optimizedArc := rate7_optimizedArc }

theorem rate7Raw_wf : rate7Raw.wf 8 = true := by decide +kernel

/-- `rate_7()`, i.e. `RATE_7_PARAMS` (poseidon377/src/lib.rs) -/
def rate7Params : Params Fq 8 7 64 49 39 8 312 31 := rate7Raw.toParams rate7Raw_wf

end Poseidon
