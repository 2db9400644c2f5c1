import Verif.Model.Tables

/-! Generated by tools/gen_params.py from poseidon377/src/params/rate_4.rs; do not edit. -/

namespace Poseidon

/-- `arc`, poseidon377/src/params/rate_4.rs:11-1182 -/
def rate4_arc : List Limbs := [
  ⟨9886223877583555338, 2726526174642559934, 4587790518566470505, 576729411659255749⟩,
  ⟨8635683872171027649, 6178568763530680712, 4049298017970875225, 1010899895527016760⟩,
  ⟨4386287284362214114, 15794275297560972982, 13426231751965312445, 1202171528338027358⟩,
  ⟨748088700594287215, 1472010505444622065, 17517940238534715767, 284646916897302179⟩,
  ⟨10279507610927218934, 8427605231324569630, 5256766482183491681, 599767801296570400⟩,
  ⟨5616532683870270019, 16714573776517987780, 2780158541662869274, 82005381951989400⟩,
  ⟨628047193644056282, 3081927050412275131, 16607349608647881262, 723666033729227034⟩,
  ⟨4014053105906402474, 8516064025130570203, 16439212471763340654, 1066408903228028504⟩,
  ⟨3781775891997454435, 16784197273788891439, 15993490775706321548, 1246974369195687342⟩,
  ⟨13315871439997102610, 1360174578976506509, 1935727712649190133, 888928512483410116⟩,
  ⟨8976641770861237410, 6687451940339132521, 18044907108310696377, 1207869807557250559⟩,
  ⟨4528878922761055500, 7463187218610955446, 4533754848507645556, 35071527712858390⟩,
  ⟨2054133897613963099, 8179564031063470525, 1531556284029346638, 874298192527556148⟩,
  ⟨18305580017782407596, 2150793914184610589, 17311607174845242499, 959373557899881125⟩,
  ⟨11483900964553043288, 12487129025031613244, 15391908241276224492, 269335905993702128⟩,
  ⟨8338971145620331245, 12372781419517678375, 2199283600481834995, 349132078387032325⟩,
  ⟨16711498854962897180, 964757925282058102, 2534475787702313401, 879174178299686832⟩,
  ⟨9948612635577575267, 10310004629375851550, 14569008704673249814, 698796675030817938⟩,
  ⟨11983101385647491113, 6756494718617323834, 3986787822213493305, 810568397631777742⟩,
  ⟨263703597816264419, 5391923373962277868, 8069762938958691329, 167001460324522424⟩,
  ⟨12719698031922087137, 3635206538516773241, 14946573674542408006, 904022619675467349⟩,
  ⟨7591285109719266048, 2608578391556572711, 6779676185899908036, 1086161713062740129⟩,
  ⟨7176467193518589709, 1343509363976199891, 347002617743548581, 1018914054223433368⟩,
  ⟨13908207388458176389, 2971345816230697916, 17116412495128514758, 1092556723789729092⟩,
  ⟨10011741275583553910, 13515359725579218496, 16173962293465169995, 826500423001616558⟩,
  ⟨11642763221775816104, 5316502523761667274, 6723960157854782715, 713280922101966669⟩,
  ⟨881130788153084344, 5010739439291725858, 1147743103863894058, 177980102031055407⟩,
  ⟨13975378739354834601, 8684941252608197282, 5694396386436962583, 439479504891747047⟩,
  ⟨13363133397626440278, 8130502609775906914, 13414583350549819329, 524823840910770289⟩,
  ⟨11945840925799863259, 8524159476864402062, 9210577373238759816, 710975425722615141⟩,
  ⟨12814581100646910424, 15849784230008994303, 12637788340215337664, 597941999161438829⟩,
  ⟨16525908361603394009, 2846177558600817179, 7575467056141022092, 437642443252490173⟩,
  ⟨15329913684605210914, 12070525736245629573, 13074341668722432469, 1044151030746490873⟩,
  ⟨3538323630603591241, 10279517124841541304, 5324030032202346672, 902072318757121155⟩,
  ⟨13596574972337588658, 16541340016857780345, 8104153165370753035, 245861939922053923⟩,
  ⟨5030454205469646742, 13132624601605397879, 14758125164075453800, 378384125390441388⟩,
  ⟨8906593348835760654, 11904421032273004937, 14965461596408947669, 632859340380426495⟩,
  ⟨7850130346408635539, 13532701351370547975, 3820560789332903656, 1092318130445796576⟩,
  ⟨12997377171057711408, 4471729792070708333, 7305494049349150657, 1115063797383463496⟩,
  ⟨15145625851690108440, 17698022295267189243, 9861950554713946731, 1205401165408515638⟩,
  ⟨11309649707041239663, 667445592132876816, 943153015419280868, 1206714849836553688⟩,
  ⟨9026152062944983955, 11204530926199479297, 6289885248657301247, 512955645767342309⟩,
  ⟨11717849647660086747, 3612602895588115533, 9744929507384815356, 982549568060514738⟩,
  ⟨6744201323279553111, 18111540114747698086, 11979166811283670034, 386105814260185338⟩,
  ⟨13303196293759203285, 14344592278022456277, 4239798340739261853, 800405056318133701⟩,
  ⟨6737138017975582894, 8531016178828592243, 13684944430980743706, 22255530611110264⟩,
  ⟨1997271207334772541, 9079547000593471061, 16047065352656029242, 101416793857725065⟩,
  ⟨17029188205686654069, 8951964272054585217, 15302569091334378903, 761854968911808356⟩,
  ⟨2745767110751783932, 14853302747509920417, 1606999108376858338, 891318834157837360⟩,
  ⟨3640580010003203721, 12123462912736402051, 18295135460895849345, 520752965734877132⟩,
  ⟨83933521946714737, 17971579355265751841, 7352708691986307901, 183907669014565798⟩,
  ⟨9276458973572472320, 1300682705964188558, 13756551032393705489, 645082867954998576⟩,
  ⟨15074599786611123042, 8980910692416969440, 16790312992523154465, 44198431582091186⟩,
  ⟨1480148269351616164, 5990826399027670160, 7437498150356539259, 427144700677710781⟩,
  ⟨5507196835477653383, 7336613593633132046, 1280426316557546233, 958933701992800913⟩,
  ⟨18241053245813744236, 10472459532627362617, 2012134575489914517, 1256037774783607417⟩,
  ⟨14372359421802781886, 13729700187444703363, 17989800816636154572, 967621319286277758⟩,
  ⟨90392410009690887, 14047860931061415491, 12494400053046916745, 1187807817979142164⟩,
  ⟨7469394458896125080, 4994833117952945329, 5178970336138815548, 547357110341709620⟩,
  ⟨14626262512784894880, 8498143648146630667, 14635776379295784646, 279017425979939457⟩,
  ⟨2948938230818109264, 13256829255392710280, 3603261726988560613, 293293722534360282⟩,
  ⟨14726913360355627661, 11044693867323537781, 7626109275678740243, 758908383357559345⟩,
  ⟨12150373031774230138, 8891964881341264351, 4517018861706300919, 551820964652107008⟩,
  ⟨16891048323407180721, 7536596905792994544, 3059846088325366943, 865178483316339067⟩,
  ⟨2690083733968939863, 1769064765331202923, 999446336742885656, 164907716251699548⟩,
  ⟨8580460058188302985, 3991751878635809753, 4547376216267480360, 560815723873147432⟩,
  ⟨1883267897877590583, 9283747140977722829, 4336519897183919570, 1098112532343628461⟩,
  ⟨18229193288997288391, 1416710191385219951, 786091488678520329, 897579186089258101⟩,
  ⟨9679787806770955465, 13476526545223689774, 9613302347536604785, 1170985601196245246⟩,
  ⟨11408485967127642435, 15775267434451831783, 5963102841687207642, 610143165002891320⟩,
  ⟨2742110483607649666, 8238870973637978146, 8505321265665046273, 991146636847773959⟩,
  ⟨2700417284944988347, 9333179215703947174, 17483497014148443293, 564598335909606701⟩,
  ⟨10710073701127297870, 6322555675999590600, 11771028831440425797, 728539264888274353⟩,
  ⟨5185688551847854621, 17136427433029749827, 13939786699270995224, 1198719082185444207⟩,
  ⟨7749447179538401980, 4793600318555081413, 10327393242917365028, 25438094261901103⟩,
  ⟨16840187061708384569, 10530669475422628524, 217939404244531614, 1125926086827923821⟩,
  ⟨15218288013305045082, 5438912048142917445, 235470087288523129, 923231700809438641⟩,
  ⟨2194576126536460830, 7891341442170590444, 6378643390383758255, 310989935666358535⟩,
  ⟨2638919532368561416, 18196222360720320566, 6610525316889549022, 1047682654438730344⟩,
  ⟨16494294820597583678, 4823636307697140628, 9839058803503271101, 362713889140891969⟩,
  ⟨2973315077205527383, 16505948923072751536, 12726716204894385324, 760067983544631044⟩,
  ⟨7041027454525309806, 14484049096926673324, 11711536155919984779, 830352844598884205⟩,
  ⟨8226667178177935298, 16330330634634519739, 16819545565758577360, 929449491579086457⟩,
  ⟨3366407172182263301, 16494428895759921285, 7731107796203549240, 987879550276572952⟩,
  ⟨9958698182000492538, 15462783131464999925, 11113071922629363034, 701467612820830963⟩,
  ⟨6144224708909855422, 10834457042169331467, 11287058958850316926, 1312825012143929910⟩,
  ⟨17921397628564368555, 10985573093809787040, 14340644029187071972, 59000721534311183⟩,
  ⟨1630018632512830166, 16311976715006973397, 18074431391508993129, 155692271434089392⟩,
  ⟨2746677638438958053, 17878267615510669310, 1082275588904648896, 1184432411754581729⟩,
  ⟨1202686691857012174, 2234596977877372457, 3307488575050929625, 1256758603403004831⟩,
  ⟨7601867427459401741, 13070585820383544138, 11356438762852655489, 943118894834427377⟩,
  ⟨8684748127362653242, 4743911555278887170, 11396974372791841950, 826700742908426413⟩,
  ⟨17452888945877951639, 9839615283788288179, 12867459466655328363, 1007543359739410437⟩,
  ⟨12264143824974096166, 14381191422662810752, 3641096965851024808, 480946059636473070⟩,
  ⟨11435949141961302837, 710354890461232526, 7844293650067273203, 123004845212098500⟩,
  ⟨11045998304335767176, 3942503358896124422, 12585149699076876402, 285027589169677300⟩,
  ⟨15820797401199028229, 16962821466020830153, 8107747291692774042, 480489353941649738⟩,
  ⟨9217962315784549500, 14370528537254478239, 11836250330534571325, 1139451976529383887⟩,
  ⟨11835990522743135120, 10169548464484669696, 17221670999568737002, 533302488612773058⟩,
  ⟨17879618715206022981, 10660797039341031940, 1930610719106570064, 964350742947937820⟩,
  ⟨1169235639972562417, 17479840192056268380, 10586924611389711708, 103636186478545263⟩,
  ⟨9864560133117702439, 12891182307324408638, 9236711602457989544, 490202994419177997⟩,
  ⟨524004209204114745, 12014044939530800435, 17303597221467190420, 1259834854717402694⟩,
  ⟨2041228093468029194, 5279491032753715877, 2237512127849739422, 1301989577140851954⟩,
  ⟨13532558374939940477, 11861615008285507752, 15035422035697406898, 1142796203357719412⟩,
  ⟨14953432173925601791, 10389362430177185816, 845064825159375048, 1172521244035119080⟩,
  ⟨11975318177053547084, 3435333234872828662, 13963241498174514126, 286783134590930070⟩,
  ⟨14455835521486462998, 2048669311632423555, 17279316794410156816, 50616703474729287⟩,
  ⟨8193872068862108327, 3772516384619180657, 13641128299057093189, 905697595997810178⟩,
  ⟨16454110340578030875, 2152604389456932301, 8465973362037387798, 833666687765914967⟩,
  ⟨14250990663149816130, 10003002447016613703, 2580052265102394487, 760659830843235379⟩,
  ⟨1290457731274356164, 2510039619580464600, 2426168528296515695, 1254551442283207078⟩,
  ⟨16309488082193928736, 7601298284363534660, 5163919981174564632, 65819575671802258⟩,
  ⟨12743534580838976593, 6143776853938743851, 13386193122986779929, 423668519394498160⟩,
  ⟨3811484717633006447, 1349919791689722695, 10297821437600310682, 68521037802427679⟩,
  ⟨1049969810634121052, 16728941075068531596, 16094121280131115468, 82606214892022031⟩,
  ⟨5360234823572670745, 17757096254232659981, 5717208405019750556, 809486485814479609⟩,
  ⟨1927630004992622799, 11649924430204711735, 14978212641988016519, 1108831164145357066⟩,
  ⟨4587868477439641052, 4737040880169689015, 639327313806380645, 693944328643709356⟩,
  ⟨11087993010676539653, 10020352685294943192, 10076106363570629377, 297641291282727232⟩,
  ⟨3081981335203353498, 13021314745733708666, 5449753531105554695, 227963405559900828⟩,
  ⟨15635794702109421502, 6527818235965294785, 7659508407838394834, 492292453862401661⟩,
  ⟨3164777360703179827, 5768214351744839625, 7163272775096466422, 261059424264025774⟩,
  ⟨8844860905568377954, 18132135522818541971, 6960467923389772345, 221535360909084069⟩,
  ⟨17964326599819457995, 14751755360522114153, 15283771895792774696, 1271886438859126545⟩,
  ⟨15437118549753387043, 3510619079633075969, 16603794516758219723, 756776079410359543⟩,
  ⟨17209588410857048072, 16141684401935979017, 5301689933884631523, 38432519687640810⟩,
  ⟨10547445465275366949, 16846768059763163090, 6977180887290525070, 405538698331204120⟩,
  ⟨921006661797204039, 11021425780686556666, 5587777062950060423, 248159859513377465⟩,
  ⟨13398830594908962848, 5602568332953722680, 3299388522313110637, 411509104649500576⟩,
  ⟨10390204826472811537, 7554738663131013749, 7526120458731579280, 905519991871142014⟩,
  ⟨10358091385270219586, 7049055062932694342, 17159322295344631236, 1074016100024519392⟩,
  ⟨7057719272669022427, 6716307074733016448, 8792057977815871320, 862532343552836131⟩,
  ⟨11368373309109150033, 7045990182385141009, 2025222109349847460, 387848901695703654⟩,
  ⟨327056937244728359, 9704535108452812502, 5199220103603000900, 619215360838520470⟩,
  ⟨5395528494255463572, 389959326360615418, 3978563775598752142, 991544641697560783⟩,
  ⟨8458772479849525654, 10186585336117207122, 12880133936401676976, 1149756384964578292⟩,
  ⟨17528423621923070034, 15935520090452344119, 11404975526251493884, 412409734887795934⟩,
  ⟨14596531415737149993, 4946255316940312726, 12454931841173483338, 731911136838063220⟩,
  ⟨6585417567105755410, 16822761287245263930, 2131635032458361338, 606343045824968234⟩,
  ⟨10214561078664282874, 5025761289800218565, 12783805018122678662, 1311486665373386005⟩,
  ⟨15901739284283459461, 11286837212400137496, 1712557444614142874, 121870715794602643⟩,
  ⟨3911984102306673570, 648245110634922383, 15751439518857509618, 216258856571958927⟩,
  ⟨4848434841412269574, 7349989464327588429, 9911978981083826344, 1211881330257404603⟩,
  ⟨9800713739756815796, 10304754660712109617, 6380491042931330586, 362406823863024713⟩,
  ⟨7720465361240795301, 12020672868813473796, 2701475003865340607, 1252909626545536881⟩,
  ⟨9120215925903958009, 16370286948728342393, 8726225975134153794, 874972214722679027⟩,
  ⟨13359293481675756526, 17413992610381724082, 17127717448613492326, 618162979844611485⟩,
  ⟨4457989176113381477, 5428904048964818159, 12898272303960788094, 1093655686680753194⟩,
  ⟨18405830374587328631, 6168069285842580322, 1496453003489992656, 1017841256875975398⟩,
  ⟨12466116854493845937, 2160195132816359286, 1767040459956452231, 109568514856013791⟩,
  ⟨100951306495757880, 114976701465995050, 15766758379995858204, 1057219425251474865⟩,
  ⟨5298457659833054856, 7285306064847886866, 12795862070238100636, 261515234811290770⟩,
  ⟨7319581837975344773, 15042040386610023107, 16457831289989790825, 154915683796793087⟩,
  ⟨13545480776153695910, 13196378744888296667, 5616833430312197722, 463371887282511984⟩,
  ⟨4373255717409396971, 7992661231611740992, 2555455907700438592, 419602657573298182⟩,
  ⟨3838228082130987093, 16958961529135702054, 12819669670360648617, 359497681438954782⟩,
  ⟨6515161084577348825, 3970441889569271383, 607156398571973799, 547713787201516126⟩,
  ⟨1627146883145613872, 10573887756656254297, 13653780278064282619, 524933908746351261⟩,
  ⟨10179158874602797540, 2320694878046972755, 13108212213196896821, 823608765090614102⟩,
  ⟨10002922236139274212, 17696271073832748193, 8923379405797021551, 708982901731254704⟩,
  ⟨5839866296962221086, 17583077663905506748, 12216298901080800460, 487361936596221908⟩,
  ⟨14341245248157744737, 3199487087597809010, 1135767560538489843, 927313269278877142⟩,
  ⟨16632797622220954476, 9703590888871525194, 1377123634707768418, 1246534655674358846⟩,
  ⟨4754517168201404309, 2647290700202563552, 1690983820051979673, 7714150076274415⟩,
  ⟨11569692557961925140, 10228174840463393187, 8150598622710748207, 513567317704368092⟩,
  ⟨1881301196632560204, 6035626362054951305, 8515508636781928884, 523264698133540944⟩,
  ⟨10026556150015580882, 12588661207673568544, 8778049799575991497, 1135429816709585919⟩,
  ⟨15355804768759996831, 17109742989524070851, 18394344475321513045, 694458701321276154⟩,
  ⟨13235216837990437070, 2617348320939314758, 13129875399290619987, 562279832760519450⟩,
  ⟨10230390803193447564, 13314863672162400633, 17075894283494146616, 375924473565310089⟩,
  ⟨12059482537459401199, 10372277014464995984, 13657463670572718949, 68415488536176259⟩,
  ⟨4866792775300295481, 4662805139390376964, 1084624083313912193, 283924614466318758⟩,
  ⟨682031803653902614, 2785175410597900576, 10466522391392735273, 982491227853418333⟩,
  ⟨1657190274082326701, 15794239529824430696, 11562429870540813013, 30597476268276403⟩,
  ⟨11433643047469980018, 1276670802646402384, 7225445039450827835, 1320607862737647658⟩,
  ⟨9049650314779674715, 15332775679178116922, 10916059016321665268, 1115159218126791192⟩,
  ⟨5320499112936763732, 11250539854586634824, 12063947087263213252, 710935487070228339⟩,
  ⟨18379608258942880321, 15727113804916673274, 10498320535108511002, 845002076776323646⟩,
  ⟨6828593483180812035, 1682481325156526923, 14049047336459608184, 1126148273021080778⟩,
  ⟨3872917422679565944, 1271915972458656550, 1092693023912110895, 1298968277402891756⟩,
  ⟨7814132502258843917, 8078742423972593556, 8536158594561933049, 191277843487617954⟩,
  ⟨5652311561512870887, 16495461651672765449, 11098657231551158518, 493087321946801171⟩,
  ⟨6368409936062697439, 792796763844864197, 5610460501625398581, 546867399856191995⟩,
  ⟨3038217149528838505, 8627484827600343283, 7414393357134479493, 985381996389905690⟩,
  ⟨14953970136252134871, 295452924685135549, 11287279099077480718, 617093465173114131⟩,
  ⟨140435627222783551, 17855535656574994648, 5022512547318532764, 473386213985532003⟩,
  ⟨7030554896034226352, 6441059691989760702, 581099786512472761, 1269259459863271622⟩,
  ⟨6770052323275442396, 12901743183408121797, 13004549993560303547, 969914125748537569⟩,
  ⟨11435239377991792553, 14044046789306606033, 11369816462011584822, 1239930404010674345⟩,
  ⟨2621636762951244377, 7758290588105338214, 14625731574391580682, 7696703746211481⟩,
  ⟨8270493924131469556, 15946263820341678216, 6122109191607485742, 1119062509985100783⟩,
  ⟨11252124749266599346, 8413749501404755931, 9936257142296575431, 189818330075783365⟩,
  ⟨1537275707366966513, 2232381660897701103, 2870196216416932989, 1271177660936312287⟩,
  ⟨1398814984843324301, 15240858180305901997, 14386262707998656254, 1102388553837536368⟩]

/-- `mds`, poseidon377/src/params/rate_4.rs:1183-1337 -/
def rate4_mds : List Limbs := [
  ⟨2093244959304135473, 7921656493611837028, 14184576022206158435, 729731999227928846⟩,
  ⟨17237574486256691881, 7678231653376502440, 12981859904545217192, 832323394471302938⟩,
  ⟨14878706952858838161, 15410104227655356999, 17393275270132988194, 905602962502284432⟩,
  ⟨17721242321237835775, 11985636621509722110, 11478464757469040638, 960562638525520553⟩,
  ⟨17640631015407645126, 17416650484724036037, 14803487960933328666, 554882262980868625⟩,
  ⟨17237574486256691881, 7678231653376502440, 12981859904545217192, 832323394471302938⟩,
  ⟨14878706952858838161, 15410104227655356999, 17393275270132988194, 905602962502284432⟩,
  ⟨17721242321237835775, 11985636621509722110, 11478464757469040638, 960562638525520553⟩,
  ⟨17640631015407645126, 17416650484724036037, 14803487960933328666, 554882262980868625⟩,
  ⟨10632745392742701465, 7191381972905833266, 10576427669223334706, 1037506184958051122⟩,
  ⟨14878706952858838161, 15410104227655356999, 17393275270132988194, 905602962502284432⟩,
  ⟨17721242321237835775, 11985636621509722110, 11478464757469040638, 960562638525520553⟩,
  ⟨17640631015407645126, 17416650484724036037, 14803487960933328666, 554882262980868625⟩,
  ⟨10632745392742701465, 7191381972905833266, 10576427669223334706, 1037506184958051122⟩,
  ⟨7989155441247042094, 18276457113184108543, 17999817914616464103, 943187440870955565⟩,
  ⟨17721242321237835775, 11985636621509722110, 11478464757469040638, 960562638525520553⟩,
  ⟨17640631015407645126, 17416650484724036037, 14803487960933328666, 554882262980868625⟩,
  ⟨10632745392742701465, 7191381972905833266, 10576427669223334706, 1037506184958051122⟩,
  ⟨7989155441247042094, 18276457113184108543, 17999817914616464103, 943187440870955565⟩,
  ⟨18204910156218979669, 16293041589642941780, 9975069610392864084, 1088801882579738168⟩,
  ⟨17640631015407645126, 17416650484724036037, 14803487960933328666, 554882262980868625⟩,
  ⟨10632745392742701465, 7191381972905833266, 10576427669223334706, 1037506184958051122⟩,
  ⟨7989155441247042094, 18276457113184108543, 17999817914616464103, 943187440870955565⟩,
  ⟨18204910156218979669, 16293041589642941780, 9975069610392864084, 1088801882579738168⟩,
  ⟨15441359965645378481, 7022857083512140090, 11162758362666494739, 1108530997049617801⟩]

/-- `M_hat`, poseidon377/src/params/rate_4.rs:1338-1435 -/
def rate4_mHat : List Limbs := [
  ⟨14878706952858838161, 15410104227655356999, 17393275270132988194, 905602962502284432⟩,
  ⟨17721242321237835775, 11985636621509722110, 11478464757469040638, 960562638525520553⟩,
  ⟨17640631015407645126, 17416650484724036037, 14803487960933328666, 554882262980868625⟩,
  ⟨10632745392742701465, 7191381972905833266, 10576427669223334706, 1037506184958051122⟩,
  ⟨17721242321237835775, 11985636621509722110, 11478464757469040638, 960562638525520553⟩,
  ⟨17640631015407645126, 17416650484724036037, 14803487960933328666, 554882262980868625⟩,
  ⟨10632745392742701465, 7191381972905833266, 10576427669223334706, 1037506184958051122⟩,
  ⟨7989155441247042094, 18276457113184108543, 17999817914616464103, 943187440870955565⟩,
  ⟨17640631015407645126, 17416650484724036037, 14803487960933328666, 554882262980868625⟩,
  ⟨10632745392742701465, 7191381972905833266, 10576427669223334706, 1037506184958051122⟩,
  ⟨7989155441247042094, 18276457113184108543, 17999817914616464103, 943187440870955565⟩,
  ⟨18204910156218979669, 16293041589642941780, 9975069610392864084, 1088801882579738168⟩,
  ⟨10632745392742701465, 7191381972905833266, 10576427669223334706, 1037506184958051122⟩,
  ⟨7989155441247042094, 18276457113184108543, 17999817914616464103, 943187440870955565⟩,
  ⟨18204910156218979669, 16293041589642941780, 9975069610392864084, 1088801882579738168⟩,
  ⟨15441359965645378481, 7022857083512140090, 11162758362666494739, 1108530997049617801⟩]

/-- `v`, poseidon377/src/params/rate_4.rs:1436-1461 -/
def rate4_v : List Limbs := [
  ⟨17237574486256691881, 7678231653376502440, 12981859904545217192, 832323394471302938⟩,
  ⟨14878706952858838161, 15410104227655356999, 17393275270132988194, 905602962502284432⟩,
  ⟨17721242321237835775, 11985636621509722110, 11478464757469040638, 960562638525520553⟩,
  ⟨17640631015407645126, 17416650484724036037, 14803487960933328666, 554882262980868625⟩]

/-- `w`, poseidon377/src/params/rate_4.rs:1462-1487 -/
def rate4_w : List Limbs := [
  ⟨17237574486256691881, 7678231653376502440, 12981859904545217192, 832323394471302938⟩,
  ⟨14878706952858838161, 15410104227655356999, 17393275270132988194, 905602962502284432⟩,
  ⟨17721242321237835775, 11985636621509722110, 11478464757469040638, 960562638525520553⟩,
  ⟨17640631015407645126, 17416650484724036037, 14803487960933328666, 554882262980868625⟩]

/-- `M_prime`, poseidon377/src/params/rate_4.rs:1488-1599 -/
def rate4_mPrime : List Limbs := [
  ⟨9015221291577245683, 8239323489949974514, 1646089257421115374, 958099254763297437⟩,
  ⟨0, 0, 0, 0⟩,
  ⟨0, 0, 0, 0⟩,
  ⟨0, 0, 0, 0⟩,
  ⟨0, 0, 0, 0⟩,
  ⟨0, 0, 0, 0⟩,
  ⟨14878706952858838161, 15410104227655356999, 17393275270132988194, 905602962502284432⟩,
  ⟨17721242321237835775, 11985636621509722110, 11478464757469040638, 960562638525520553⟩,
  ⟨17640631015407645126, 17416650484724036037, 14803487960933328666, 554882262980868625⟩,
  ⟨10632745392742701465, 7191381972905833266, 10576427669223334706, 1037506184958051122⟩,
  ⟨0, 0, 0, 0⟩,
  ⟨17721242321237835775, 11985636621509722110, 11478464757469040638, 960562638525520553⟩,
  ⟨17640631015407645126, 17416650484724036037, 14803487960933328666, 554882262980868625⟩,
  ⟨10632745392742701465, 7191381972905833266, 10576427669223334706, 1037506184958051122⟩,
  ⟨7989155441247042094, 18276457113184108543, 17999817914616464103, 943187440870955565⟩,
  ⟨0, 0, 0, 0⟩,
  ⟨17640631015407645126, 17416650484724036037, 14803487960933328666, 554882262980868625⟩,
  ⟨10632745392742701465, 7191381972905833266, 10576427669223334706, 1037506184958051122⟩,
  ⟨7989155441247042094, 18276457113184108543, 17999817914616464103, 943187440870955565⟩,
  ⟨18204910156218979669, 16293041589642941780, 9975069610392864084, 1088801882579738168⟩,
  ⟨0, 0, 0, 0⟩,
  ⟨10632745392742701465, 7191381972905833266, 10576427669223334706, 1037506184958051122⟩,
  ⟨7989155441247042094, 18276457113184108543, 17999817914616464103, 943187440870955565⟩,
  ⟨18204910156218979669, 16293041589642941780, 9975069610392864084, 1088801882579738168⟩,
  ⟨15441359965645378481, 7022857083512140090, 11162758362666494739, 1108530997049617801⟩]

/-- `M_doubleprime`, poseidon377/src/params/rate_4.rs:1600-1691 -/
def rate4_mDoublePrime : List Limbs := [
  ⟨2093244959304135473, 7921656493611837028, 14184576022206158435, 729731999227928846⟩,
  ⟨17237574486256691881, 7678231653376502440, 12981859904545217192, 832323394471302938⟩,
  ⟨14878706952858838161, 15410104227655356999, 17393275270132988194, 905602962502284432⟩,
  ⟨17721242321237835775, 11985636621509722110, 11478464757469040638, 960562638525520553⟩,
  ⟨17640631015407645126, 17416650484724036037, 14803487960933328666, 554882262980868625⟩,
  ⟨8008150737402636880, 4488734692587776588, 1547555191554943536, 1006206882335955987⟩,
  ⟨9015221291577245683, 8239323489949974514, 1646089257421115374, 958099254763297437⟩,
  ⟨0, 0, 0, 0⟩,
  ⟨0, 0, 0, 0⟩,
  ⟨0, 0, 0, 0⟩,
  ⟨4174856959927929341, 6956702737728349555, 11313218605335544685, 1279701926361717254⟩,
  ⟨0, 0, 0, 0⟩,
  ⟨9015221291577245683, 8239323489949974514, 1646089257421115374, 958099254763297437⟩,
  ⟨0, 0, 0, 0⟩,
  ⟨0, 0, 0, 0⟩,
  ⟨14997388866253338116, 17951148788181031565, 14101804784614517907, 65578444326456143⟩,
  ⟨0, 0, 0, 0⟩,
  ⟨0, 0, 0, 0⟩,
  ⟨9015221291577245683, 8239323489949974514, 1646089257421115374, 958099254763297437⟩,
  ⟨0, 0, 0, 0⟩,
  ⟨6853363902592985329, 4486369932351851910, 65610707319252285, 873172475563117547⟩,
  ⟨0, 0, 0, 0⟩,
  ⟨0, 0, 0, 0⟩,
  ⟨0, 0, 0, 0⟩,
  ⟨9015221291577245683, 8239323489949974514, 1646089257421115374, 958099254763297437⟩]

/-- `M_inverse`, poseidon377/src/params/rate_4.rs:1692-1843 -/
def rate4_mInverse : List Limbs := [
  ⟨16044777359948080167, 6379307166694554861, 762089046052004585, 1183646996043825654⟩,
  ⟨8310126474924308909, 16838376826344772735, 14456183264230470132, 629129040732927162⟩,
  ⟨10591481161139814707, 3864831283854097767, 6360339012538312403, 727156441545813699⟩,
  ⟨8580764665041452750, 2596276168345731737, 607940303702198574, 618123929142359699⟩,
  ⟨18272933275584544879, 10491562475845979009, 9925929908400688531, 449428766487123474⟩,
  ⟨8310126474924308909, 16838376826344772735, 14456183264230470132, 629129040732927162⟩,
  ⟨11903154552578817451, 8808508453785624876, 14068444835231129096, 1259276684968074962⟩,
  ⟨2548615176746366879, 17237354895530185263, 1797488250903408702, 291026391931997698⟩,
  ⟨13620574122907011204, 15580574422211693049, 7152880373115697056, 985573542184802400⟩,
  ⟨3137742302926509693, 15046605844466714305, 1991063102869025961, 261841845081961819⟩,
  ⟨10591481161139814707, 3864831283854097767, 6360339012538312403, 727156441545813699⟩,
  ⟨2548615176746366879, 17237354895530185263, 1797488250903408702, 291026391931997698⟩,
  ⟨4501910777217553532, 15462242547553693695, 10499850527346203608, 185455733513899003⟩,
  ⟨16090235568988980360, 8762996204253883831, 17672444665847082580, 116738187400143515⟩,
  ⟨10965139192629135304, 2507527262352232221, 7729853937802466392, 18035572639182151⟩,
  ⟨8580764665041452750, 2596276168345731737, 607940303702198574, 618123929142359699⟩,
  ⟨13620574122907011204, 15580574422211693049, 7152880373115697056, 985573542184802400⟩,
  ⟨16090235568988980360, 8762996204253883831, 17672444665847082580, 116738187400143515⟩,
  ⟨10167016895964480411, 16734919608152084608, 17983964361753590390, 420319954536647974⟩,
  ⟨15950905455332638974, 10638510376174954245, 6190824109415358469, 365471410765096812⟩,
  ⟨18272933275584544879, 10491562475845979009, 9925929908400688531, 449428766487123474⟩,
  ⟨3137742302926509693, 15046605844466714305, 1991063102869025961, 261841845081961819⟩,
  ⟨10965139192629135304, 2507527262352232221, 7729853937802466392, 18035572639182151⟩,
  ⟨15950905455332638974, 10638510376174954245, 6190824109415358469, 365471410765096812⟩,
  ⟨1117314920009271201, 4543364499625431390, 17867254861738919934, 199268313635132044⟩]

/-- `M_hat_inverse`, poseidon377/src/params/rate_4.rs:1844-1941 -/
def rate4_mHatInverse : List Limbs := [
  ⟨2912843796488841427, 2986203785403700346, 8782906370300679609, 72348807101562454⟩,
  ⟨9009169579583668122, 13163254771921611656, 12500476150373767268, 206041309714119899⟩,
  ⟨7160019720069709961, 1207930472110715040, 14896636547354890107, 1070558624402680198⟩,
  ⟨769834061306938378, 434866968268652066, 13507727459817144106, 1015899670515829318⟩,
  ⟨9009169579583668122, 13163254771921611656, 12500476150373767268, 206041309714119899⟩,
  ⟨18105737139400699747, 17092832644263385296, 11448292449964576346, 97503347880002371⟩,
  ⟨2486409206805834145, 7132406107544192230, 16724002743228709842, 204690573034040147⟩,
  ⟨15517856203532702535, 6456985507109804621, 5236564190669238024, 1219448662068878427⟩,
  ⟨7160019720069709961, 1207930472110715040, 14896636547354890107, 1070558624402680198⟩,
  ⟨2486409206805834145, 7132406107544192230, 16724002743228709842, 204690573034040147⟩,
  ⟨5324099184438075010, 18365509704861776210, 485662210662411512, 332367568902751343⟩,
  ⟨12123690196900787584, 13150159583617211350, 15652393172789097814, 509338692023573934⟩,
  ⟨769834061306938378, 434866968268652066, 13507727459817144106, 1015899670515829318⟩,
  ⟨15517856203532702535, 6456985507109804621, 5236564190669238024, 1219448662068878427⟩,
  ⟨12123690196900787584, 13150159583617211350, 15652393172789097814, 509338692023573934⟩,
  ⟨3535747919942277633, 17013697925000670341, 11660128334245281, 1118907618677696094⟩]

/-- `M_00`, poseidon377/src/params/rate_4.rs:1942-1947 -/
def rate4_m00 : Limbs := ⟨2093244959304135473, 7921656493611837028, 14184576022206158435, 729731999227928846⟩

/-- `M_i`, poseidon377/src/params/rate_4.rs:1948-2059 -/
def rate4_mI : List Limbs := [
  ⟨9015221291577245683, 8239323489949974514, 1646089257421115374, 958099254763297437⟩,
  ⟨0, 0, 0, 0⟩,
  ⟨0, 0, 0, 0⟩,
  ⟨0, 0, 0, 0⟩,
  ⟨0, 0, 0, 0⟩,
  ⟨0, 0, 0, 0⟩,
  ⟨3550241294482541299, 4181806201361874488, 12479811686471816403, 855474765552047927⟩,
  ⟨10733696657462375354, 9051038123237754612, 15768789564108221449, 598829465077611102⟩,
  ⟨4780090151550846061, 8840309929769970773, 7282912445741669386, 1146189173642481065⟩,
  ⟨4412170182102677248, 3666416784507971023, 16978031500730235082, 244755965167984938⟩,
  ⟨0, 0, 0, 0⟩,
  ⟨10733696657462375354, 9051038123237754612, 15768789564108221449, 598829465077611102⟩,
  ⟨1513630470854066869, 4677614225413309486, 10111857031931978945, 500911903228030067⟩,
  ⟨3055507272271008448, 8821455708710032658, 11214733806280933596, 435072795685184507⟩,
  ⟨2339289121714728061, 16657308061121398565, 2111925237313832617, 572507462955239974⟩,
  ⟨0, 0, 0, 0⟩,
  ⟨4780090151550846061, 8840309929769970773, 7282912445741669386, 1146189173642481065⟩,
  ⟨3055507272271008448, 8821455708710032658, 11214733806280933596, 435072795685184507⟩,
  ⟨13866627529171609781, 9361176355530684294, 17598610984186907476, 148068116833355292⟩,
  ⟨1636007787860515509, 13796006064476623473, 8087234008724486427, 424300075186376057⟩,
  ⟨0, 0, 0, 0⟩,
  ⟨4412170182102677248, 3666416784507971023, 16978031500730235082, 244755965167984938⟩,
  ⟨2339289121714728061, 16657308061121398565, 2111925237313832617, 572507462955239974⟩,
  ⟨1636007787860515509, 13796006064476623473, 8087234008724486427, 424300075186376057⟩,
  ⟨17138718893438209806, 3832598667291101348, 16820316856178316520, 934255170445228361⟩]

/-- `v_collection`, poseidon377/src/params/rate_4.rs:2060-2867 -/
def rate4_vCollection : List (List Limbs) := [
  [⟨17237574486256691881, 7678231653376502440, 12981859904545217192, 832323394471302938⟩, ⟨14878706952858838161, 15410104227655356999, 17393275270132988194, 905602962502284432⟩, ⟨17721242321237835775, 11985636621509722110, 11478464757469040638, 960562638525520553⟩, ⟨17640631015407645126, 17416650484724036037, 14803487960933328666, 554882262980868625⟩],
  [⟨7330330845985706257, 6947957132670498679, 9373711551562393463, 1140097580201425214⟩, ⟨16333313215653526970, 2040802123570873567, 13606956490394234585, 551256550916377040⟩, ⟨5062406009186596704, 16529967443609096569, 8069040895545372020, 1221611533051627754⟩, ⟨8776932849639973133, 4157275033105063229, 5219893242165609753, 441476373599490172⟩],
  [⟨11152363693389150632, 7168263193567282683, 1452700946751769356, 436217109073156792⟩, ⟨13970337958464724119, 17109877554760172091, 12788764852517710407, 839284445089847973⟩, ⟨15163746983822199844, 11654724925143124644, 9602216610999473293, 519210689768164370⟩, ⟨10182434037205209725, 9621286367095233356, 8404025194304421834, 344727351078320731⟩],
  [⟨16755358458570043164, 10280398262063275743, 17321778533676321974, 143546509776638006⟩, ⟨9894685689427310276, 13317494114689924797, 8039678456153006986, 320726242987073750⟩, ⟨10892251073208715123, 9975233878611449982, 11944979761650688031, 279665888955724801⟩, ⟨2806869061497062911, 16847498917844641241, 12155099785802870367, 612418149303740633⟩],
  [⟨1943262751829125522, 12763321846226199313, 6747770469779104151, 951539986961178929⟩, ⟨16058796408745659861, 17170055100384124922, 1586157489739998203, 1036791847629253806⟩, ⟨2170272984479571023, 39206051687503551, 73036971397233251, 323555571475294666⟩, ⟨13939509715106692697, 9339647999495962035, 11925062741591314295, 1167415533183673898⟩],
  [⟨6979434117673847033, 3048055255536618747, 13743910631909977125, 783906807780161297⟩, ⟨17010292649383249624, 7578772047158193525, 1259524131029379452, 241494970118020102⟩, ⟨8104232396866985927, 12510732557073130064, 9629433082008929246, 1035242752646990544⟩, ⟨16796634656430258298, 14112008759289957096, 6452208208519466013, 1048584847398376572⟩],
  [⟨15748961458778365618, 8601741670573679852, 9437158324168441506, 977044327661253334⟩, ⟨5158908350016140691, 8596065138269817166, 4752647801985797199, 1176021914613979688⟩, ⟨17831888852747325597, 9652101022265686283, 1555288054471442793, 65814168324416153⟩, ⟨10495561656210166211, 10989451257550783972, 8015055214453272328, 409799830087238982⟩],
  [⟨2331967402451752193, 2109682558241205572, 1825337663297053092, 878857572660922318⟩, ⟨12336449333325242432, 5499382277476614407, 11404022977159740856, 478044609105512850⟩, ⟨10790217870923516271, 10590091398034592831, 2798879849340254683, 1097244195350236928⟩, ⟨13063047010146157876, 14542415641892323856, 17083019212457052807, 1089087010292700700⟩],
  [⟨1931130401025711378, 11841912731002402383, 12257729010461348591, 475921619378996396⟩, ⟨2043623821806520253, 6264756844797844292, 9140556588049529897, 357097751413650712⟩, ⟨13748314028353391771, 7554401384369793136, 15484455053202687098, 1015396556130205108⟩, ⟨12112322445843745250, 9643021818792026083, 7010640491952178418, 912560635387385014⟩],
  [⟨15884856584565086050, 4328763398811725844, 2194324022836935036, 564940183680880064⟩, ⟨10368325909078307315, 16258151264498137456, 12821855576160737507, 168843008052784532⟩, ⟨6775860316590005410, 1587081089529470620, 12761600899048989463, 547743431636452378⟩, ⟨5499459000866536496, 17225191771611977200, 15501710310620154491, 515684463452344496⟩],
  [⟨12129682192729323843, 8486777067374758801, 1157895296096676184, 662132892983063060⟩, ⟨174757932292384330, 3152593721116333206, 12164153154782094245, 1099436573600079710⟩, ⟨615845028898507200, 4670618999889700824, 12443454676890805497, 518935605666369522⟩, ⟨16912386391968429424, 5290244798379778177, 11209464492300379874, 586454799338251353⟩],
  [⟨12080638299294159093, 1960331238298728784, 2898980097890331004, 921670658451130495⟩, ⟨16215351708207141464, 7345269023494330137, 12994383926037492649, 224185396018231372⟩, ⟨3554838652407488913, 6074835006636416927, 15656375499922407950, 15940578339816345⟩, ⟨7221246958182853009, 6510601905224702473, 12824776152597435860, 725837117656279675⟩],
  [⟨13527778764121271275, 1030490900095715048, 12857340760482021894, 936580603253300439⟩, ⟨12930617827781800730, 3249690311936291363, 1303559984190780453, 990745867675858343⟩, ⟨10347830123499261941, 14744724164671532382, 15017413323955480611, 865517056617574158⟩, ⟨13222342262320869452, 930250546901263311, 6148846827329484586, 816792556508332788⟩],
  [⟨270522433778958450, 9810558015885994375, 12801721076082256784, 428014500155741958⟩, ⟨17216419355251603785, 16776182263454362660, 17464958086342114244, 1020854289329138282⟩, ⟨14583513917939718723, 16464432348709798589, 5524662795591881534, 504799586387620122⟩, ⟨9494047844709044490, 9514125194357777841, 9204079242382538181, 1326388421861125510⟩],
  [⟨7051493540766021999, 14714874558861007051, 12179359128314955274, 431397382988804936⟩, ⟨14285688927589864668, 8964657502437295762, 10607145890133654906, 644415764475289967⟩, ⟨9070138432342296337, 17136148269824501435, 16709615536037568565, 1088774414904578634⟩, ⟨9017804360060337869, 5120895363411029290, 14759539588564342239, 251323438509473927⟩],
  [⟨614700763379600159, 12518761935375538118, 4440750989807847128, 10689910160914840⟩, ⟨16233894446868518964, 232968488158620891, 3648936371760108401, 87053101363493664⟩, ⟨4682437298124427841, 10048101470247329816, 5838396498674936533, 76707223622697042⟩, ⟨4844729186655784101, 5073462805990634750, 369364776025047222, 1205067782666401609⟩],
  [⟨11811297399794142233, 1367273165695851273, 9482096466685101348, 278101973543607386⟩, ⟨700938287003557444, 10784390521545837670, 652198576027059045, 1257111617232546179⟩, ⟨7023353639663907189, 844196405846330427, 3670187877020232969, 467197560404961638⟩, ⟨3255328098459903221, 1373891119440715166, 9229957119786296543, 511813603491106053⟩],
  [⟨7074698954249379124, 597938652890685454, 4893589759540026630, 13821006431840376⟩, ⟨9050360858429500710, 712154751922466901, 2783564310815451475, 361791763218230554⟩, ⟨2543657380738906130, 7730539901174656512, 9349888058233016421, 1105296308578399874⟩, ⟨12462195693380123490, 9135340915133672169, 2529249849635714105, 1028662249374476992⟩],
  [⟨3997059354097159592, 14396586541557506890, 15126937915868653526, 1190014880085637787⟩, ⟨71730461663727489, 6481482986298961851, 2863781531983795764, 676732583839455648⟩, ⟨11976979288710790629, 18385617837556037683, 2427331777175576996, 271478597561256238⟩, ⟨14665157190813807512, 4593895870413934871, 17259515554442068841, 822957347764507743⟩],
  [⟨7149525206288877270, 17921481572667347774, 2621958866898809461, 1253764315637746764⟩, ⟨3409735133900390936, 136473863329815600, 15309385832522383920, 1169764220492589436⟩, ⟨7033172430223502268, 240255878942338808, 6398794669496471317, 628797443576353581⟩, ⟨7953065623402270259, 8501997013689665019, 5960083925037855492, 295456887863221215⟩],
  [⟨15195370696120832657, 17781142206152991864, 2238407181422098285, 841138092128746233⟩, ⟨12824831901012180308, 12167693598895623388, 11028443174628128031, 11577460208414501⟩, ⟨3327689546198888048, 12391493112771759962, 307868198412140618, 1159504727071219081⟩, ⟨3049104073000031564, 17357418971393386361, 996987970433781915, 116813261500484748⟩],
  [⟨10884166330331702882, 17425353526410834453, 13326907998045201293, 413735914240279347⟩, ⟨12473777284989231213, 17638157720713586222, 7280940291577634976, 165394770300217809⟩, ⟨6075495009078142294, 15423443319709019929, 10104593150500616837, 356519351756886421⟩, ⟨4453851468262956706, 17578058950978353938, 5693306616848551388, 65029682653071572⟩],
  [⟨8478514957045721547, 1837595243779150041, 2731509554274646589, 1330775784497928083⟩, ⟨5199974098799727027, 4404072971729349177, 9646912483549069990, 218329131799988219⟩, ⟨660001227897806842, 8207988798347696530, 13044592656758679072, 480823461712968712⟩, ⟨2124249976672750300, 16810194224873279051, 8413199247867349887, 252618070410064009⟩],
  [⟨4556458494955145970, 14725473799943575915, 6762752380673415129, 1316259551723935370⟩, ⟨16979681563871369563, 5158090131973535020, 2347846896725164220, 295285400051150767⟩, ⟨13585313619033311504, 16684285379674594726, 6119191656194738492, 455955275887010759⟩, ⟨3454774308783696473, 10535559679543981910, 15358478203203343679, 240649127531759812⟩],
  [⟨16198893952998692648, 7621510146767446726, 5423085782991616007, 484917335576147571⟩, ⟨12418560142694938034, 9630762732922483573, 11756502878189980458, 1064509096436490989⟩, ⟨6432783853572915686, 8373421070941771076, 9999207991110274176, 227092656935087544⟩, ⟨2481263986424351332, 5524660820856664127, 1844129905336978496, 940613905523784942⟩],
  [⟨16138212250303786584, 7239588475022848974, 10699859199281641521, 591755207097992795⟩, ⟨12068127359176715698, 9201897464239423846, 16468376872261041490, 4468311430440924⟩, ⟨4076476707186060475, 17992082137333534347, 6815132661837439512, 278384059575851924⟩, ⟨17018342029879137108, 15055574099156300093, 11677650203572471840, 144664137444733523⟩],
  [⟨8317396731115292545, 18067636204720558118, 14890417508627474416, 793524012844400414⟩, ⟨13379864138421857399, 362217527193745219, 15798919921502256623, 1097917902435666499⟩, ⟨12810510919435274272, 14423646849331158587, 9841501271852473232, 725922426352114610⟩, ⟨17018030548797472114, 14895024219584398144, 12492061782442092972, 762315198620019019⟩],
  [⟨1701906145521012707, 10296626786628438399, 10754570760997467096, 336488969849416237⟩, ⟨254576632745845475, 16526828097705762792, 14770819661184367983, 243834243852718897⟩, ⟨4102931554245931369, 16027764780080619999, 8334572247339515265, 368246411244951631⟩, ⟨4561744176382664009, 2911477542790161454, 3011707291091124269, 556376879137998058⟩],
  [⟨3296358868716422366, 9039393853864308074, 17847711501823630457, 1005226492488439642⟩, ⟨4031069363410182489, 7351394901266043534, 16764075333050932509, 1335716800346461455⟩, ⟨7923744999493545562, 5624877492918299446, 1035450251487215992, 66195541204638202⟩, ⟨10021219165650904780, 11526735379442916846, 15137554942549712865, 220711145305168309⟩],
  [⟨17539749312900092691, 1394325220480450609, 8427780606119340085, 214541826368037298⟩, ⟨14979072356738539172, 8588389061504370168, 17185566872280556497, 1119865054078041⟩, ⟨13832855658344903569, 17699617991822202836, 12719246950037163765, 809144901785178492⟩, ⟨5258746201047632203, 16795607952264798969, 12589457419107454073, 852487165526431816⟩],
  [⟨18017611145361501469, 17582515812396321648, 2919031829448009162, 551871759286894908⟩, ⟨15370904975677001433, 7214748906490449079, 16152167407980539558, 1171554702393986442⟩, ⟨10634655764649983482, 15431077074812693397, 2552280196567255, 712776250826311075⟩, ⟨13708388833019942700, 491334836724789600, 11731367761263890755, 1197388142335296709⟩]]

/-- `w_hat_collection`, poseidon377/src/params/rate_4.rs:2868-3676 -/
def rate4_wHatCollection : List (List Limbs) := [
  [⟨8008150737402636880, 4488734692587776588, 1547555191554943536, 1006206882335955987⟩, ⟨4174856959927929341, 6956702737728349555, 11313218605335544685, 1279701926361717254⟩, ⟨14997388866253338116, 17951148788181031565, 14101804784614517907, 65578444326456143⟩, ⟨6853363902592985329, 4486369932351851910, 65610707319252285, 873172475563117547⟩],
  [⟨579603889306395083, 2560608140709899462, 18146698412336151881, 60258495702968472⟩, ⟨9924506099485967285, 14841337095946012878, 6550473620052701980, 355439357201872457⟩, ⟨12531688174264614033, 3629799128760975880, 14801960216155767350, 1064176756880888081⟩, ⟨10680016211572180547, 7640186196594536338, 6573062001669273848, 464429714610594606⟩],
  [⟨18417588127792957015, 16444529523188187364, 12084138139912705579, 16805794537696529⟩, ⟨13339545413024956285, 12462761674569060732, 10134406054826483261, 583754886928078523⟩, ⟨6246845195152016496, 16016738864936728009, 5667948898993596155, 948927193584489029⟩, ⟨17388237537280169500, 14688406879934192659, 9909558203923179050, 70400508517387223⟩],
  [⟨5474861045381340177, 7686087527544521306, 11338593297362199268, 1021856532337771510⟩, ⟨8052444443922943850, 4009271504061137276, 5568866554849053281, 1340081542973701928⟩, ⟨13718366036845239510, 18043008954918195926, 9743799172723723811, 242610881533123775⟩, ⟨12288963833321771774, 11144465775025909714, 3141275767114171625, 895525891428781574⟩],
  [⟨12404021506369929265, 14478431220710638983, 16528978820778867199, 1337150421852075847⟩, ⟨14269177948606518010, 14317366494171555302, 17781066350959942798, 197359887673063489⟩, ⟨12899528200685423645, 1817678529746564917, 2099502764987009011, 1116816677457497135⟩, ⟨6364946926969012391, 15881033552478042103, 16127504872579347712, 382615667735657086⟩],
  [⟨11058646051271038745, 6859926553724662452, 14087301393004364310, 933306102477549317⟩, ⟨1055047094489815101, 4078033726602170946, 12892578489024905517, 1281158139572661976⟩, ⟨5359943878923586203, 16376042868862104786, 5637680489769528437, 274508389146665774⟩, ⟨9466887184987077213, 12707324624592417252, 5674722778664167831, 495915214907561344⟩],
  [⟨5559270171112387908, 18090552370541844697, 4468532076227855438, 987685496358074261⟩, ⟨10757975082173786027, 17106276533668884653, 16008494306379137448, 1236424776827918502⟩, ⟨12651630831207509026, 9201507732813618723, 16271105479151831696, 1088028967768313039⟩, ⟨1230449153550648107, 265047928608104139, 14808043482234569955, 325688046287390058⟩],
  [⟨13141399420347535214, 10323718706655672545, 5271972852381490754, 698174654390126163⟩, ⟨372444215127449162, 6596103022703759073, 1647706108480519163, 886941719362299906⟩, ⟨5032445406852833227, 3216505841560606858, 6517925226383774397, 1070169747543143371⟩, ⟨606117931900595268, 11653697130177906902, 16942600493441083920, 207641435432611378⟩],
  [⟨10156513900929988871, 10530356278918523762, 14822893961039084664, 161451167716228232⟩, ⟨5121741770267475287, 15513755736291034019, 15586246947451164544, 318686326614228424⟩, ⟨10544893749060569045, 16634377462455718128, 15424965125419130088, 421312194245698247⟩, ⟨11266056403263964991, 12568371609374858109, 3531321490936409191, 508836381468284493⟩],
  [⟨14899630606893874181, 6378344959523143322, 5326343488656073582, 678256632460809235⟩, ⟨8604354652434330145, 15276531567938090768, 4221676591098543719, 887292207042946940⟩, ⟨10167720299639556674, 4032113283136195884, 15412529848138749452, 21416729784789829⟩, ⟨1744850832220109759, 13008821337905939469, 11071631382001010551, 788542992044475498⟩],
  [⟨2588487693831923600, 819162455518477850, 14502680861403887785, 203676022757604871⟩, ⟨15050651530407319810, 5238818184223155551, 10359161461431902961, 163152244193461490⟩, ⟨11621410489163276959, 8095296962816118406, 17382993292008629559, 830965834513277734⟩, ⟨4679845673800762002, 11732742802677067267, 5456637834111887652, 399639723348579854⟩],
  [⟨2687561395762377863, 2742745916341259698, 3044301131411393039, 723385064584425062⟩, ⟨7499903664201677436, 10700255296173911735, 9370120751716629255, 519782401388716596⟩, ⟨12815697858642806748, 3589518328364739416, 5217556848154698002, 1289540407776785865⟩, ⟨5916520816310451970, 9082425633134247720, 12382542148805970812, 992107013138241122⟩],
  [⟨6236639905261224386, 843729385509220216, 910784084401746031, 557709047224682096⟩, ⟨15307210632392180298, 15607334968149180484, 9709374798094721055, 911705022776362835⟩, ⟨565211768823822757, 4304458791623152845, 10249442774709061676, 1097659357675265239⟩, ⟨12205146530944986348, 2116986434579909283, 4201175271170209969, 992267258612987371⟩],
  [⟨12458858951338998496, 4060946816566081281, 4815111439256220560, 889585388579716031⟩, ⟨13330737697681975741, 14306352519046153100, 6792373522794028640, 181857489562014553⟩, ⟨9910876762206447536, 2419056950848665021, 5515306838952911504, 400668493068602121⟩, ⟨4501996026292399474, 3944405189426212415, 2099089514371618361, 339943583855773594⟩],
  [⟨2693369834887763486, 5226235063818719501, 1134958389215915674, 216164169472267996⟩, ⟨11481921067854847814, 3619328605795306677, 1172215419425542958, 698824999301654900⟩, ⟨5583148815732609314, 7533776866599928206, 4700764388317654893, 795419583657348713⟩, ⟨17490171026965334038, 511945728425642245, 7365182481044577047, 220760401169961586⟩],
  [⟨3475090391351524558, 14779509624823172685, 3424268588547377302, 807300922038386992⟩, ⟨2661498283128546182, 8564296373141310570, 1331354831148546679, 288633548378759086⟩, ⟨160646850906444279, 16524505359942069161, 907391002106299867, 559294066232203259⟩, ⟨15868970648699916119, 4564623492190132505, 13103059063354872833, 100862674768271570⟩],
  [⟨1221307603989354164, 12587043720970902174, 16895819776297027028, 145062209314500623⟩, ⟨16353516398818965607, 14353195469809830563, 6413743319392341778, 328149786789847495⟩, ⟨18408500173092127083, 15531422165208984882, 15085140826729156921, 838526002683321237⟩, ⟨17044208833349483673, 4186851180160463186, 18439292304841373891, 635623871921935831⟩],
  [⟨12010244824104902831, 7094652480399574006, 4750126738460582225, 989637526032941486⟩, ⟨4441078329722014290, 13429060628884043553, 17809157578144273686, 434244385592794118⟩, ⟨6991808242812880086, 9244601469821298803, 240701800791269362, 709808634005480046⟩, ⟨13857085282532288295, 308678407453354502, 15922558612862651645, 851414952912951519⟩],
  [⟨5101399957442677481, 2142578709995607628, 15743510483605305349, 666733543413083275⟩, ⟨4873022314864281149, 13307090161474032822, 14158291996867903752, 938052837538358985⟩, ⟨1546160817298626130, 10540049778787005713, 3368713709127751691, 363188968017269367⟩, ⟨672262991009706902, 12218048109997218244, 13699765194488826580, 1084475947638507828⟩],
  [⟨18346923840081698634, 12943712128874619670, 4019790911633783753, 1100400008744250128⟩, ⟨17812255713702828327, 18006780541970109111, 15638439909761933062, 607605721282836799⟩, ⟨2146046584044097439, 13101190276266477217, 13417007043729135623, 306909505181101092⟩, ⟨5881505764977051707, 9027582737682954755, 13113110745761042063, 498156427767794980⟩],
  [⟨18445494826303215741, 1922640032275348520, 18401753303151108255, 413700892364628288⟩, ⟨5713551333083111944, 13466982107671483604, 18052718879288026086, 606241695332365536⟩, ⟨5341312667566345417, 15999363884279236272, 3859963172427206256, 137512694474664211⟩, ⟨17490177364963826654, 14543044352686070271, 16150001646614169348, 704698259553703393⟩],
  [⟨9727568846190657427, 14417114472564400058, 9365197390786121627, 794983300027476088⟩, ⟨12997373201110860726, 14246380874068335614, 13296665919577048738, 1098745640843188596⟩, ⟨7228530868527339586, 15583029622716990094, 8861208517089803667, 82901497917931480⟩, ⟨13638279809916295410, 128790733739477632, 8417886451161888027, 991255423238702330⟩],
  [⟨11087968183222739640, 2587511469422769048, 14523312587696220059, 192146587408207716⟩, ⟨8412996681904903641, 11887442821301638447, 3370639369565289246, 53949002610311715⟩, ⟨14762391536874926895, 10740959434718252074, 1226825919833891779, 365160723178298573⟩, ⟨1555330760834900970, 1518370310210703133, 1735267998098714592, 1025622291285303779⟩],
  [⟨1334503499975428364, 10717052295534688524, 7361984650156075053, 844791857359624202⟩, ⟨16941837112843173147, 2487213732723210497, 6266342779648955295, 833823163972637517⟩, ⟨17244221202450562885, 9683927217285200288, 17625214279845872049, 72929072308819687⟩, ⟨17322021997939023067, 12230087119796208396, 18396814271884812695, 813805950829206789⟩],
  [⟨15948063285113474855, 10770603797800150235, 6677092062918475126, 1088103102296276139⟩, ⟨7711244693099635983, 3166785488663936361, 4922456695483615993, 430831973502880121⟩, ⟨3809367189852072520, 9855677685061821074, 945495584216248446, 909359350460583709⟩, ⟨8110395815872458853, 1514592973182402061, 790829722054948037, 353129076761034824⟩],
  [⟨4490522698778351596, 14224519981854920216, 17099540428194228219, 339422077308612769⟩, ⟨5639095254854416487, 1620715418926540453, 2533378178940440961, 1219281352481947332⟩, ⟨10638608741850236276, 6613656335866104958, 7688920349526656377, 267050381048915175⟩, ⟨3036522849970263675, 6507669881427436695, 17574949570571358776, 1277705835314573728⟩],
  [⟨2222484869463773519, 6808168746395796147, 4421285536548949511, 221502296849107896⟩, ⟨13864906390918380841, 14542080963104347726, 4946615231209518707, 410716390051665697⟩, ⟨17342164341678591250, 2157153117836804364, 17774122463652037556, 1045677158150316262⟩, ⟨1897195111902571201, 7441808212794130262, 14230292566113962566, 158679422354435267⟩],
  [⟨12385311968994581122, 13994070371431075240, 8808495601965357849, 1021378877363492133⟩, ⟨6493128916407973417, 7997830985039481850, 7096965712368312908, 1047173662891619916⟩, ⟨4284147259360490869, 16041408471489150031, 7607939514063442430, 829626684549401311⟩, ⟨1856817747001420784, 16357946393175270201, 9210719327832581050, 1018175197760234391⟩],
  [⟨5500145050367041469, 3840984581227276122, 3431832361289319237, 260564656886891183⟩, ⟨14712945504944782403, 15039214861617765141, 11103751083365574273, 113689317515455733⟩, ⟨701726807475653267, 14140055316542680948, 3011442975075019770, 584361997905323533⟩, ⟨17748483580890358752, 10604246296825603311, 13033470142003819820, 599441163676514743⟩],
  [⟨5299230594859812716, 16638780731660150925, 952927811712562861, 498189305785932392⟩, ⟨4432890524542841769, 1996216122820571178, 12192741690714508643, 764076413945664713⟩, ⟨13089352217465064175, 15801731950730062998, 16367845731547800506, 315925055121715682⟩, ⟨4079387977856382544, 9219169523776319636, 17133435751310074522, 1287156460338158966⟩],
  [⟨14473285560728073066, 3618147328828088415, 4933194636388348895, 391722132844625282⟩, ⟨13555572770500462469, 12796156150384677031, 16297295557264104694, 523410635806816263⟩, ⟨6170968086362616849, 306706920248086968, 4382856058195592988, 1226950348108880303⟩, ⟨3093606516563139647, 4131257826299546810, 10588085520003095457, 1310373646887997506⟩]]

/-- `optimized_arc`, poseidon377/src/params/rate_4.rs:3677-4250 -/
def rate4_optimizedArc : List Limbs := [
  ⟨9886223877583555338, 2726526174642559934, 4587790518566470505, 576729411659255749⟩,
  ⟨8635683872171027649, 6178568763530680712, 4049298017970875225, 1010899895527016760⟩,
  ⟨4386287284362214114, 15794275297560972982, 13426231751965312445, 1202171528338027358⟩,
  ⟨748088700594287215, 1472010505444622065, 17517940238534715767, 284646916897302179⟩,
  ⟨10279507610927218934, 8427605231324569630, 5256766482183491681, 599767801296570400⟩,
  ⟨5616532683870270019, 16714573776517987780, 2780158541662869274, 82005381951989400⟩,
  ⟨628047193644056282, 3081927050412275131, 16607349608647881262, 723666033729227034⟩,
  ⟨4014053105906402474, 8516064025130570203, 16439212471763340654, 1066408903228028504⟩,
  ⟨3781775891997454435, 16784197273788891439, 15993490775706321548, 1246974369195687342⟩,
  ⟨13315871439997102610, 1360174578976506509, 1935727712649190133, 888928512483410116⟩,
  ⟨8976641770861237410, 6687451940339132521, 18044907108310696377, 1207869807557250559⟩,
  ⟨4528878922761055500, 7463187218610955446, 4533754848507645556, 35071527712858390⟩,
  ⟨2054133897613963099, 8179564031063470525, 1531556284029346638, 874298192527556148⟩,
  ⟨18305580017782407596, 2150793914184610589, 17311607174845242499, 959373557899881125⟩,
  ⟨11483900964553043288, 12487129025031613244, 15391908241276224492, 269335905993702128⟩,
  ⟨8338971145620331245, 12372781419517678375, 2199283600481834995, 349132078387032325⟩,
  ⟨16711498854962897180, 964757925282058102, 2534475787702313401, 879174178299686832⟩,
  ⟨9948612635577575267, 10310004629375851550, 14569008704673249814, 698796675030817938⟩,
  ⟨11983101385647491113, 6756494718617323834, 3986787822213493305, 810568397631777742⟩,
  ⟨263703597816264419, 5391923373962277868, 8069762938958691329, 167001460324522424⟩,
  ⟨12719698031922087137, 3635206538516773241, 14946573674542408006, 904022619675467349⟩,
  ⟨6762216158719169172, 9642199571024567935, 5142823812984968700, 1291046148927292666⟩,
  ⟨16680204203505507730, 8087548591244649631, 15438619206653090081, 1223574451283768225⟩,
  ⟨15843265781989514164, 11764842050278291695, 5504272762074655066, 1332848573377839351⟩,
  ⟨14629863041087566865, 13982939885426451475, 4404573463578858817, 228759527459751766⟩,
  ⟨5809286761889033537, 11277370821793444978, 3107117479578979614, 305735955848689987⟩,
  ⟨0, 0, 0, 0⟩,
  ⟨0, 0, 0, 0⟩,
  ⟨0, 0, 0, 0⟩,
  ⟨0, 0, 0, 0⟩,
  ⟨13948409934814415504, 9820154694698383592, 15339478710638889187, 228350902630534490⟩,
  ⟨0, 0, 0, 0⟩,
  ⟨0, 0, 0, 0⟩,
  ⟨0, 0, 0, 0⟩,
  ⟨0, 0, 0, 0⟩,
  ⟨9065604528638698957, 3194171905752976735, 3352166936878863002, 1231275645191263862⟩,
  ⟨0, 0, 0, 0⟩,
  ⟨0, 0, 0, 0⟩,
  ⟨0, 0, 0, 0⟩,
  ⟨0, 0, 0, 0⟩,
  ⟨8579200991377095094, 9015821969914095981, 3670786722209097686, 925402881763579823⟩,
  ⟨0, 0, 0, 0⟩,
  ⟨0, 0, 0, 0⟩,
  ⟨0, 0, 0, 0⟩,
  ⟨0, 0, 0, 0⟩,
  ⟨11761775895269121220, 12572917397999688032, 10698111778021992718, 739030648247632040⟩,
  ⟨0, 0, 0, 0⟩,
  ⟨0, 0, 0, 0⟩,
  ⟨0, 0, 0, 0⟩,
  ⟨0, 0, 0, 0⟩,
  ⟨1406476064536236033, 9641904169359584691, 209897974740814668, 1004730517253795328⟩,
  ⟨0, 0, 0, 0⟩,
  ⟨0, 0, 0, 0⟩,
  ⟨0, 0, 0, 0⟩,
  ⟨0, 0, 0, 0⟩,
  ⟨18342895263686664503, 17441455493733274041, 5057199659823690304, 1191886919996393979⟩,
  ⟨0, 0, 0, 0⟩,
  ⟨0, 0, 0, 0⟩,
  ⟨0, 0, 0, 0⟩,
  ⟨0, 0, 0, 0⟩,
  ⟨18290582194527069827, 6852353546873280582, 14232314971261025505, 754530050701193486⟩,
  ⟨0, 0, 0, 0⟩,
  ⟨0, 0, 0, 0⟩,
  ⟨0, 0, 0, 0⟩,
  ⟨0, 0, 0, 0⟩,
  ⟨6721150425319195661, 13696483494608803551, 14639895569983779179, 190432279900459470⟩,
  ⟨0, 0, 0, 0⟩,
  ⟨0, 0, 0, 0⟩,
  ⟨0, 0, 0, 0⟩,
  ⟨0, 0, 0, 0⟩,
  ⟨2285783420521743219, 14591994399938496304, 12535886408060618378, 501101710489306684⟩,
  ⟨0, 0, 0, 0⟩,
  ⟨0, 0, 0, 0⟩,
  ⟨0, 0, 0, 0⟩,
  ⟨0, 0, 0, 0⟩,
  ⟨7822724896156552074, 7689777522145170361, 9730977649721376401, 311055255784537528⟩,
  ⟨0, 0, 0, 0⟩,
  ⟨0, 0, 0, 0⟩,
  ⟨0, 0, 0, 0⟩,
  ⟨0, 0, 0, 0⟩,
  ⟨1834958024306476590, 16605000872934730848, 8734772715942251355, 1026168817960127241⟩,
  ⟨0, 0, 0, 0⟩,
  ⟨0, 0, 0, 0⟩,
  ⟨0, 0, 0, 0⟩,
  ⟨0, 0, 0, 0⟩,
  ⟨5790287081621506475, 18067297368696384877, 1971894623462079455, 497112957651892314⟩,
  ⟨0, 0, 0, 0⟩,
  ⟨0, 0, 0, 0⟩,
  ⟨0, 0, 0, 0⟩,
  ⟨0, 0, 0, 0⟩,
  ⟨8621725523835646269, 12965774417410118256, 14706095127353190822, 1142857683996139025⟩,
  ⟨0, 0, 0, 0⟩,
  ⟨0, 0, 0, 0⟩,
  ⟨0, 0, 0, 0⟩,
  ⟨0, 0, 0, 0⟩,
  ⟨15741284293667530319, 12915384592541106208, 10337602748724507139, 621400944646732378⟩,
  ⟨0, 0, 0, 0⟩,
  ⟨0, 0, 0, 0⟩,
  ⟨0, 0, 0, 0⟩,
  ⟨0, 0, 0, 0⟩,
  ⟨10418600921631639086, 13969232505211882397, 6670084530256782375, 589250133235990401⟩,
  ⟨0, 0, 0, 0⟩,
  ⟨0, 0, 0, 0⟩,
  ⟨0, 0, 0, 0⟩,
  ⟨0, 0, 0, 0⟩,
  ⟨13301798549602548743, 5096901969148881844, 14446280392699573069, 437782466408137787⟩,
  ⟨0, 0, 0, 0⟩,
  ⟨0, 0, 0, 0⟩,
  ⟨0, 0, 0, 0⟩,
  ⟨0, 0, 0, 0⟩,
  ⟨14260778386751756941, 15721044723566323721, 9992114336939362025, 1127453549788190537⟩,
  ⟨0, 0, 0, 0⟩,
  ⟨0, 0, 0, 0⟩,
  ⟨0, 0, 0, 0⟩,
  ⟨0, 0, 0, 0⟩,
  ⟨9374740633145639151, 2749992728162535287, 324605534042342541, 875415928381457928⟩,
  ⟨0, 0, 0, 0⟩,
  ⟨0, 0, 0, 0⟩,
  ⟨0, 0, 0, 0⟩,
  ⟨0, 0, 0, 0⟩,
  ⟨267437928690707389, 15443945850723586497, 12627722626447870588, 76078095185201612⟩,
  ⟨0, 0, 0, 0⟩,
  ⟨0, 0, 0, 0⟩,
  ⟨0, 0, 0, 0⟩,
  ⟨0, 0, 0, 0⟩,
  ⟨10923993363806369263, 18267784178840739395, 14630481450219570438, 378947118067140053⟩,
  ⟨0, 0, 0, 0⟩,
  ⟨0, 0, 0, 0⟩,
  ⟨0, 0, 0, 0⟩,
  ⟨0, 0, 0, 0⟩,
  ⟨11403976482284459978, 16272983986590444793, 3765503922077751896, 79364539722273290⟩,
  ⟨0, 0, 0, 0⟩,
  ⟨0, 0, 0, 0⟩,
  ⟨0, 0, 0, 0⟩,
  ⟨0, 0, 0, 0⟩,
  ⟨11448721382876703681, 14847931759131246244, 7128092965784075415, 180922588002186450⟩,
  ⟨0, 0, 0, 0⟩,
  ⟨0, 0, 0, 0⟩,
  ⟨0, 0, 0, 0⟩,
  ⟨0, 0, 0, 0⟩,
  ⟨12703693405537318683, 17809616441104653297, 1356025434738010042, 678042696111256776⟩,
  ⟨0, 0, 0, 0⟩,
  ⟨0, 0, 0, 0⟩,
  ⟨0, 0, 0, 0⟩,
  ⟨0, 0, 0, 0⟩,
  ⟨1581134933636608728, 8974334562566747609, 13981094886159927949, 879338632538017255⟩,
  ⟨0, 0, 0, 0⟩,
  ⟨0, 0, 0, 0⟩,
  ⟨0, 0, 0, 0⟩,
  ⟨0, 0, 0, 0⟩,
  ⟨13448202253461902078, 6113850066861673560, 8363760165130703945, 430895863395699323⟩,
  ⟨0, 0, 0, 0⟩,
  ⟨0, 0, 0, 0⟩,
  ⟨0, 0, 0, 0⟩,
  ⟨0, 0, 0, 0⟩,
  ⟨11364646780735898548, 18310352822657651209, 1715448934469054774, 373623735103410086⟩,
  ⟨0, 0, 0, 0⟩,
  ⟨0, 0, 0, 0⟩,
  ⟨0, 0, 0, 0⟩,
  ⟨0, 0, 0, 0⟩,
  ⟨5160483194403952864, 5269789810582188597, 7949343741254368028, 648244985265401351⟩,
  ⟨0, 0, 0, 0⟩,
  ⟨0, 0, 0, 0⟩,
  ⟨0, 0, 0, 0⟩,
  ⟨0, 0, 0, 0⟩,
  ⟨2578613260896705768, 16973829270463026541, 1007269524128147481, 588832280601996335⟩,
  ⟨0, 0, 0, 0⟩,
  ⟨0, 0, 0, 0⟩,
  ⟨0, 0, 0, 0⟩,
  ⟨0, 0, 0, 0⟩,
  ⟨18113257874564708980, 4260053189158561988, 17013073166096369676, 79169829782754517⟩,
  ⟨0, 0, 0, 0⟩,
  ⟨0, 0, 0, 0⟩,
  ⟨0, 0, 0, 0⟩,
  ⟨0, 0, 0, 0⟩,
  ⟨11433643047469980018, 1276670802646402384, 7225445039450827835, 1320607862737647658⟩,
  ⟨9049650314779674715, 15332775679178116922, 10916059016321665268, 1115159218126791192⟩,
  ⟨5320499112936763732, 11250539854586634824, 12063947087263213252, 710935487070228339⟩,
  ⟨18379608258942880321, 15727113804916673274, 10498320535108511002, 845002076776323646⟩,
  ⟨6828593483180812035, 1682481325156526923, 14049047336459608184, 1126148273021080778⟩,
  ⟨3872917422679565944, 1271915972458656550, 1092693023912110895, 1298968277402891756⟩,
  ⟨7814132502258843917, 8078742423972593556, 8536158594561933049, 191277843487617954⟩,
  ⟨5652311561512870887, 16495461651672765449, 11098657231551158518, 493087321946801171⟩,
  ⟨6368409936062697439, 792796763844864197, 5610460501625398581, 546867399856191995⟩,
  ⟨3038217149528838505, 8627484827600343283, 7414393357134479493, 985381996389905690⟩,
  ⟨14953970136252134871, 295452924685135549, 11287279099077480718, 617093465173114131⟩,
  ⟨140435627222783551, 17855535656574994648, 5022512547318532764, 473386213985532003⟩,
  ⟨7030554896034226352, 6441059691989760702, 581099786512472761, 1269259459863271622⟩,
  ⟨6770052323275442396, 12901743183408121797, 13004549993560303547, 969914125748537569⟩,
  ⟨11435239377991792553, 14044046789306606033, 11369816462011584822, 1239930404010674345⟩,
  ⟨2621636762951244377, 7758290588105338214, 14625731574391580682, 7696703746211481⟩,
  ⟨8270493924131469556, 15946263820341678216, 6122109191607485742, 1119062509985100783⟩,
  ⟨11252124749266599346, 8413749501404755931, 9936257142296575431, 189818330075783365⟩,
  ⟨1537275707366966513, 2232381660897701103, 2870196216416932989, 1271177660936312287⟩,
  ⟨1398814984843324301, 15240858180305901997, 14386262707998656254, 1102388553837536368⟩]

/-- The literal tables of `rate_4()`, poseidon377/src/params/rate_4.rs -/
def rate4Raw : RawTables :=
  { arc := rate4_arc, mds := rate4_mds, mHat := rate4_mHat, v := rate4_v, w := rate4_w, mPrime := rate4_mPrime, mDoublePrime := rate4_mDoublePrime, mInverse := rate4_mInverse, mHatInverse := rate4_mHatInverse, m00 := rate4_m00, mI := rate4_mI, vCollection := rate4_vCollection, wHatCollection := rate4_wHatCollection, optimizedArc := rate4_optimizedArc }

theorem rate4Raw_wf : rate4Raw.wf 5 = true := by decide +kernel

/-- `rate_4()`, i.e. `RATE_4_PARAMS` (poseidon377/src/lib.rs) -/
def rate4Params : Params Fq 5 4 25 16 39 5 195 31 := rate4Raw.toParams rate4Raw_wf

end Poseidon
