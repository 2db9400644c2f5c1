import Verif.Model.Tables

/-! Generated by tools/gen_params.py from poseidon377/src/params/rate_2.rs; do not edit. -/

namespace Poseidon

/-- `arc`, poseidon377/src/params/rate_2.rs:11-714 -/
def rate2_arc : List Limbs := [
  ⟨13532052565085671856, 13175575834742130482, 14571043277169067394, 1128324334676141805⟩,
  ⟨10586567975029405298, 5987505274649066590, 9663655893165983133, 381788629769180835⟩,
  ⟨7404335995308317606, 10342209374602516054, 14679697400509748167, 1259991645283011647⟩,
  ⟨12711294721892819516, 8412935995118692797, 7069737649526067295, 549549236990677487⟩,
  ⟨128694122049037398, 15825223235256271389, 74647683628497806, 403759781237802093⟩,
  ⟨3501552524290051296, 10688664658423588201, 8345653809557910120, 766292783896459938⟩,
  ⟨13998055823902745235, 15535161481341849823, 9848874496394823215, 579121379437172744⟩,
  ⟨16363263235454987811, 9117252686821547535, 4794867261658414781, 418411818796950741⟩,
  ⟨3710344964675021293, 13957371261080223237, 15195218532629186765, 760708816844813378⟩,
  ⟨16135673103471103205, 13943139040297964408, 12037506718934223099, 1187380734246932890⟩,
  ⟨11326210002632211732, 2893415499386035614, 2949171194607212014, 568849018592141776⟩,
  ⟨13925494990768706056, 13969996543019858204, 13457764640058086886, 114396439087701688⟩,
  ⟨16351586607272228519, 6269966282891300082, 12490381894697744781, 834648274293416263⟩,
  ⟨1437979443977545600, 14767193465362841311, 11074881595123675812, 1204201379421269428⟩,
  ⟨5230240271406271908, 16847766581152362930, 1712847198165617791, 311937423231086981⟩,
  ⟨3645836740283016323, 15685198898945208452, 1980971647688859029, 176967089015698342⟩,
  ⟨7550143813701248311, 18291556615524985846, 8534400014086995148, 500430429779017952⟩,
  ⟨596957473479108084, 6324092840533510915, 4811101589352947098, 76518932650696039⟩,
  ⟨336812235439984799, 13522610888312181094, 10501405696980879642, 449669351326561391⟩,
  ⟨12592523411743912820, 3924222765120111350, 5699458771760954386, 892267873608702453⟩,
  ⟨12993017322389395630, 5952902593915102432, 5247111021983199097, 470467609253978097⟩,
  ⟨7244663031809848522, 3071554415549245091, 2773295222867337766, 1090905641165090834⟩,
  ⟨9981097535495148290, 12930981823992014491, 9629464214154256600, 308026108875661910⟩,
  ⟨12850815434424207307, 8847171669624931211, 16288364336002865240, 954936779594025677⟩,
  ⟨11236881576270168641, 15414742267201110956, 7825767860878753872, 721136380245447153⟩,
  ⟨2832704701681877466, 7235621408572302496, 11812570847329545593, 792455748001887640⟩,
  ⟨3432713492718273410, 6465506654245539380, 8827139003294513485, 992550877185604089⟩,
  ⟨9728786934890323565, 10584002864733096791, 2293345482796697755, 180937419315601034⟩,
  ⟨13822678097673121251, 4948809415032161320, 15691917123613077102, 683890210553461269⟩,
  ⟨9002390647260096239, 10448673368926307125, 17815937281103619895, 1097505426950771788⟩,
  ⟨13908365267431289868, 3370079770970658040, 15308027316557057295, 1308145822882463267⟩,
  ⟨7831189882886479452, 4689238810753296883, 13159502922430301346, 27611585919074368⟩,
  ⟨14912709676120752020, 10115204646384083757, 10138309295115926582, 223210301540489796⟩,
  ⟨12627294687244820632, 2059848305109767326, 1888484742856066068, 1272834063475208138⟩,
  ⟨6115210324513801758, 10929870666119062300, 11707806468269326656, 949025326858793021⟩,
  ⟨7061826933729287205, 1126603583829494325, 5469143638052028670, 1033665004945948695⟩,
  ⟨11008930476894918520, 11381807375074895164, 2844592577512486485, 1128817316316311928⟩,
  ⟨5300558244079945539, 8283037415518590201, 11038807277807240648, 1178232107582202545⟩,
  ⟨11862022433031293870, 8913994378642882666, 9450763413034135432, 77958396662445698⟩,
  ⟨17688402066322086519, 524036851070457942, 14909117109897886121, 557290224371677333⟩,
  ⟨1875815915909501089, 10678692213853973640, 15989623299920327105, 428879321377057641⟩,
  ⟨1082841901890716129, 12068516826131602351, 7102481379375591007, 906616535867466859⟩,
  ⟨17613918888580330287, 6204465427334198417, 9436344365449852604, 655489186886697⟩,
  ⟨17585284967658841164, 80944379680805043, 2698615756683481750, 351188921018806563⟩,
  ⟨15687615037958784071, 2186404284346347770, 5652967689160162635, 1056583988063876017⟩,
  ⟨13107987562409563672, 3871322351409280978, 8803804680465229381, 1030040159656924298⟩,
  ⟨16684869482081657339, 10281204171444660632, 1624958597982547757, 386745834466917047⟩,
  ⟨6970896123209894127, 7830160530923913939, 17422861911349199859, 623374110284783712⟩,
  ⟨4331844870617545742, 520046082233107649, 5594606953430693091, 249698853373994073⟩,
  ⟨6680837442175120485, 6814766854525276712, 6556825746309967179, 570042050188335199⟩,
  ⟨15436728868072851979, 10638387680273826288, 16379320772832534606, 822954407147775124⟩,
  ⟨11837214986206518455, 596921394620411645, 13159256680099246054, 1277661308547494330⟩,
  ⟨13679203667889812546, 11676386286470050129, 8357354920215222534, 456950010799870038⟩,
  ⟨2229876009761017392, 13089694557765213339, 16529665410348556997, 1200161010593736391⟩,
  ⟨16005321486742773520, 8650710416750881700, 12927174790925866955, 1318630719916273524⟩,
  ⟨11180409359961118236, 7275623093671008389, 11439214005189014436, 975533040864102009⟩,
  ⟨1493684412606064445, 1600586062110688441, 6392169949497859284, 320645276436957806⟩,
  ⟨18076284763174743111, 15528272241931714086, 1987806618344857317, 81963683463344143⟩,
  ⟨2380106604330211947, 13999809284604519871, 17117752833631344354, 928049684624129249⟩,
  ⟨16709180677553116618, 15078892089982505559, 12839669848886637777, 1151522444646802538⟩,
  ⟨1024922389916170464, 4633605473275241115, 8890730306179887903, 1145679956560153579⟩,
  ⟨2689026397641652069, 13435392347048733438, 4613843849026450873, 644769297929746792⟩,
  ⟨1477469845453362358, 8875949790662885201, 7478581831156986579, 67083263015332207⟩,
  ⟨1506147123099314810, 6546355754774050650, 13235191534515389566, 573446483563428911⟩,
  ⟨11592075759296992527, 11495396924055153811, 17020953547937729115, 326913902434578022⟩,
  ⟨10523148363065643749, 13492540919508068783, 17386067260199896807, 528704601527288393⟩,
  ⟨9127950768740932108, 15914409702651500773, 11784570023787002367, 340904789729663175⟩,
  ⟨6245027322171754000, 15663478768566472378, 11402185558701422250, 36675236290199327⟩,
  ⟨6063749964881818939, 10257461935793181106, 942936442940111744, 540037121922249544⟩,
  ⟨12968659316148036261, 14899520595018177284, 3836336888070673001, 941781069635905693⟩,
  ⟨126228530830236165, 5499407626081829044, 14133761497400979158, 1184006332035149871⟩,
  ⟨5031808939874245057, 12620452215680194384, 1600289362926216464, 1200752349590914751⟩,
  ⟨13105110393340809165, 7101636223400183860, 1455202496382111435, 1040366751489349639⟩,
  ⟨2247493102747455874, 3444719793324110884, 17343476723736941016, 460423680466113922⟩,
  ⟨18230610362649795022, 4850929477447852354, 2999970116929109994, 374491266534684371⟩,
  ⟨205446930692894616, 10625340386042781881, 2267554848789579110, 805571592523062224⟩,
  ⟨9554436490539537540, 3781982688039156286, 12732806211783679988, 207650560800307204⟩,
  ⟨14608069410708161069, 15150367565152858757, 7976963546254869682, 1302080053778539832⟩,
  ⟨5668581368285301758, 1481024316238442280, 14073619068562930813, 157011518856032932⟩,
  ⟨10782685697581511660, 656395425526716484, 12429361742269361127, 1218629948585201369⟩,
  ⟨9945724486634605933, 5559580130460001707, 4958363795583827901, 1086630389709013647⟩,
  ⟨6214153618072836629, 6297284130475637236, 3341157682715609955, 687805559853576127⟩,
  ⟨17561648631049166744, 4193461398377217711, 17499970945040917083, 352506169960283993⟩,
  ⟨1122765646603573063, 1498611916106521677, 10924305234288949443, 728326887801130515⟩,
  ⟨5800850628186966207, 4398317517906769115, 9597227115480831972, 526197039749009419⟩,
  ⟨5159263173914965708, 8792786795115987428, 3124972989790777106, 1052873249848825660⟩,
  ⟨1668691385020369393, 4311283499155522888, 13095876963782085960, 334904475460146335⟩,
  ⟨14551884987824763154, 5459630410931408158, 838248742615457530, 355270342663742218⟩,
  ⟨13811707083670026157, 17980420357872171335, 15680078942835361627, 508494405154027190⟩,
  ⟨259245969673242010, 12143818002017916372, 9104957694955299615, 588078921942677607⟩,
  ⟨1402823264425646775, 17394328405754534008, 8594536777296298084, 589743092826427286⟩,
  ⟨17525191514318164285, 3032947818017798651, 8010733640330629183, 18263345896298111⟩,
  ⟨2324591806430845335, 3802314283763375525, 5802980770825972296, 1172121386066784655⟩,
  ⟨3481957081013606129, 7174433466077666272, 18298661318322644558, 779600890592950522⟩,
  ⟨12191117132876429501, 13984916474435046850, 15993612081836470001, 982264150805006675⟩,
  ⟨5832216401942411966, 14563514500329138886, 4063839581877579762, 988127094162723498⟩,
  ⟨9980296771901734820, 8406919274419375318, 7382848308758481422, 288106649508594049⟩,
  ⟨15311094169366877824, 8845543297515843004, 5111676196784685495, 854309633222289538⟩,
  ⟨11805299538225612753, 2464747910811709980, 7821113581135412494, 698716086285897944⟩,
  ⟨14453145658534747007, 17272254080461340124, 10230451546974640772, 626243697059407772⟩,
  ⟨11287978532447653494, 18279346120194159177, 2333031913403775389, 200338723139384832⟩,
  ⟨12366653650419860061, 16274230817774725784, 4516721510516055669, 75055982532212210⟩,
  ⟨388555674032981681, 6567318722554709379, 2086741448191262667, 908777123569794972⟩,
  ⟨9649589442582163437, 13541178269507352071, 14258536536571968121, 575215969686158075⟩,
  ⟨597836451158842199, 1858657668022201800, 504852646431126025, 351889211223645499⟩,
  ⟨8710335429210318089, 15939765460477572548, 13493874982974354172, 1195299757590572308⟩,
  ⟨16720044796621311460, 6297107607479107816, 15666086360782481298, 946070823657072210⟩,
  ⟨5216764590966106189, 18330556132248987975, 14778046174865524185, 601592383999400705⟩,
  ⟨12284358746189003172, 15796822047553990474, 10249807758448272935, 1260540691182942177⟩,
  ⟨14671741496053748797, 15956144823383552989, 8978105115308257315, 1129739098292337641⟩,
  ⟨16528885559305010985, 14885472285663731653, 8692450371018254777, 875854298006252122⟩,
  ⟨11216935928075429441, 7088545516130524118, 3510979311098449529, 980345967679074250⟩,
  ⟨8480849792218315917, 11146529356407982510, 4204845623809735650, 554809226012522197⟩,
  ⟨9465397404983425896, 1339596460298740670, 2695000812316794677, 164270174202044235⟩,
  ⟨12807958353199166386, 2607509355362673632, 9510828759520576266, 306232379852697998⟩,
  ⟨14216260065142834520, 8830790711865643815, 7264415235010871052, 905551093713836953⟩,
  ⟨1392129315389772974, 3163495863255052347, 5961497987857813198, 47707649459794917⟩]

/-- `mds`, poseidon377/src/params/rate_2.rs:715-773 -/
def rate2_mds : List Limbs := [
  ⟨15302903146332116305, 8895355854553175376, 548696419140371791, 319366418254432479⟩,
  ⟨16270238816294404093, 17510165790819614716, 15988650198697570299, 575844906362867708⟩,
  ⟨2093244959304135473, 7921656493611837028, 14184576022206158435, 729731999227928846⟩,
  ⟨16270238816294404093, 17510165790819614716, 15988650198697570299, 575844906362867708⟩,
  ⟨2093244959304135473, 7921656493611837028, 14184576022206158435, 729731999227928846⟩,
  ⟨17237574486256691881, 7678231653376502440, 12981859904545217192, 832323394471302938⟩,
  ⟨2093244959304135473, 7921656493611837028, 14184576022206158435, 729731999227928846⟩,
  ⟨17237574486256691881, 7678231653376502440, 12981859904545217192, 832323394471302938⟩,
  ⟨14878706952858838161, 15410104227655356999, 17393275270132988194, 905602962502284432⟩]

/-- `M_hat`, poseidon377/src/params/rate_2.rs:774-799 -/
def rate2_mHat : List Limbs := [
  ⟨2093244959304135473, 7921656493611837028, 14184576022206158435, 729731999227928846⟩,
  ⟨17237574486256691881, 7678231653376502440, 12981859904545217192, 832323394471302938⟩,
  ⟨17237574486256691881, 7678231653376502440, 12981859904545217192, 832323394471302938⟩,
  ⟨14878706952858838161, 15410104227655356999, 17393275270132988194, 905602962502284432⟩]

/-- `v`, poseidon377/src/params/rate_2.rs:800-813 -/
def rate2_v : List Limbs := [
  ⟨16270238816294404093, 17510165790819614716, 15988650198697570299, 575844906362867708⟩,
  ⟨2093244959304135473, 7921656493611837028, 14184576022206158435, 729731999227928846⟩]

/-- `w`, poseidon377/src/params/rate_2.rs:814-827 -/
def rate2_w : List Limbs := [
  ⟨16270238816294404093, 17510165790819614716, 15988650198697570299, 575844906362867708⟩,
  ⟨2093244959304135473, 7921656493611837028, 14184576022206158435, 729731999227928846⟩]

/-- `M_prime`, poseidon377/src/params/rate_2.rs:828-863 -/
def rate2_mPrime : List Limbs := [
  ⟨9015221291577245683, 8239323489949974514, 1646089257421115374, 958099254763297437⟩,
  ⟨0, 0, 0, 0⟩,
  ⟨0, 0, 0, 0⟩,
  ⟨0, 0, 0, 0⟩,
  ⟨2093244959304135473, 7921656493611837028, 14184576022206158435, 729731999227928846⟩,
  ⟨17237574486256691881, 7678231653376502440, 12981859904545217192, 832323394471302938⟩,
  ⟨0, 0, 0, 0⟩,
  ⟨17237574486256691881, 7678231653376502440, 12981859904545217192, 832323394471302938⟩,
  ⟨14878706952858838161, 15410104227655356999, 17393275270132988194, 905602962502284432⟩]

/-- `M_doubleprime`, poseidon377/src/params/rate_2.rs:864-909 -/
def rate2_mDoublePrime : List Limbs := [
  ⟨15302903146332116305, 8895355854553175376, 548696419140371791, 319366418254432479⟩,
  ⟨16270238816294404093, 17510165790819614716, 15988650198697570299, 575844906362867708⟩,
  ⟨2093244959304135473, 7921656493611837028, 14184576022206158435, 729731999227928846⟩,
  ⟨7147916296078753751, 11795755565450264533, 9448453213491875784, 183737022913545514⟩,
  ⟨9015221291577245683, 8239323489949974514, 1646089257421115374, 958099254763297437⟩,
  ⟨0, 0, 0, 0⟩,
  ⟨10406805428937057924, 14160037477503257835, 7036231764655967476, 1082136417579874198⟩,
  ⟨0, 0, 0, 0⟩,
  ⟨9015221291577245683, 8239323489949974514, 1646089257421115374, 958099254763297437⟩]

/-- `M_inverse`, poseidon377/src/params/rate_2.rs:910-965 -/
def rate2_mInverse : List Limbs := [
  ⟨4383832024780107759, 7223259317565124429, 5707462847421561422, 885057472408297272⟩,
  ⟨6746251504312660021, 9699181025413837338, 15260914163925889303, 35388324151454979⟩,
  ⟨5008847210566114882, 8801394942975925486, 18175922902442652272, 916924432575702892⟩,
  ⟨6746251504312660021, 9699181025413837338, 15260914163925889303, 35388324151454979⟩,
  ⟨15450583684112934333, 18216376800760520619, 4209613945072000948, 155813436852978744⟩,
  ⟨9834172736316928124, 189466111752828136, 13335900722961176546, 530999546582786085⟩,
  ⟨5008847210566114882, 8801394942975925486, 18175922902442652272, 916924432575702892⟩,
  ⟨9834172736316928124, 189466111752828136, 13335900722961176546, 530999546582786085⟩,
  ⟨11796616273943571364, 15542379905239984210, 1578039792447016471, 947030710751083834⟩]

/-- `M_hat_inverse`, poseidon377/src/params/rate_2.rs:966-991 -/
def rate2_mHatInverse : List Limbs := [
  ⟨17242594123341362780, 10420431729582929402, 13098868289430565627, 261978409307343683⟩,
  ⟨4962966789362289472, 13671436036280945585, 17033622650389008176, 591212102933547967⟩,
  ⟨4962966789362289472, 13671436036280945585, 17033622650389008176, 591212102933547967⟩,
  ⟨2148639234720789121, 15880825911856067065, 16042722653708983750, 635825847167915836⟩]

/-- `M_00`, poseidon377/src/params/rate_2.rs:992-997 -/
def rate2_m00 : Limbs := ⟨15302903146332116305, 8895355854553175376, 548696419140371791, 319366418254432479⟩

/-- `M_i`, poseidon377/src/params/rate_2.rs:998-1033 -/
def rate2_mI : List Limbs := [
  ⟨9015221291577245683, 8239323489949974514, 1646089257421115374, 958099254763297437⟩,
  ⟨0, 0, 0, 0⟩,
  ⟨0, 0, 0, 0⟩,
  ⟨0, 0, 0, 0⟩,
  ⟨16360065460916622652, 6825609680461496913, 5558627326231064465, 128471165991923814⟩,
  ⟨7428548079683657885, 9054293525864294989, 16239738740266557642, 509891970840567989⟩,
  ⟨0, 0, 0, 0⟩,
  ⟨7428548079683657885, 9054293525864294989, 16239738740266557642, 509891970840567989⟩,
  ⟨1051461353787812132, 3723993058108873740, 15567687070894540562, 722382702096971016⟩]

/-- `v_collection`, poseidon377/src/params/rate_2.rs:1034-1469 -/
def rate2_vCollection : List (List Limbs) := [
  [⟨16270238816294404093, 17510165790819614716, 15988650198697570299, 575844906362867708⟩, ⟨2093244959304135473, 7921656493611837028, 14184576022206158435, 729731999227928846⟩],
  [⟨18204910156218979669, 16293041589642941780, 9975069610392864084, 1088801882579738168⟩, ⟨3072474957567996411, 7632850653899625657, 6867324839353272651, 1129105644996777990⟩],
  [⟨11749409346063797401, 13847779958722295463, 5230051856842938218, 809528761888529318⟩, ⟨16538317435082867476, 140673227072662684, 4917458456429054520, 951347002169384040⟩],
  [⟨8049501819868988169, 4640840621228515661, 5281323386686467274, 1217317166531385469⟩, ⟨15861181624207003323, 10871450011713172103, 4492382029642778046, 495041570025076744⟩],
  [⟨491531644685882947, 16236469504155238438, 13405996466460073108, 191442324574972544⟩, ⟨14234832595612208455, 16711171142020806901, 9818085755212544560, 433758843793119660⟩],
  [⟨8692243294689566788, 17131754811489911037, 16082421295010554115, 245109642615998458⟩, ⟨12752747264486126419, 12936758402746978248, 7901753820298393242, 1086817638717069074⟩],
  [⟨716899015486837574, 12929955716143301332, 6296181173922398814, 95630164573893864⟩, ⟨10771615223994036552, 12477611863199363886, 5019464732542008653, 260172239809303582⟩],
  [⟨2083749357590716775, 7802489018239475310, 4719252491703553508, 331544147020630716⟩, ⟨11839081110669849836, 16458332811546812068, 4108523134706353886, 1014020374083768583⟩],
  [⟨11143510974855252250, 1906425947937085984, 2407368748249553491, 504368299222388920⟩, ⟨8041950831366606113, 14611771049638947187, 11221299042990583579, 744635656555856530⟩],
  [⟨15987773674750471853, 7582780421302456968, 3513070142855093124, 449192997718482772⟩, ⟨1698389311466971615, 4208825745762883192, 17737380562723619127, 1023230515994865951⟩],
  [⟨15719775543772287808, 4711976878746234330, 9616083067266331949, 1291758636403773818⟩, ⟨11511319411419341690, 4611804125723845050, 17905923766281011346, 701498562864789906⟩],
  [⟨6775959117219461845, 7248217303083744152, 8323273847079805491, 1272121734883668680⟩, ⟨15960231410259949054, 831075562495169556, 666337526106305827, 827994946738712632⟩],
  [⟨3075648154561933440, 4787490504369527279, 2103456873768609578, 930535653041788534⟩, ⟨13632064958207562507, 2403612539570381736, 9671114344743639907, 554518676653218341⟩],
  [⟨16017511834618514656, 10675130055946071909, 4737919029540133580, 682111021257012783⟩, ⟨4054052073615595653, 15900491953977945207, 9657244812600116702, 746793989576728670⟩],
  [⟨11427159084253523216, 8137374149736453962, 493707633722255071, 574786622341431128⟩, ⟨3016813624761290833, 9410383431703917657, 207322790806709582, 604735846059941483⟩],
  [⟨13182715603850996122, 1385581621557644096, 15928797776098706943, 1247128249672542744⟩, ⟨12343557143080639521, 10608577464123341465, 8700628699767163855, 822798305869360351⟩],
  [⟨15640932130097417474, 2198144264546084253, 15157422365823566225, 162345305798039707⟩, ⟨15379897571473551238, 13605062526804796454, 1262497433072300524, 325397323402951460⟩],
  [⟨11985517729662602408, 11378058393967136140, 10784471266494716066, 355758022531067864⟩, ⟨15749607349459966392, 10347221607350790242, 16868641356169832097, 9481912848277140⟩],
  [⟨5070404887673962603, 7505346455783472838, 11581801124979799833, 162417281360137989⟩, ⟨14359230556911256253, 4739001612305070282, 615167045189603842, 893440173159515387⟩],
  [⟨6892861075705566142, 16405352091222855583, 9442037024015442096, 943715695188578421⟩, ⟨2681738006276381668, 13590338127726729778, 9006319668283998389, 571100162557721724⟩],
  [⟨7926076457258912989, 15568541251154450028, 15222738110907421829, 194241141418124411⟩, ⟨3900695082401480226, 13241392216815987825, 6715445016875356020, 559176536870193173⟩],
  [⟨4273472679882108688, 7043568940286842511, 9096453621609771899, 490785749945503317⟩, ⟨2078179201499171590, 16327227019578678368, 17980150213785344661, 1297383831585962991⟩],
  [⟨14728670056946621521, 17042639142917167694, 2971308019248556661, 314387788586761162⟩, ⟨14126190491907727041, 8208403354023925517, 4660262216078686939, 971808842720812284⟩],
  [⟨12606246547610594540, 9049616062023318605, 11742190485797839027, 90317661102003606⟩, ⟨7135240500841828540, 8166637984141883895, 4762161495768731224, 1056050894881259133⟩],
  [⟨11752411941768010421, 2371987101660996229, 7910923918069285785, 283757372746488803⟩, ⟨14169661373594066352, 10756814747639910216, 4179402566370914468, 294039297137006515⟩],
  [⟨12380990947758453459, 15919689303377847053, 4451172135381562238, 643870172347401539⟩, ⟨16919934541410985772, 12894445305080351094, 3222976969400102992, 1274426454940711344⟩],
  [⟨17739117012754232566, 7855016506876230601, 10199750748041585788, 610234517763900211⟩, ⟨14969807057009266193, 9743543989422659962, 265344874800963549, 193281162476465682⟩],
  [⟨9334899116745497567, 1443910720530394642, 15242704534506362012, 557844541838643008⟩, ⟨12596150337841453197, 17941854592742713998, 9536226961205720981, 193378317632915294⟩],
  [⟨2145847197367443746, 3494461491303192245, 8559536859052153255, 188641306996153597⟩, ⟨6619736277081498517, 16354589870583930111, 5727794428272011445, 472934899434235719⟩],
  [⟨15229354881950810050, 13117262548706587, 18434975406822541359, 430449497798843798⟩, ⟨4585061371183060684, 14866599352008180181, 17851236730068556506, 483368166519918339⟩],
  [⟨16121753970412208543, 9309799407998260359, 13316268079574695590, 1332560915242838761⟩, ⟨5320180137128926885, 4585099896596608821, 4959026927695406777, 12672238118064834⟩]]

/-- `w_hat_collection`, poseidon377/src/params/rate_2.rs:1470-1906 -/
def rate2_wHatCollection : List (List Limbs) := [
  [⟨7147916296078753751, 11795755565450264533, 9448453213491875784, 183737022913545514⟩, ⟨10406805428937057924, 14160037477503257835, 7036231764655967476, 1082136417579874198⟩],
  [⟨18050286569012579189, 12701735779500542307, 16028299840828156173, 889670182449753716⟩, ⟨17537805078915517156, 3881567050914191905, 15320666583506005360, 34817918541568626⟩],
  [⟨639651884569206475, 3208454571154516477, 5589814573911893755, 812188059462663385⟩, ⟨6035414598134387451, 221157594769622514, 1246867853953039854, 865666459554075403⟩],
  [⟨10986953500964328689, 4552354314624673085, 10130711827018722177, 726464205504256466⟩, ⟨14592704253024955499, 4367720503141755092, 3264507028823567377, 503642346381621716⟩],
  [⟨6929349916420721052, 7263465717590274222, 16428445137775857828, 783617578238482410⟩, ⟨1105466080997706678, 15638892732603802885, 15163494631828844812, 1265995546038282468⟩],
  [⟨12695614650926966465, 7645153902251269333, 15007858904354383754, 303173888887641556⟩, ⟨13532111267254117566, 453207663850979705, 1118439931840184625, 1109223913114108441⟩],
  [⟨1127605964966272093, 459071588792078574, 17569200668490318799, 556567547339769587⟩, ⟨743383751775379478, 2152757563916176356, 18215266305796881375, 613050128242856475⟩],
  [⟨7479292154348380014, 12505834466797528681, 7061175132070981799, 1037799745298480638⟩, ⟨4733881782580367683, 13385554219210821909, 11595152338390400937, 1286877367267536722⟩],
  [⟨10482398298648703137, 13154284141257785070, 12900892582326783232, 1312370380898727254⟩, ⟨7694076120856540521, 15146007605344947747, 3193830018416013595, 78000754372621570⟩],
  [⟨5244970134326960239, 15516929113764341255, 17564742414096943825, 565809721348112173⟩, ⟨5301582977685139465, 1069505112975002608, 16894882112854195663, 1006960914609031286⟩],
  [⟨933807009911564028, 17655717523721777752, 659854032695183391, 696948171193839726⟩, ⟨14431054331145497962, 17304755953697263142, 1213662370814867240, 406071929554987935⟩],
  [⟨12663120994246797343, 2294330459533986298, 12312665243517552316, 1162434858386655769⟩, ⟨14926635415117511105, 17764138882091983380, 9845162467394310721, 365262529860339315⟩],
  [⟨14453117806705169688, 15371763008771329739, 859830826361086373, 695666911485789237⟩, ⟨4372294882149658880, 8953368466178039118, 7175551968845157174, 1296799522059563299⟩],
  [⟨10743785724983518030, 11011793084410944909, 4710170432674399868, 872985210632843618⟩, ⟨17034928244178709962, 7064630411064620365, 11395663509669588708, 435858474778976283⟩],
  [⟨376125808430990068, 3949770427712474479, 1831829189608085506, 1033600417294508604⟩, ⟨10474175416970714387, 7638666470072040137, 15323998975775188709, 499861799254400548⟩],
  [⟨1311503503152331198, 10444356300795820152, 14006643509954394380, 360275028297029580⟩, ⟨8848990081142010576, 3767709270230096287, 3203373808160299103, 388150987057922534⟩],
  [⟨10527714796170242821, 10614707629823438759, 2166835449751899854, 826442630247846539⟩, ⟨6013609006746740436, 17829255150171580013, 4865370498689675602, 631806865209492278⟩],
  [⟨15407698184224138641, 13892993523782417432, 11074522626536989473, 1282147673049091223⟩, ⟨13566156582579433121, 10666124267110644787, 17585510383615080517, 460461758314188289⟩],
  [⟨242069913640544639, 8584725967717195423, 8673969491922319906, 906855204727712918⟩, ⟨7507622872789915132, 8838834878197495556, 4143887577251148647, 147314013318059527⟩],
  [⟨739343839918695474, 15137511284934501835, 8206744331706291412, 460517726754831566⟩, ⟨5332098194526476884, 17462053065946204764, 17109918215020530224, 45500621783055396⟩],
  [⟨7181843829067274762, 93170180385149654, 16601265500332534068, 692920224266685092⟩, ⟨17373541931105532396, 11757401236546761356, 8986928677878657520, 855377794858428568⟩],
  [⟨16770152912401058713, 7784323106136704842, 3166414142982631778, 252798645948426673⟩, ⟨9867428128375842792, 6330871821464522409, 2509737650104409073, 87377932535113034⟩],
  [⟨9620378538351684400, 16259903847898782084, 14224517332394904862, 248783024579596034⟩, ⟨15289486933546124534, 5057961130890228616, 5618412873763815158, 1218252246195044797⟩],
  [⟨18285461524892798097, 1312649631515945874, 2702563113361998981, 156990921411102370⟩, ⟨16897672275046167563, 14631253948673542966, 7825433188494427672, 497140819371349325⟩],
  [⟨5586425496410891559, 3860435103896432777, 15075562942840298887, 539774915240951994⟩, ⟨18444236515588467614, 2138469830557977395, 8290712504743660259, 832327778452741186⟩],
  [⟨15144610075012749322, 11801332079357554718, 11652842602527962385, 396912768209767018⟩, ⟨10639969620247737667, 7334159324553590340, 15063492084884778567, 878961650630548788⟩],
  [⟨18348264072788817511, 8009061068808737218, 6097418426121505352, 1211183153837556564⟩, ⟨17198860156343170394, 2167538157704278478, 10949270097435223366, 928056824653534234⟩],
  [⟨10634763804674129031, 9612181115928191305, 7893421171473086290, 251268211819044542⟩, ⟨12969986235926373418, 712178654575523278, 3830673788986900912, 1046343437814522982⟩],
  [⟨4298621992800380154, 4055578536241120435, 9617612244989535309, 382604375840733162⟩, ⟨18067399474523304446, 12223555489918789755, 9993950631657703109, 1048484019905387459⟩],
  [⟨13058818877006642653, 18414014235319212231, 14027764563566307518, 703825358964196766⟩, ⟨9830948603405623404, 3341559968925646454, 12259602563968066179, 912923676012093495⟩],
  [⟨8043127764066461437, 14803670394754936674, 15225608398783219441, 893330814736280447⟩, ⟨4386126239109851849, 12096965878015338652, 13672154659709754401, 191338360587662586⟩]]

/-- `optimized_arc`, poseidon377/src/params/rate_2.rs:1907-2312 -/
def rate2_optimizedArc : List Limbs := [
  ⟨13532052565085671856, 13175575834742130482, 14571043277169067394, 1128324334676141805⟩,
  ⟨10586567975029405298, 5987505274649066590, 9663655893165983133, 381788629769180835⟩,
  ⟨7404335995308317606, 10342209374602516054, 14679697400509748167, 1259991645283011647⟩,
  ⟨12711294721892819516, 8412935995118692797, 7069737649526067295, 549549236990677487⟩,
  ⟨128694122049037398, 15825223235256271389, 74647683628497806, 403759781237802093⟩,
  ⟨3501552524290051296, 10688664658423588201, 8345653809557910120, 766292783896459938⟩,
  ⟨13998055823902745235, 15535161481341849823, 9848874496394823215, 579121379437172744⟩,
  ⟨16363263235454987811, 9117252686821547535, 4794867261658414781, 418411818796950741⟩,
  ⟨3710344964675021293, 13957371261080223237, 15195218532629186765, 760708816844813378⟩,
  ⟨16135673103471103205, 13943139040297964408, 12037506718934223099, 1187380734246932890⟩,
  ⟨11326210002632211732, 2893415499386035614, 2949171194607212014, 568849018592141776⟩,
  ⟨13925494990768706056, 13969996543019858204, 13457764640058086886, 114396439087701688⟩,
  ⟨16351586607272228519, 6269966282891300082, 12490381894697744781, 834648274293416263⟩,
  ⟨8699206025130866823, 13848489523222436720, 17766508449394109403, 431734376631208559⟩,
  ⟨14700415236695759193, 989025675687828871, 13240672964496825486, 748003865243962980⟩,
  ⟨9214232780783070449, 14602960282866682732, 11429301634278273897, 1184931746603958427⟩,
  ⟨0, 0, 0, 0⟩,
  ⟨0, 0, 0, 0⟩,
  ⟨16918226576727530642, 1752255981222787988, 8817230776216477202, 44114642545061535⟩,
  ⟨0, 0, 0, 0⟩,
  ⟨0, 0, 0, 0⟩,
  ⟨17686129245176609251, 9674361899119805900, 9621008306276981352, 1255623840056121919⟩,
  ⟨0, 0, 0, 0⟩,
  ⟨0, 0, 0, 0⟩,
  ⟨10364230610752960663, 23910044943574860, 13406278639865106346, 1187183151912921258⟩,
  ⟨0, 0, 0, 0⟩,
  ⟨0, 0, 0, 0⟩,
  ⟨248381449107176191, 10056558558812610353, 2935304612801451247, 120643143760647643⟩,
  ⟨0, 0, 0, 0⟩,
  ⟨0, 0, 0, 0⟩,
  ⟨3742705574147487793, 4686024809709633429, 16670792739934718940, 963767567248511600⟩,
  ⟨0, 0, 0, 0⟩,
  ⟨0, 0, 0, 0⟩,
  ⟨13818431717487898976, 12602204397986520132, 12877538805399868553, 707732823673573212⟩,
  ⟨0, 0, 0, 0⟩,
  ⟨0, 0, 0, 0⟩,
  ⟨1195524900235019800, 10255957893776983045, 17449323294835632168, 1338958398006622846⟩,
  ⟨0, 0, 0, 0⟩,
  ⟨0, 0, 0, 0⟩,
  ⟨561235443935255932, 15462505627668153377, 15246107413854263254, 504727735813765489⟩,
  ⟨0, 0, 0, 0⟩,
  ⟨0, 0, 0, 0⟩,
  ⟨5653045592293015958, 3671862246408432263, 7122935779684396291, 7330594669677847⟩,
  ⟨0, 0, 0, 0⟩,
  ⟨0, 0, 0, 0⟩,
  ⟨16480412187204912644, 2983094841853066492, 7734631524643537613, 311160218197782574⟩,
  ⟨0, 0, 0, 0⟩,
  ⟨0, 0, 0, 0⟩,
  ⟨6090779872384130856, 3292296244344624559, 14896131539665449347, 1294066060635586937⟩,
  ⟨0, 0, 0, 0⟩,
  ⟨0, 0, 0, 0⟩,
  ⟨4370576169448893808, 12445091387328652898, 4928931422125126888, 1290627573012356056⟩,
  ⟨0, 0, 0, 0⟩,
  ⟨0, 0, 0, 0⟩,
  ⟨12051840169477196739, 3885157525438683377, 15460563848822265709, 371728860504033938⟩,
  ⟨0, 0, 0, 0⟩,
  ⟨0, 0, 0, 0⟩,
  ⟨12236751112463919400, 10461860001193096708, 18252891305864475627, 422909291039524709⟩,
  ⟨0, 0, 0, 0⟩,
  ⟨0, 0, 0, 0⟩,
  ⟨18089753698150707757, 11984889148538027693, 14464882633247838012, 989393623597663020⟩,
  ⟨0, 0, 0, 0⟩,
  ⟨0, 0, 0, 0⟩,
  ⟨5947035363582041005, 10165882087299872929, 17463545041843069654, 661760845006520055⟩,
  ⟨0, 0, 0, 0⟩,
  ⟨0, 0, 0, 0⟩,
  ⟨12977803574308926045, 11603755933737030579, 13169368374394024728, 264871768182436351⟩,
  ⟨0, 0, 0, 0⟩,
  ⟨0, 0, 0, 0⟩,
  ⟨14419631251839461179, 11301211733526246620, 15903366283781829327, 773728645355215118⟩,
  ⟨0, 0, 0, 0⟩,
  ⟨0, 0, 0, 0⟩,
  ⟨8308101026985166387, 7726119298360373485, 10162441497855384077, 189302244249177174⟩,
  ⟨0, 0, 0, 0⟩,
  ⟨0, 0, 0, 0⟩,
  ⟨12797668472951431300, 13827763415857474023, 14698122219544096234, 1231082431746263546⟩,
  ⟨0, 0, 0, 0⟩,
  ⟨0, 0, 0, 0⟩,
  ⟨9036419769160652203, 14179415714825094519, 1197988233308979514, 1215761277179828327⟩,
  ⟨0, 0, 0, 0⟩,
  ⟨0, 0, 0, 0⟩,
  ⟨4698260184489833131, 10279668321438795791, 12410250074379293741, 1217500461705392747⟩,
  ⟨0, 0, 0, 0⟩,
  ⟨0, 0, 0, 0⟩,
  ⟨12177225652612451477, 6323252679960824348, 2982537087474808916, 1265097794155080401⟩,
  ⟨0, 0, 0, 0⟩,
  ⟨0, 0, 0, 0⟩,
  ⟨10936589967746372713, 1315336780394893005, 11802358065708482185, 926000082171380579⟩,
  ⟨0, 0, 0, 0⟩,
  ⟨0, 0, 0, 0⟩,
  ⟨9602562037821535541, 6086973874915377682, 14393911822211896593, 197271477318300291⟩,
  ⟨0, 0, 0, 0⟩,
  ⟨0, 0, 0, 0⟩,
  ⟨702050427916060493, 13537318979711565901, 15026546140525067500, 581472194808990332⟩,
  ⟨0, 0, 0, 0⟩,
  ⟨0, 0, 0, 0⟩,
  ⟨16536035763574678680, 10430337823398608412, 14603639842087973366, 184743670576012836⟩,
  ⟨0, 0, 0, 0⟩,
  ⟨0, 0, 0, 0⟩,
  ⟨703457789642747182, 14826807143913517966, 278957441362419559, 572670923489064055⟩,
  ⟨0, 0, 0, 0⟩,
  ⟨0, 0, 0, 0⟩,
  ⟨11986568387549799012, 17060314952512548206, 5848465513240015059, 844014096680008996⟩,
  ⟨0, 0, 0, 0⟩,
  ⟨0, 0, 0, 0⟩,
  ⟨8710335429210318089, 15939765460477572548, 13493874982974354172, 1195299757590572308⟩,
  ⟨16720044796621311460, 6297107607479107816, 15666086360782481298, 946070823657072210⟩,
  ⟨5216764590966106189, 18330556132248987975, 14778046174865524185, 601592383999400705⟩,
  ⟨12284358746189003172, 15796822047553990474, 10249807758448272935, 1260540691182942177⟩,
  ⟨14671741496053748797, 15956144823383552989, 8978105115308257315, 1129739098292337641⟩,
  ⟨16528885559305010985, 14885472285663731653, 8692450371018254777, 875854298006252122⟩,
  ⟨11216935928075429441, 7088545516130524118, 3510979311098449529, 980345967679074250⟩,
  ⟨8480849792218315917, 11146529356407982510, 4204845623809735650, 554809226012522197⟩,
  ⟨9465397404983425896, 1339596460298740670, 2695000812316794677, 164270174202044235⟩,
  ⟨12807958353199166386, 2607509355362673632, 9510828759520576266, 306232379852697998⟩,
  ⟨14216260065142834520, 8830790711865643815, 7264415235010871052, 905551093713836953⟩,
  ⟨1392129315389772974, 3163495863255052347, 5961497987857813198, 47707649459794917⟩]

/-- The literal tables of `rate_2()`, poseidon377/src/params/rate_2.rs -/
def rate2Raw : RawTables :=
  { arc := rate2_arc, mds := rate2_mds, mHat := rate2_mHat, v := rate2_v, w := rate2_w, mPrime := rate2_mPrime, mDoublePrime := rate2_mDoublePrime, mInverse := rate2_mInverse, mHatInverse := rate2_mHatInverse, m00 := rate2_m00, mI := rate2_mI, vCollection := rate2_vCollection, wHatCollection := rate2_wHatCollection, optimizedArc := rate2_optimizedArc }

theorem rate2Raw_wf : rate2Raw.wf 3 = true := by decide +kernel

/-- `rate_2()`, i.e. `RATE_2_PARAMS` (poseidon377/src/lib.rs) -/
def rate2Params : Params Fq 3 2 9 4 39 3 117 31 := rate2Raw.toParams rate2Raw_wf

end Poseidon
