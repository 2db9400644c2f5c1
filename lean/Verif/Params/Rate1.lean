import Verif.Model.Tables

/-! Generated by tools/gen_params.py from poseidon377/src/params/rate_1.rs; do not edit. -/

namespace Poseidon

/-- `arc`, poseidon377/src/params/rate_1.rs:11-480 -/
def rate1_arc : List Limbs := [
  ⟨6258896775460530561, 1267570262938364784, 10583705394133388288, 4331270346116315⟩,
  ⟨15454694353288852986, 2205227775135851582, 9104115866970654747, 48952601862872692⟩,
  ⟨17632203450119298224, 13599315412875479343, 7140007131719627884, 569020719923681609⟩,
  ⟨6608939517720255573, 15066841911042588370, 8648475674864948310, 578035154261448463⟩,
  ⟨1055805092356900670, 5486646384412869322, 9705528431443784365, 307684188417815151⟩,
  ⟨11248650571348093756, 1514639161444600232, 968234586550369174, 1313541476846290422⟩,
  ⟨5189078861895589451, 9996051726892023924, 14955307722807799098, 1320126769029056157⟩,
  ⟨14397975440942704641, 14269464930912859892, 9230505175050478925, 1093012507774165575⟩,
  ⟨6847445113090943697, 17673603016395516883, 15250705377106188486, 539035154593930175⟩,
  ⟨6947720323756162913, 3313209312340777357, 18395293995391548637, 209157278787801614⟩,
  ⟨3458319354278701363, 11429938079178703613, 7005241729732086579, 150425083810087548⟩,
  ⟨2543869222269883848, 6129645233495109995, 1076912762679804840, 1127382646597654684⟩,
  ⟨3802085031173312140, 1153736051705836195, 34368926314299214, 870379362515076367⟩,
  ⟨5488449230911278270, 2470593653263895214, 2746242821352744093, 1170504430408456781⟩,
  ⟨3039943962034370722, 16476527388322339887, 5748836754427063321, 874163389084517420⟩,
  ⟨11160556015001057055, 18242508582059343688, 1914918650959602739, 1060251542697903110⟩,
  ⟨1250158851421170863, 3598229175113435790, 11440021114985999339, 539355236403595924⟩,
  ⟨17381864786167270102, 5920159615239164628, 7621039653090189177, 80820461513544845⟩,
  ⟨9427313983461117140, 12722081891364237901, 2526344363227396036, 169367802375106360⟩,
  ⟨18279043286872423918, 11282585104763746254, 6663752460065940976, 1313306297247703395⟩,
  ⟨11348011840530639501, 13585724393536580138, 16173408530293170097, 237306649524404549⟩,
  ⟨9105438583131143101, 484614180087189633, 11007155874658626631, 1105934356159118197⟩,
  ⟨17692463671930692407, 8848595903938472796, 11444065729641962767, 856337008348787181⟩,
  ⟨11475710285348090819, 12082432292625800602, 4973698077631026180, 250886293876957218⟩,
  ⟨3831119291993789483, 11955292354948817093, 10578474534116863906, 292270082742245378⟩,
  ⟨11074518745033881448, 14103711443902779277, 9703092681767716480, 1027943651677607178⟩,
  ⟨14255504761835093988, 12836619582277229653, 16470467141944117103, 216605519265731395⟩,
  ⟨17412479146814766387, 7550994961529157056, 16948400072627593287, 686398674032066558⟩,
  ⟨14019001188641598557, 17711295492607709098, 17317648113970387478, 1005852188387049762⟩,
  ⟨2757938402041260135, 10858479133892891281, 6226991255650955925, 113236437448370768⟩,
  ⟨2864831845918016166, 11222314241298259255, 6809710896423414618, 391420167412878448⟩,
  ⟨15295022328131697798, 14180180046854426704, 5969598612677890929, 422063763314834782⟩,
  ⟨9004302479558436050, 9395856654729450347, 1876513748778519470, 1078019802682326971⟩,
  ⟨17483474807509017611, 1860495490123329066, 10427704098322365889, 168618466562963955⟩,
  ⟨3325616628101926400, 6318651352098105269, 10561353542035867513, 347869863814864598⟩,
  ⟨10608180854761738188, 7227409243651228657, 10245865730256963695, 33366710867335616⟩,
  ⟨6377899455837337983, 6460750903815498030, 14658523922399852198, 850391300192126368⟩,
  ⟨9949314602248501685, 9592125889973713334, 12540141676151911968, 902630930644097978⟩,
  ⟨9874569741817026646, 8597014183735249181, 14218226934847278615, 990148636388408942⟩,
  ⟨9660554731559651732, 4712943300030820950, 8606150340609690108, 160577077343575019⟩,
  ⟨1527563399863479849, 15731827835699836031, 7229971325383988685, 826813386663462338⟩,
  ⟨18280004775370667641, 10717313307037013407, 3515684275541234253, 1288829721588576759⟩,
  ⟨9831584723932855792, 1077247411674292976, 4470807593665567057, 629496612576050491⟩,
  ⟨18018152400203412106, 16658517283861939563, 15927825308647499591, 1046841820836193453⟩,
  ⟨424287065221489244, 17051291629546655826, 4983999217110075951, 1278494067020803559⟩,
  ⟨13081137544640017921, 1196650010435295235, 15746798075854654528, 1203678627802318991⟩,
  ⟨939677723946433505, 11567589096003441629, 12722931402128711345, 720362007908860959⟩,
  ⟨14103532265560668917, 10923867233350724517, 18049017711808115649, 375405789021031150⟩,
  ⟨497571197013480246, 10623440047065153586, 4886324577963912147, 1126015905264708236⟩,
  ⟨8235696195804714347, 8423059580415141744, 17356311622946336763, 215719902708291122⟩,
  ⟨13167547990249432274, 13822834764858661811, 1681839468362828968, 1102696208723885390⟩,
  ⟨14358625551422878077, 17488520719897236232, 10532471740075617546, 780155994080253829⟩,
  ⟨17574454647216920383, 13786111586753929723, 11740472500664499721, 34830030445253818⟩,
  ⟨9209614961980615136, 9937652035573086410, 1218815569248823646, 236722195254239968⟩,
  ⟨3620849600049355235, 2774041983584442196, 6713450660153581499, 1022079506649410443⟩,
  ⟨15478035690602744699, 17214923924946245378, 13206453575278417593, 842388521454715001⟩,
  ⟨7853082889027573297, 5688955180632238595, 4814575662942306312, 837428779080817192⟩,
  ⟨6927274665365457380, 4891595237470578015, 9799180733026983523, 417480065074766363⟩,
  ⟨9633744074825535160, 13348096458316776884, 10200632920038276183, 1241967248070647028⟩,
  ⟨7315634111998276785, 14989100225520468879, 2450102833924358633, 264607654026641770⟩,
  ⟨7717087918080228437, 10060974775377729782, 15332244215838611263, 711171330417334270⟩,
  ⟨2324103748366230971, 10995578112328024729, 15408740786099239677, 1268694519894110373⟩,
  ⟨11893493435520502207, 3766971087184646941, 15414311780153824548, 275458309578547698⟩,
  ⟨3031245967343841039, 4502052608729245908, 4341196184555983012, 1220348581034324635⟩,
  ⟨14560505796665136876, 9750262619582169702, 11805062379512156262, 947525094566692079⟩,
  ⟨7374167934946983346, 10320986442790179232, 1316321051690183387, 672142052910646114⟩,
  ⟨6678718452413104008, 3653041364903437992, 3698421704565957570, 448468818117066870⟩,
  ⟨12909750526124334775, 6274889465513641781, 11804747737295382226, 507133470520718817⟩,
  ⟨9667929895833397580, 11082007517281041627, 10049496943206931153, 128401977346054829⟩,
  ⟨12310961684508931943, 17018879353361910672, 9780939516032057631, 874860903480789609⟩,
  ⟨1042224041096057459, 15183806776241160696, 2334295613683866263, 49327571912713520⟩,
  ⟨17515802687784336662, 10591106814883990536, 4193417463306063615, 23930315094714182⟩,
  ⟨15007113684212052093, 95900555196155559, 9807646841884583683, 251554444378507936⟩,
  ⟨8094314597037982537, 326195237272228919, 9972406889128755860, 563568079596439234⟩,
  ⟨12074057828954296990, 17459062068677478655, 2059156604363327430, 860353551420485928⟩,
  ⟨13609943108532429528, 16610915446730445558, 9788093117338911219, 1175759231734449357⟩,
  ⟨7485446014387007697, 13102110362887743132, 11648775823210990955, 43349719308454144⟩,
  ⟨11902878575783530648, 16441587368398080183, 9321126611136841229, 579191052426365547⟩]

/-- `mds`, poseidon377/src/params/rate_1.rs:481-509 -/
def rate1_mds : List Limbs := [
  ⟨14093733558879256570, 16573587507929677817, 13530556323685588983, 1151689812725735417⟩,
  ⟨15302903146332116305, 8895355854553175376, 548696419140371791, 319366418254432479⟩,
  ⟨15302903146332116305, 8895355854553175376, 548696419140371791, 319366418254432479⟩,
  ⟨16270238816294404093, 17510165790819614716, 15988650198697570299, 575844906362867708⟩]

/-- `M_hat`, poseidon377/src/params/rate_1.rs:510-515 -/
def rate1_mHat : List Limbs := [
  ⟨16270238816294404093, 17510165790819614716, 15988650198697570299, 575844906362867708⟩]

/-- `v`, poseidon377/src/params/rate_1.rs:516-521 -/
def rate1_v : List Limbs := [
  ⟨15302903146332116305, 8895355854553175376, 548696419140371791, 319366418254432479⟩]

/-- `w`, poseidon377/src/params/rate_1.rs:522-527 -/
def rate1_w : List Limbs := [
  ⟨15302903146332116305, 8895355854553175376, 548696419140371791, 319366418254432479⟩]

/-- `M_prime`, poseidon377/src/params/rate_1.rs:528-543 -/
def rate1_mPrime : List Limbs := [
  ⟨9015221291577245683, 8239323489949974514, 1646089257421115374, 958099254763297437⟩,
  ⟨0, 0, 0, 0⟩,
  ⟨0, 0, 0, 0⟩,
  ⟨16270238816294404093, 17510165790819614716, 15988650198697570299, 575844906362867708⟩]

/-- `M_doubleprime`, poseidon377/src/params/rate_1.rs:544-569 -/
def rate1_mDoublePrime : List Limbs := [
  ⟨14093733558879256570, 16573587507929677817, 13530556323685588983, 1151689812725735417⟩,
  ⟨15302903146332116305, 8895355854553175376, 548696419140371791, 319366418254432479⟩,
  ⟨5871380364199810372, 17134679344503149891, 2194785676561487165, 1277465673017729916⟩,
  ⟨9015221291577245683, 8239323489949974514, 1646089257421115374, 958099254763297437⟩]

/-- `M_inverse`, poseidon377/src/params/rate_1.rs:570-595 -/
def rate1_mInverse : List Limbs := [
  ⟨5994009629053419274, 15434301171572932352, 1350487059822599859, 1102422137481273087⟩,
  ⟨18054649431151608138, 10789890749345300822, 12135909219384222141, 1220664558067982680⟩,
  ⟨18054649431151608138, 10789890749345300822, 12135909219384222141, 1220664558067982680⟩,
  ⟨11262517505635122707, 5960750817236483583, 14179438877114240358, 859563904274372775⟩]

/-- `M_hat_inverse`, poseidon377/src/params/rate_1.rs:596-601 -/
def rate1_mHatInverse : List Limbs := [
  ⟨16163137587655999434, 1588334981690687431, 11094542470912991159, 1141836277676842951⟩]

/-- `M_00`, poseidon377/src/params/rate_1.rs:602-607 -/
def rate1_m00 : Limbs := ⟨14093733558879256570, 16573587507929677817, 13530556323685588983, 1151689812725735417⟩

/-- `M_i`, poseidon377/src/params/rate_1.rs:608-618 -/
def rate1_mI : List Limbs := [
  ⟨9015221291577245683, 8239323489949974514, 1646089257421115374, 958099254763297437⟩,
  ⟨0, 0, 0, 0⟩,
  ⟨0, 0, 0, 0⟩,
  ⟨0, 0, 0, 4⟩]

/-- `v_collection`, poseidon377/src/params/rate_1.rs:619-806 -/
def rate1_vCollection : List (List Limbs) := [
  [⟨15302903146332116305, 8895355854553175376, 548696419140371791, 319366418254432479⟩],
  [⟨18204910156218979669, 16293041589642941780, 9975069610392864084, 1088801882579738168⟩],
  [⟨483667834981143894, 4307404968133219670, 16943348926633375062, 1281160748661064590⟩],
  [⟨483667834981143894, 4307404968133219670, 16943348926633375062, 992930372509352846⟩],
  [⟨483667834981143894, 4307404968133219670, 16943348926633375062, 920872778471424910⟩],
  [⟨483667834981143894, 4307404968133219670, 16943348926633375062, 902858379961942926⟩],
  [⟨483667834981143894, 4307404968133219670, 16943348926633375062, 898354780334572430⟩],
  [⟨483667834981143894, 4307404968133219670, 16943348926633375062, 897228880427729806⟩],
  [⟨483667834981143894, 4307404968133219670, 16943348926633375062, 896947405451019150⟩],
  [⟨483667834981143894, 4307404968133219670, 16943348926633375062, 896877036706841486⟩],
  [⟨483667834981143894, 4307404968133219670, 16943348926633375062, 896859444520797070⟩],
  [⟨483667834981143894, 4307404968133219670, 16943348926633375062, 896855046474285966⟩],
  [⟨483667834981143894, 4307404968133219670, 16943348926633375062, 896853946962658190⟩],
  [⟨483667834981143894, 4307404968133219670, 16943348926633375062, 896853672084751246⟩],
  [⟨483667834981143894, 4307404968133219670, 16943348926633375062, 896853603365274510⟩],
  [⟨483667834981143894, 4307404968133219670, 16943348926633375062, 896853586185405326⟩],
  [⟨483667834981143894, 4307404968133219670, 16943348926633375062, 896853581890438030⟩],
  [⟨483667834981143894, 4307404968133219670, 16943348926633375062, 896853580816696206⟩],
  [⟨483667834981143894, 4307404968133219670, 16943348926633375062, 896853580548260750⟩],
  [⟨483667834981143894, 4307404968133219670, 16943348926633375062, 896853580481151886⟩],
  [⟨483667834981143894, 4307404968133219670, 16943348926633375062, 896853580464374670⟩],
  [⟨483667834981143894, 4307404968133219670, 16943348926633375062, 896853580460180366⟩],
  [⟨483667834981143894, 4307404968133219670, 16943348926633375062, 896853580459131790⟩],
  [⟨483667834981143894, 4307404968133219670, 16943348926633375062, 896853580458869646⟩],
  [⟨483667834981143894, 4307404968133219670, 16943348926633375062, 896853580458804110⟩],
  [⟨483667834981143894, 4307404968133219670, 16943348926633375062, 896853580458787726⟩],
  [⟨483667834981143894, 4307404968133219670, 16943348926633375062, 896853580458783630⟩],
  [⟨483667834981143894, 4307404968133219670, 16943348926633375062, 896853580458782606⟩],
  [⟨483667834981143894, 4307404968133219670, 16943348926633375062, 896853580458782350⟩],
  [⟨483667834981143894, 4307404968133219670, 16943348926633375062, 896853580458782286⟩],
  [⟨483667834981143894, 4307404968133219670, 16943348926633375062, 896853580458782270⟩]]

/-- `w_hat_collection`, poseidon377/src/params/rate_1.rs:807-995 -/
def rate1_wHatCollection : List (List Limbs) := [
  [⟨5871380364199810372, 17134679344503149891, 2194785676561487165, 1277465673017729916⟩],
  [⟨2862272125674542349, 12261906873994007818, 6321048831233967347, 1074021580006399469⟩],
  [⟨9272583245283021873, 11217561065666991141, 4379357376214336458, 260245207961077682⟩],
  [⟨196844833712984260, 7976756115248861334, 17517429504857345834, 1040980831844310728⟩],
  [⟨17057618151146341133, 12523702104395956820, 12271391923288747173, 128082215312722720⟩],
  [⟨12890240383456709684, 13201320270164724051, 12192079545735885462, 512328861250890882⟩],
  [⟨13941971633936019663, 9450685481039963469, 4906550719283927641, 704035074315390132⟩],
  [⟨17423394883381543738, 6433782946050643252, 5689644244654688611, 125579555885213732⟩],
  [⟨14353347312397520104, 7288387710493021395, 4311832904909202829, 502318223540854929⟩],
  [⟨1347655275989709727, 4245699316062704462, 10279052303396300340, 663992523475246318⟩],
  [⟨4665119351487123067, 10521689812050988343, 15701185823635138767, 1310689723212811875⟩],
  [⟨16483972148533344745, 4256692817894913241, 5006417198399918906, 1206917780786727308⟩],
  [⟨8419151115589576609, 16090192988689716068, 17567574918587694308, 791830011082389037⟩],
  [⟨13778856883705323138, 14545068902940102031, 993508820741100432, 476759302953209355⟩],
  [⟨17496437634930473479, 14825680012141475389, 15452500040433442369, 561756841124664021⟩],
  [⟨13920016566121523227, 15948124448946968822, 17948232698074155269, 901746993810482688⟩],
  [⟨17335574612123557994, 13976794743969113048, 2516139938686944276, 916427233865583959⟩],
  [⟨12551062722422145446, 6091475924057689953, 14574745195976306768, 975148194085989039⟩],
  [⟨11859759237326046870, 11443688791831100804, 7468934004005101886, 1210032034967609362⟩],
  [⟨8369043544469936725, 7944688737015363087, 8970898067298874614, 804287027805917254⟩],
  [⟨13578426599226763602, 409795969952241723, 3500289563004924887, 526587369847322221⟩],
  [⟨16694716497016235335, 13624820501318689005, 7032878935779188570, 761069108701115486⟩],
  [⟨9987630261992854810, 4683578953455993781, 14194957110635732328, 353715693428115148⟩],
  [⟨2331531148080600167, 12273208361624145621, 12918060978883315103, 69582403024287196⟩],
  [⟨9326124592322400668, 12199345299077479252, 14778755768114157182, 278329612097148786⟩],
  [⟨411010221870499440, 11903893048890813778, 3774790851327973882, 1113318448388595147⟩],
  [⟨17914279703776401853, 9785505765254214980, 12641069530299914214, 417432681489860393⟩],
  [⟨15591384841505236723, 14234171535107478802, 6702510657540042648, 324450355271268176⟩],
  [⟨7025307144892292044, 1596453919301260363, 8363298556450618979, 1297801421085072705⟩],
  [⟨7477979248444469037, 5449237394315104554, 12548356277080942984, 1155364572275770626⟩],
  [⟨9288667662653177009, 2413627220660929702, 10841843085892687389, 585617177038562311⟩]]

/-- `optimized_arc`, poseidon377/src/params/rate_1.rs:996-1317 -/
def rate1_optimizedArc : List Limbs := [
  ⟨6258896775460530561, 1267570262938364784, 10583705394133388288, 4331270346116315⟩,
  ⟨15454694353288852986, 2205227775135851582, 9104115866970654747, 48952601862872692⟩,
  ⟨17632203450119298224, 13599315412875479343, 7140007131719627884, 569020719923681609⟩,
  ⟨6608939517720255573, 15066841911042588370, 8648475674864948310, 578035154261448463⟩,
  ⟨1055805092356900670, 5486646384412869322, 9705528431443784365, 307684188417815151⟩,
  ⟨11248650571348093756, 1514639161444600232, 968234586550369174, 1313541476846290422⟩,
  ⟨5189078861895589451, 9996051726892023924, 14955307722807799098, 1320126769029056157⟩,
  ⟨14397975440942704641, 14269464930912859892, 9230505175050478925, 1093012507774165575⟩,
  ⟨6847445113090943697, 17673603016395516883, 15250705377106188486, 539035154593930175⟩,
  ⟨3611307702635802055, 2044680977517755214, 1507155857745404241, 416523989909284581⟩,
  ⟨15773496315521971064, 3417307918093239503, 5319102997109207920, 1059459273997968718⟩,
  ⟨0, 0, 0, 0⟩,
  ⟨10991357984979900529, 11786708072563616304, 15195751910119459835, 1325497062894455603⟩,
  ⟨0, 0, 0, 0⟩,
  ⟨16027823656497991124, 9570249298141187698, 9384192828271733406, 598167880091560796⟩,
  ⟨0, 0, 0, 0⟩,
  ⟨4121766814818268604, 5642500678209337527, 11249605790034284655, 169274140565479991⟩,
  ⟨0, 0, 0, 0⟩,
  ⟨18428671666826012339, 3103504747064554186, 2824060703077903905, 650804942285219865⟩,
  ⟨0, 0, 0, 0⟩,
  ⟨6536595406830723568, 12507627360655164307, 5816557923264156407, 1171438146865855396⟩,
  ⟨0, 0, 0, 0⟩,
  ⟨7014452833430165540, 2192734170292167642, 18020153564698148489, 943832042172430504⟩,
  ⟨0, 0, 0, 0⟩,
  ⟨15061407369851519692, 5313653764899529765, 18112450540856929121, 723535739146239880⟩,
  ⟨0, 0, 0, 0⟩,
  ⟨11839250336475774987, 15868350915088614311, 11144158850926607283, 20878601091348541⟩,
  ⟨0, 0, 0, 0⟩,
  ⟨4149527232578341040, 5854266614316639968, 16351407150591024716, 455766835829125567⟩,
  ⟨0, 0, 0, 0⟩,
  ⟨12471037099388658934, 2086101075023281280, 1788538226576314996, 1339656767645635692⟩,
  ⟨0, 0, 0, 0⟩,
  ⟨11602956738027931852, 9207937453523162767, 13647296147603057333, 111521899082870644⟩,
  ⟨0, 0, 0, 0⟩,
  ⟨4471865953303794141, 10665791129581261198, 12917311030821790127, 421715564603751799⟩,
  ⟨0, 0, 0, 0⟩,
  ⟨7266742212555730010, 4344990323783613969, 6675828359235980546, 1075010774212196894⟩,
  ⟨0, 0, 0, 0⟩,
  ⟨17274747138948537703, 8997958909963391104, 7585281533244210281, 1289863406379487668⟩,
  ⟨0, 0, 0, 0⟩,
  ⟨16682415876718386807, 6754707099034381256, 17068117384213468958, 1039851084794055603⟩,
  ⟨0, 0, 0, 0⟩,
  ⟨17452413239970755288, 15172605790896474036, 12289534575869712530, 1247895409152971025⟩,
  ⟨0, 0, 0, 0⟩,
  ⟨9189529962407134994, 11058665231577655834, 16040250280290103955, 583188588452985106⟩,
  ⟨0, 0, 0, 0⟩,
  ⟨12330122353729758122, 7872244451651384396, 1718216203500654841, 947488898510695688⟩,
  ⟨0, 0, 0, 0⟩,
  ⟨2532148827221633905, 11277707113691069015, 13146274701375091754, 1122111291456835663⟩,
  ⟨0, 0, 0, 0⟩,
  ⟨13318309830858313604, 15574521868164640680, 16956455155077117710, 135767028023417208⟩,
  ⟨0, 0, 0, 0⟩,
  ⟨750420733483410590, 2418854296448104823, 15284086408483984263, 341138452402312061⟩,
  ⟨0, 0, 0, 0⟩,
  ⟨16457963474965655942, 5443472470949495638, 2064775438293218219, 400327702117075871⟩,
  ⟨0, 0, 0, 0⟩,
  ⟨10542835534533651006, 6753561243806226378, 12003236697439509817, 241774398989798606⟩,
  ⟨0, 0, 0, 0⟩,
  ⟨1079740531825589218, 855297542685037903, 469984130808287107, 1004975734823384044⟩,
  ⟨0, 0, 0, 0⟩,
  ⟨11494156914009901023, 10804976036978117356, 8604768447320145756, 183564350030538687⟩,
  ⟨0, 0, 0, 0⟩,
  ⟨16681620867545906411, 2060231339788432100, 17049513972176383365, 112003830623007503⟩,
  ⟨0, 0, 0, 0⟩,
  ⟨668347479965076886, 10549614204057010371, 13122395911704198577, 892397509190749082⟩,
  ⟨0, 0, 0, 0⟩,
  ⟨832717394377902022, 17441619158292034189, 10775807051709353596, 73942828503744396⟩,
  ⟨0, 0, 0, 0⟩,
  ⟨17843890747357672894, 10605743677137367533, 6810818872903428049, 148499098324463880⟩,
  ⟨0, 0, 0, 0⟩,
  ⟨1042224041096057459, 15183806776241160696, 2334295613683866263, 49327571912713520⟩,
  ⟨17515802687784336662, 10591106814883990536, 4193417463306063615, 23930315094714182⟩,
  ⟨15007113684212052093, 95900555196155559, 9807646841884583683, 251554444378507936⟩,
  ⟨8094314597037982537, 326195237272228919, 9972406889128755860, 563568079596439234⟩,
  ⟨12074057828954296990, 17459062068677478655, 2059156604363327430, 860353551420485928⟩,
  ⟨13609943108532429528, 16610915446730445558, 9788093117338911219, 1175759231734449357⟩,
  ⟨7485446014387007697, 13102110362887743132, 11648775823210990955, 43349719308454144⟩,
  ⟨11902878575783530648, 16441587368398080183, 9321126611136841229, 579191052426365547⟩]

/-- The literal tables of `rate_1()`, poseidon377/src/params/rate_1.rs -/
def rate1Raw : RawTables :=
  { arc := rate1_arc, mds := rate1_mds, mHat := rate1_mHat, v := rate1_v, w := rate1_w, mPrime := rate1_mPrime, mDoublePrime := rate1_mDoublePrime, mInverse := rate1_mInverse, mHatInverse := rate1_mHatInverse, m00 := rate1_m00, mI := rate1_mI, vCollection := rate1_vCollection, wHatCollection := rate1_wHatCollection, optimizedArc := rate1_optimizedArc }

theorem rate1Raw_wf : rate1Raw.wf 2 = true := by decide +kernel

/-- `rate_1()`, i.e. `RATE_1_PARAMS` (poseidon377/src/lib.rs) -/
def rate1Params : Params Fq 2 1 4 1 39 2 78 31 := rate1Raw.toParams rate1Raw_wf

end Poseidon
