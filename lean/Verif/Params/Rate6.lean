import Verif.Model.Tables

/-! Generated by tools/gen_params.py from poseidon377/src/params/rate_6.rs; do not edit. -/

namespace Poseidon

/-- `arc`, poseidon377/src/params/rate_6.rs:11-1650 -/
def rate6_arc : List Limbs := [
  ⟨15142982440796561447, 11586951767160912790, 2554152473571518408, 1060132733599829191⟩,
  ⟨5004052621280210368, 17001459709892607063, 7681637351760180567, 370325849830378477⟩,
  ⟨12700316700887579682, 10527071459591008162, 4649940422809756001, 1164398790994859766⟩,
  ⟨14166576988026094609, 7313392791454005322, 12003933110859736764, 497349496445067730⟩,
  ⟨660800666505769101, 8654643871558439567, 14263148622483513593, 820049075817239934⟩,
  ⟨3633256971691786185, 10090676851691033833, 14588357423182388197, 831634409758195705⟩,
  ⟨6492287632409988134, 12046607076154115291, 17147959445519551317, 461021671425820687⟩,
  ⟨14444046072241906262, 11260694318344083229, 15743364178797140854, 866446994798567454⟩,
  ⟨3641312158605685211, 14157364044999263645, 16784472236570305027, 425843099497195003⟩,
  ⟨17723864121788076174, 13911937024562874191, 12749454259525933628, 451378649043069085⟩,
  ⟨12784133990119646353, 17654455838119254543, 14047536069777387226, 645204516252515303⟩,
  ⟨1959581704190940037, 13929985394687694163, 11022302142929130035, 283707020686355664⟩,
  ⟨8629032034013359758, 8320916390268264398, 11188435069201519314, 1277918481865788038⟩,
  ⟨1783621120979741815, 10125702604889014266, 7859706914940359291, 1258189548796714111⟩,
  ⟨4197085784563434882, 243889206587889894, 328885806087941395, 929695947751686179⟩,
  ⟨6420634290533400711, 3371757063543007366, 8900632765923820105, 371199850895065588⟩,
  ⟨9679924820095672851, 5191301328839079795, 1468702730043861612, 1130258788388916276⟩,
  ⟨14270884667693338729, 18421783881067727877, 702505960635108322, 876601962183112334⟩,
  ⟨12801928710162774032, 15709283060501093378, 2508615709628312314, 924328772397935430⟩,
  ⟨9019134492733417932, 4614098400696239641, 291908476903718505, 879711180612784839⟩,
  ⟨12296479578360854848, 3423354675244851904, 17098596077633953792, 378482623029323224⟩,
  ⟨13200816203042245771, 15381254577926224952, 14688424257545082743, 884773501591309967⟩,
  ⟨16263843110415550162, 14001011937262187824, 2325893788175944450, 427344840846697831⟩,
  ⟨10712788406702291397, 14628016237392831746, 12076323935029775432, 746032296870665924⟩,
  ⟨7577844083779539683, 8593563853045273470, 6762705862919489296, 1011466592883577533⟩,
  ⟨10970204418416076913, 4397529361571105931, 15590416832284287611, 432035610777585218⟩,
  ⟨13604542201065871088, 8000646895858538916, 7463535664974476191, 112496092381655883⟩,
  ⟨5448941064349247150, 18035446383961421934, 9688851655819494355, 314108334517577725⟩,
  ⟨13216339084640418338, 18208749029142079159, 2801888902925820506, 1144112407212441278⟩,
  ⟨10386335329700935468, 13018324118118161010, 2406041197881630048, 1324098854417409495⟩,
  ⟨2690622444332381359, 2738375881209676440, 17836986493178387691, 868260556757543816⟩,
  ⟨9714850335178297908, 2509018678236953449, 1040431953277617242, 408671886406597132⟩,
  ⟨707163896186597409, 13903930520829310823, 14380446875360964889, 798432165792010570⟩,
  ⟨12820993772370131859, 3069542795148551755, 4040592593739183911, 977377017483241698⟩,
  ⟨4384064590197914518, 11440426390601473487, 3890530701580791196, 991346454205769097⟩,
  ⟨2745693351823380117, 3687897447624002689, 13955517171460419947, 904061096631428006⟩,
  ⟨1760514697396940568, 6095881437414931654, 3928451548254372674, 247578034773164640⟩,
  ⟨16683268981822865275, 15797990746305502978, 12125148959239662231, 449202381506144581⟩,
  ⟨1544285291520736591, 5232522639692590592, 14175161601321791260, 1003097983515138607⟩,
  ⟨13865967627227239358, 4354525642109054184, 5021238725820305528, 906854086996571433⟩,
  ⟨15375530278413617622, 7761235083504109835, 15924872860758961429, 537333030355735422⟩,
  ⟨13872782625772992287, 2068079588750918007, 17083661114150680976, 191043765855622193⟩,
  ⟨489795382124266981, 9316407371494156111, 16300320024181640604, 1307068723907147815⟩,
  ⟨77890204043514297, 14999308260055033106, 16273406145240730287, 1230840137172288304⟩,
  ⟨9003111034130458080, 14053560383370232566, 14148009681833335599, 84069116658731520⟩,
  ⟨1986315671557859076, 944997752628096648, 6737867794955410335, 792066859500791592⟩,
  ⟨11554157552429322652, 6015547764843714345, 3599229111267661129, 1102309536290663120⟩,
  ⟨16401157455500798150, 2599298290463801395, 4428490753223095655, 516522849079366838⟩,
  ⟨7623242261478057757, 3618111358832343565, 1696272282252986964, 280076732551033967⟩,
  ⟨13071470547050819875, 20719442839602638, 9223499824514905062, 1041977639884177823⟩,
  ⟨1150980008515938579, 12791886596105604965, 11797006328775889799, 132341159056314927⟩,
  ⟨16356304185985037124, 18355100705716380177, 1487696971024578548, 1163163264873917501⟩,
  ⟨8790136689831869026, 9859012327886066746, 1622774421779032220, 680128396913817531⟩,
  ⟨2440240671160835195, 5639103082516719016, 16233642885930425961, 459387979334747122⟩,
  ⟨3071531689091094489, 11779374527227589848, 5879834474282319317, 392743474596485606⟩,
  ⟨3786139316484579004, 7465575270640816353, 3301786867662477611, 919080835077506714⟩,
  ⟨4241677901554464615, 14852259420419314449, 9789117952977925786, 1276159211529108963⟩,
  ⟨15762815448669571633, 7231481802108863616, 8209538117580382786, 894055725982675524⟩,
  ⟨3283548778124636488, 17961129609378056584, 12441299600811628613, 709973667467565902⟩,
  ⟨1675404449995783699, 17666259544497784614, 13412804093386962519, 434991501447979808⟩,
  ⟨17976226742991442453, 14546337615752094946, 6516407789910488272, 1036976265682484688⟩,
  ⟨13972137480979054280, 1231617287998224018, 8770959412540690803, 274349352586037174⟩,
  ⟨14183071713815614452, 12618349549865293619, 4916959733988057866, 228836586859139895⟩,
  ⟨2619860170191204767, 6934658348682381942, 445022332707100685, 525184674849718520⟩,
  ⟨10672109165350813992, 13411227948301334538, 7449776000632083055, 11625548609868921⟩,
  ⟨6408656838496226261, 10947889213454603074, 15967755490758556438, 18592735561502547⟩,
  ⟨5719054350460464154, 7527902657216442354, 5295945207916573176, 1277891579319310511⟩,
  ⟨7105816865111098866, 4412124756024705272, 4327040274749466413, 598090016113808041⟩,
  ⟨14284938317479677602, 545805528309510796, 102974980360120576, 899208167330224593⟩,
  ⟨5366620062124263126, 13693679210134795513, 8256935418799663781, 300801001668016020⟩,
  ⟨16666288670655775443, 14215432659130173847, 10678349345487712045, 253025966523940173⟩,
  ⟨6560188020165350685, 12696821494974958005, 2143653898969513475, 494844631437184679⟩,
  ⟨13593887229322257028, 4816959067341413725, 11133022091159268235, 612414996504397371⟩,
  ⟨4493136462766479434, 9962442648546643845, 10853590841986868899, 915809217863755522⟩,
  ⟨5214032566506119292, 11323013569723200047, 18236741420002046410, 941445927442235049⟩,
  ⟨6205769808699672756, 10246354759179081834, 15794825809172864679, 391230400284939041⟩,
  ⟨10116008430714875822, 9911045248650761841, 9928250721052258527, 1185128099055962746⟩,
  ⟨2754748402734001689, 17481760215560470485, 11108275517987128040, 348615537989168903⟩,
  ⟨13782224526187933341, 17030959399708586099, 15775077522611833532, 290351976048235673⟩,
  ⟨4412648891557328130, 11831420266571130198, 9622609839094253285, 639422212319659804⟩,
  ⟨8394758426176289938, 11674917207711491310, 7857067218925827640, 1264271461076358629⟩,
  ⟨10524729381187531101, 6565819519130692503, 16455243200834114571, 1113660583135941246⟩,
  ⟨4910640324547367503, 7067950532806399572, 15713931663221284957, 678204411073496593⟩,
  ⟨17524781941219231334, 14436265047853993106, 10996160202266791558, 586004270078950889⟩,
  ⟨14088867458599093720, 2106970093596697979, 12220921713367378788, 618714343685517328⟩,
  ⟨13932309166033056776, 14069500197080883428, 17852601968294832436, 305995160171313882⟩,
  ⟨13426729481828305095, 7452289540294927985, 6441597690310943218, 1276798385624416753⟩,
  ⟨15655620409673762414, 3933061560128724680, 5010270981571820124, 220150600325447216⟩,
  ⟨1057266741773269348, 17485469765347279593, 9555353042208049027, 1246738101059957518⟩,
  ⟨10770884181623310580, 8877029614675920762, 13991352514348114517, 1230612668702201686⟩,
  ⟨15095255137495972889, 10892244248329151219, 11620083234647182892, 868324939988635652⟩,
  ⟨16875353652867044098, 11044339467067704334, 4725495506316385244, 751264243578502741⟩,
  ⟨641704525978654163, 17754251290783679148, 14269956822024939667, 156185085842124354⟩,
  ⟨6461798206210941852, 6476027702683698308, 1734931238850329993, 290399632377126477⟩,
  ⟨8091575218940757791, 5709045878190771843, 1459237052414398801, 276967051734326786⟩,
  ⟨11612189501971032754, 8427470897363557012, 8611179978421665778, 759746899153341383⟩,
  ⟨6954134997737035694, 10268732943041819889, 14604130092481798797, 846640249172985022⟩,
  ⟨7190233069227170594, 5561401768913144101, 1445785661167706223, 651525665098162949⟩,
  ⟨9217546346311075388, 11071132921926268863, 15917748726189064849, 1251775227051161244⟩,
  ⟨10390884162889041261, 16176571899127336650, 10615791626897231355, 642115614053282820⟩,
  ⟨17238403316934198029, 13759340588486548936, 6092125402785041680, 230724379449110850⟩,
  ⟨1508952168622687260, 8480288040262420498, 1917577574060388838, 1254153906405997789⟩,
  ⟨13254932503780193579, 12662991171495849740, 2932469488008999350, 1254958848016626489⟩,
  ⟨863236748932298852, 7531642076948568445, 10425812845553160509, 563371573575694666⟩,
  ⟨3280480068018390373, 10989862717157633913, 16572854018482057186, 113384026788145572⟩,
  ⟨11491036808249350882, 3627925597439189593, 785824861964165853, 215791427072358220⟩,
  ⟨7066074229281293800, 13321822906632769865, 3996439965503887948, 1564366489909582⟩,
  ⟨7382263529174205793, 14901486809768854424, 3687940160755015064, 91446740043994899⟩,
  ⟨11979694890244940318, 2563830158714032427, 9819921513414604825, 870663742752411934⟩,
  ⟨1600021421033761986, 8201138969411280812, 17030652845294033608, 12175051723204743⟩,
  ⟨1850310843394039419, 1954532768801601911, 9226966238277907828, 1236975459555124690⟩,
  ⟨16345060141053822550, 2663786082800954949, 9784580111187431074, 818513014765649539⟩,
  ⟨16446391408112544104, 9380932902331254953, 7071379728384813096, 646895171875290856⟩,
  ⟨2378405837694151935, 13313303748778516106, 5453795007116110093, 1101728113109054876⟩,
  ⟨11103307651772077753, 12554518811578576783, 12962391676951625000, 52064702946163453⟩,
  ⟨7926549255154919159, 12556509793741807839, 8290515496020439025, 258653521926883600⟩,
  ⟨307299355354566495, 17945732282126444629, 5433370265316074894, 460536024110656568⟩,
  ⟨5763861568912805530, 17141796164103068870, 2848893594009159478, 1261756298628549918⟩,
  ⟨3229487655955554305, 14944270980978379931, 9844844119202542915, 234743086760476866⟩,
  ⟨2342004844464551443, 1279967885187315863, 373313457964011347, 1079422596885440278⟩,
  ⟨1952007392466585094, 11762818037481718593, 16662923564394512208, 893001431908838762⟩,
  ⟨106763804585413546, 14271628963442624240, 590027926779466412, 57257575012574740⟩,
  ⟨16630768758834449311, 422003402188528512, 12098463822102798962, 159137531863727176⟩,
  ⟨15534331691675530779, 7061806693665915536, 16952361759388884403, 1053244934847428200⟩,
  ⟨9263591902583432602, 7558693853599155266, 14896692490740080749, 1313322134212571400⟩,
  ⟨15314480314637379126, 1151647617314553881, 17769711940094483975, 1199725079245274287⟩,
  ⟨7963766923607262431, 12935141255115233618, 12948228604583141176, 360484743040385122⟩,
  ⟨3259283452211432293, 17170672158941172313, 3570208516876138657, 1045429527322967456⟩,
  ⟨1765653178452548393, 6627965412101454655, 12661490346413822347, 978755993134545199⟩,
  ⟨142797348951966355, 5680553790994685398, 810985092665822303, 289501802913912482⟩,
  ⟨8095554876468743411, 9181238692547872814, 13704917242845320718, 866066458565737675⟩,
  ⟨5618373333754035477, 16633102630691350807, 10343904648768900571, 949315695648845008⟩,
  ⟨10496943145011706036, 10929716347158307141, 11553769369075211708, 1156430459068926506⟩,
  ⟨3889976630621922060, 9491334042353419195, 9943086516865463752, 462137530016129102⟩,
  ⟨14851654499263418555, 8665479737435134577, 9236486044957348017, 1285301549410464570⟩,
  ⟨7032376007033081754, 8938792808860946217, 3397334075607636452, 1167008250605621029⟩,
  ⟨10427481727006183439, 3824318376195666571, 1544453519691883408, 1045681207836001052⟩,
  ⟨8928604482578123459, 13973435534214403451, 15227973464547816988, 1229619095421485591⟩,
  ⟨4131997010006110231, 8734538168607192092, 5033945745534142948, 1277988214099374488⟩,
  ⟨7299169039441587737, 2287517025912039400, 5920702563974091346, 687869072690227692⟩,
  ⟨6148873693348937540, 8423800650513424718, 13147300378355369290, 1251696519717235960⟩,
  ⟨8030856695051151637, 10312034347138903675, 10835031793863243014, 356820600815810125⟩,
  ⟨888403096248430880, 456025372404859213, 15679766799242003387, 331916255940957050⟩,
  ⟨11302383770835780508, 16138456171506112495, 4451261995311188362, 326167792976852851⟩,
  ⟨12620205064271173241, 5865309702805720081, 5860769966892734734, 960482480478038522⟩,
  ⟨12917044525272992137, 17120989425489435715, 17218371420168852178, 100206712207827792⟩,
  ⟨5324266172011654367, 5689211424378054902, 13406842486269119334, 232294740918000310⟩,
  ⟨8539429359150556585, 10134859336768345709, 15233097762752119955, 731468941704353059⟩,
  ⟨10594565907991339987, 3638446029011375614, 1076241376615234382, 91321489252748304⟩,
  ⟨7150892232338862131, 15181691199330314635, 5084197575257990721, 970732723520969453⟩,
  ⟨14117187289068639852, 3124767309289558236, 13224466604519094715, 428140550724790451⟩,
  ⟨14415259957437088686, 1795634329615314624, 2942903263296282359, 1012688804870889787⟩,
  ⟨16612890529511826604, 7596386633939850032, 5924746967850324505, 65893974101627502⟩,
  ⟨4944775760295616420, 17454746499425782002, 7483609147553356481, 669769743129713618⟩,
  ⟨8550535250927460379, 14244832580975560343, 10645153178392827451, 166145496718571589⟩,
  ⟨9472382061922092532, 12599919710080842820, 17660755505335019341, 951845755731906033⟩,
  ⟨7377011861447992951, 14177185276539188245, 16485545164384506751, 69008004491455439⟩,
  ⟨7269422847571440384, 10971182983165050190, 10477114392953393609, 529340264286832500⟩,
  ⟨13548253733030119113, 18088771080273253716, 5912265224571254564, 960653798531692016⟩,
  ⟨14593305211432266861, 13978513480108154064, 12072035272437813296, 238383478016939515⟩,
  ⟨14430090856465614687, 2808920183931810539, 2024298398014953733, 368635335239145011⟩,
  ⟨6675901818525858406, 9691159442966147586, 5200040876915433586, 1110689247130868755⟩,
  ⟨13172765826410278322, 13976386792584577667, 8689999043086184378, 259436890611363824⟩,
  ⟨84751421588979831, 14888392918538911455, 5486551275818624189, 951800733297191582⟩,
  ⟨15334319937719221770, 11563835865217739090, 18090033619866166811, 678279699900803053⟩,
  ⟨15589602438316257145, 1666336392544054075, 8107996193749583854, 23283085724274977⟩,
  ⟨6797724227011875266, 11367852742974149411, 6678291715699080418, 92125477783429941⟩,
  ⟨15080983138964048420, 537488507591658978, 16294679657097133087, 1191852563555895615⟩,
  ⟨4338903643143774627, 11044337452245898206, 15830174313418706999, 31920243523174840⟩,
  ⟨8492021065892592922, 7492942567998031746, 10227910279589795050, 947691312997138730⟩,
  ⟨9561116086048874539, 18073885101683330337, 14636134925092176090, 722339593463585968⟩,
  ⟨41785100841227711, 17666935019222315365, 4927473313984438107, 67884280271688399⟩,
  ⟨1446967628258656962, 11243844490161767343, 16958413638051813042, 1004693359077776727⟩,
  ⟨9629608502131673092, 2882928936333963073, 15987483283589685207, 660673428262656412⟩,
  ⟨2443606364563185491, 10139467314740663228, 15189229884372483835, 1290830618469438802⟩,
  ⟨3046319622343455954, 3931730478916712920, 8623867774890709346, 1201913658507810759⟩,
  ⟨14392864240168621772, 17867735212625517017, 2772429327165542818, 836534298808933⟩,
  ⟨1151940341306701400, 3833643241309263777, 13096509072792897905, 752108833686380875⟩,
  ⟨5229009174997575511, 6605658491463927698, 15536337046468055686, 157609910170207177⟩,
  ⟨8741468218382317460, 7144323380514935844, 8672006512648752584, 1334645244751689770⟩,
  ⟨10735754706394522516, 4616532568937564832, 15473812904469788516, 326598703312455138⟩,
  ⟨13470305024595632219, 3964162559887319987, 4104496442465768155, 575184728889423472⟩,
  ⟨7024155969680638810, 1248446637476984159, 3946566487106719690, 78713827286502076⟩,
  ⟨1167875954574760034, 7519910968010082415, 15211147069856354453, 750498091773211075⟩,
  ⟨2863941003802949509, 14521430537116398940, 17833674840165779294, 1117243092487510999⟩,
  ⟨3988048134544140696, 4164314985762153852, 5192160405207219362, 537616833580442108⟩,
  ⟨11691596547822673173, 2072119953696732776, 6048298284479353132, 1041936268987727800⟩,
  ⟨5195217310941133128, 983742991580727110, 15582341176749546934, 192949243806351219⟩,
  ⟨989864604993544245, 10337084476006024351, 6399045939932107087, 349553169959482485⟩,
  ⟨1083252708106498385, 14683159496360594363, 6249116681658609726, 965679621626703084⟩,
  ⟨15520366118357711305, 15455325080109246278, 15912772926708879347, 1181106395388318589⟩,
  ⟨10606086519021812869, 8982436141916758768, 8984252788653949566, 94441446490162493⟩,
  ⟨3989193979672410706, 14522119372119676520, 6031184060057719655, 876537182738173910⟩,
  ⟨6542858007243344725, 10468817694619667802, 1374963053947997860, 281508730046968385⟩,
  ⟨2121254413916702881, 11174399821186314401, 642752851055260652, 172419384352924756⟩,
  ⟨14933138168325040251, 18073996174008481460, 7709184193316921275, 77928985789134259⟩,
  ⟨14183089598463409576, 9599657595270154138, 10401242555342360511, 1031862193117340540⟩,
  ⟨17077860441038791206, 6907855957939974514, 7600347021193310054, 225485956370582495⟩,
  ⟨14475416504140964933, 6622123083135972798, 9257366424078234840, 1254195725521864761⟩,
  ⟨18280884764210583702, 16338431925875586014, 14128385164093913939, 598858774608218822⟩,
  ⟨4251295228276607623, 14698477834719362145, 1576184780996848894, 571585722355337029⟩,
  ⟨13272236615232894643, 14010494529183759900, 800023943280278947, 298394511556555918⟩,
  ⟨10782700402615775164, 14412830325727077172, 4994923730339550224, 1079837299050839065⟩,
  ⟨3621380562787996822, 9464307808788620312, 13909924710435794908, 954766105382202190⟩,
  ⟨17420485363085974001, 9021049394344178089, 8712760747075739797, 568515634248632496⟩,
  ⟨5631572804871766736, 5280080317359998903, 10662020310256217520, 409512057651566449⟩,
  ⟨492276079446892838, 2465000468485598245, 8673960199484145367, 1223371911459041820⟩,
  ⟨16206685073675005008, 13515283938452316993, 8657484044144188143, 555324291337764049⟩,
  ⟨12258020657657344839, 14080584073572047035, 1786385914292976334, 890045806750446876⟩,
  ⟨5437561110469019457, 4195656535041473973, 16642453980220687614, 66446192393822025⟩,
  ⟨11378296852796405140, 13948486972729474860, 13814823936920393870, 543448461574407786⟩,
  ⟨15861083328916660546, 10580336230427962464, 8314263211374088393, 462499203598507289⟩,
  ⟨3596880637235637430, 7244702719747713366, 7698652078859897602, 339166837713921764⟩,
  ⟨16434053565692243270, 856826524108649327, 582888221769745389, 231849743296221718⟩,
  ⟨13466829214638063330, 11871004193533817602, 8715083865527535935, 772758187739256383⟩,
  ⟨2215715304482300708, 6939601967594674311, 9762471006918361079, 751422865267861919⟩,
  ⟨8660358354344868439, 10887567579928131536, 4636772766460938216, 875861572717087557⟩,
  ⟨3718962475606244056, 3574286178071706662, 13969021013516480159, 674248673994385489⟩,
  ⟨13879628242113969355, 15611868744516972804, 689523972787487196, 272170949885373985⟩,
  ⟨731217591867043834, 12057204063676562058, 9968800370062020379, 54367310812503073⟩,
  ⟨10847577089461485884, 14781720798335935361, 2050883758009058177, 1227443941313558442⟩,
  ⟨15484525416052326375, 10433705807314230036, 15903522838889990919, 544585322945419235⟩,
  ⟨5074309280962037193, 5217880605983656639, 14510200362648483018, 557494968888174908⟩,
  ⟨5195138641573043477, 9406776113353168661, 14027024671301857164, 845631148216790994⟩,
  ⟨17960866561088745173, 7239612137411824399, 608332955631666951, 1339588249269723610⟩,
  ⟨6645023811265252448, 359090506368957415, 13186732800236585001, 636175819244839498⟩,
  ⟨9658258475735190727, 14527591238813797995, 16927575748315332307, 1301180113169078950⟩,
  ⟨2426687195330334614, 1677243348703957868, 280959539850383222, 1302367371047198015⟩,
  ⟨2824388857182280398, 387310680804206136, 5259604914427521138, 1184806076664523237⟩,
  ⟨7574972296183053595, 15822886777846030642, 12388539958981301194, 559152516777131559⟩,
  ⟨12201036799149233249, 17892988483166995904, 18084947728796372356, 675956869171241463⟩,
  ⟨16104554650380896914, 4746900513825001701, 6829416706759018904, 220904217190207835⟩,
  ⟨17292549212841163737, 2352946917715655598, 10473544622578247206, 331414403574303893⟩,
  ⟨11411751507285114977, 6456131281833042189, 9429033659401855692, 1204457583147690703⟩,
  ⟨13351228652344837450, 3406524763947142470, 9081889404473741581, 940424223754317289⟩,
  ⟨14630628062553504316, 6262447828497056896, 18085717084217406803, 799246626583428302⟩,
  ⟨864375154255180873, 14000240309598220542, 1750007932942661463, 761312485749733723⟩,
  ⟨14345179008259546406, 6736994392830783692, 5908556958000542218, 1253865209554350406⟩,
  ⟨9764377369274365673, 9072647876947127557, 2341472943201056441, 929216282518283791⟩,
  ⟨12859964114531846483, 13694745246472282132, 2013500954373579911, 751364861274622110⟩,
  ⟨175177818989840916, 4770111355878906194, 12267383210154126463, 131920286091241797⟩,
  ⟨6349104885803077585, 18001260594929500797, 14793230544956264458, 669871090964351917⟩,
  ⟨1792126764165083108, 6081987124440657035, 5531241762790015809, 85100796395211080⟩,
  ⟨11335525023979482372, 13822295879245716952, 777769361600630976, 852248906668581924⟩,
  ⟨2057611721707481944, 12549766028751733826, 3184617081367493745, 17035887437619700⟩,
  ⟨5033510300536938046, 14319156262351107248, 14453339555250931608, 1300088399042594667⟩,
  ⟨586365878943401533, 10219333061949038245, 7972787616665459187, 1180682599170166362⟩,
  ⟨8677310049713074877, 6209659062870853276, 6361763165884296788, 1086786531947345096⟩,
  ⟨4779669491370037827, 13794675476884129106, 2856260482144566523, 815058410432730978⟩,
  ⟨8349785262387520653, 14703604045323517453, 10665488643511503896, 1190736588532344714⟩,
  ⟨9753136258891648437, 7592309943578822500, 18234430885873993524, 946608033429176051⟩,
  ⟨8862120093151408513, 9919781382246740055, 1639967479777957120, 548895009658598348⟩,
  ⟨13150047014556861649, 9895352886349978940, 607603433543469096, 825078058460205935⟩,
  ⟨10677514517763000310, 1869057220976501750, 7668490026500068131, 645375934459787109⟩,
  ⟨8393901821323241932, 7155803376644055598, 5465256629438666110, 467809976924970962⟩,
  ⟨8008789779293081850, 17333068400582244417, 864473515802821379, 712131972755422562⟩,
  ⟨5260641048740129119, 11495506189219575805, 1976170684554961654, 583558279245420304⟩,
  ⟨10607922137491563126, 16997507064637422660, 16243052688991164520, 620318480202596319⟩,
  ⟨8682850641454705537, 4234371891064954414, 11030571520428482979, 775687601614273649⟩,
  ⟨12248979915462901096, 1794636648127247975, 16388845185353268388, 1257257804440120883⟩,
  ⟨17181365213230240819, 3933917789297525218, 774796165591114183, 628159510187755171⟩,
  ⟨9201407700189177387, 14700424513123193347, 18288661468232834482, 407382537568434540⟩,
  ⟨11966891449526246216, 6846368159746727324, 5421814018651935761, 1007837491484494646⟩,
  ⟨3054672449338249840, 772010416012553897, 804919836093674272, 60934971449786311⟩,
  ⟨3349955854192164124, 12023516821995660430, 14073054570207692346, 391152224081538807⟩,
  ⟨4393818606630194054, 11894249453630174803, 11407464681452601419, 527342257675756743⟩,
  ⟨593191207061949875, 394301333075100218, 15992303837511873397, 1258463696198082538⟩,
  ⟨7392815618978882544, 8600193649781721343, 10001082189003162790, 160465744058402439⟩,
  ⟨5982722207731997556, 9327097271719907983, 16837081471143367937, 1323283752393867441⟩,
  ⟨15234580594321690160, 14480758270368693259, 7897576353120019799, 1211836381357568240⟩,
  ⟨17534396175019205578, 3323788238042131357, 16622036826489890791, 893487708746761741⟩,
  ⟨3851834168141787069, 11582510337408899680, 15343784808633432566, 461896544402216282⟩,
  ⟨1182215324455482337, 1943242735522063011, 4144863718139895080, 243576649285589719⟩]

/-- `mds`, poseidon377/src/params/rate_6.rs:1651-1929 -/
def rate6_mds : List Limbs := [
  ⟨14878706952858838161, 15410104227655356999, 17393275270132988194, 905602962502284432⟩,
  ⟨17721242321237835775, 11985636621509722110, 11478464757469040638, 960562638525520553⟩,
  ⟨17640631015407645126, 17416650484724036037, 14803487960933328666, 554882262980868625⟩,
  ⟨10632745392742701465, 7191381972905833266, 10576427669223334706, 1037506184958051122⟩,
  ⟨7989155441247042094, 18276457113184108543, 17999817914616464103, 943187440870955565⟩,
  ⟨18204910156218979669, 16293041589642941780, 9975069610392864084, 1088801882579738168⟩,
  ⟨15441359965645378481, 7022857083512140090, 11162758362666494739, 1108530997049617801⟩,
  ⟨17721242321237835775, 11985636621509722110, 11478464757469040638, 960562638525520553⟩,
  ⟨17640631015407645126, 17416650484724036037, 14803487960933328666, 554882262980868625⟩,
  ⟨10632745392742701465, 7191381972905833266, 10576427669223334706, 1037506184958051122⟩,
  ⟨7989155441247042094, 18276457113184108543, 17999817914616464103, 943187440870955565⟩,
  ⟨18204910156218979669, 16293041589642941780, 9975069610392864084, 1088801882579738168⟩,
  ⟨15441359965645378481, 7022857083512140090, 11162758362666494739, 1108530997049617801⟩,
  ⟨7802104352665277001, 1712233803072817444, 12180777293186749586, 1125441666595228915⟩,
  ⟨17640631015407645126, 17416650484724036037, 14803487960933328666, 554882262980868625⟩,
  ⟨10632745392742701465, 7191381972905833266, 10576427669223334706, 1037506184958051122⟩,
  ⟨7989155441247042094, 18276457113184108543, 17999817914616464103, 943187440870955565⟩,
  ⟨18204910156218979669, 16293041589642941780, 9975069610392864084, 1088801882579738168⟩,
  ⟨15441359965645378481, 7022857083512140090, 11162758362666494739, 1108530997049617801⟩,
  ⟨7802104352665277001, 1712233803072817444, 12180777293186749586, 1125441666595228915⟩,
  ⟨7330330845985706257, 6947957132670498679, 9373711551562393463, 1140097580201425214⟩,
  ⟨10632745392742701465, 7191381972905833266, 10576427669223334706, 1037506184958051122⟩,
  ⟨7989155441247042094, 18276457113184108543, 17999817914616464103, 943187440870955565⟩,
  ⟨18204910156218979669, 16293041589642941780, 9975069610392864084, 1088801882579738168⟩,
  ⟨15441359965645378481, 7022857083512140090, 11162758362666494739, 1108530997049617801⟩,
  ⟨7802104352665277001, 1712233803072817444, 12180777293186749586, 1125441666595228915⟩,
  ⟨7330330845985706257, 6947957132670498679, 9373711551562393463, 1140097580201425214⟩,
  ⟨0, 0, 0, 1152921504606846976⟩,
  ⟨7989155441247042094, 18276457113184108543, 17999817914616464103, 943187440870955565⟩,
  ⟨18204910156218979669, 16293041589642941780, 9975069610392864084, 1088801882579738168⟩,
  ⟨15441359965645378481, 7022857083512140090, 11162758362666494739, 1108530997049617801⟩,
  ⟨7802104352665277001, 1712233803072817444, 12180777293186749586, 1125441666595228915⟩,
  ⟨7330330845985706257, 6947957132670498679, 9373711551562393463, 1140097580201425214⟩,
  ⟨0, 0, 0, 1152921504606846976⟩,
  ⟨829043150522309210, 7485532467658058089, 17072453966431109601, 610297755857677130⟩,
  ⟨18204910156218979669, 16293041589642941780, 9975069610392864084, 1088801882579738168⟩,
  ⟨15441359965645378481, 7022857083512140090, 11162758362666494739, 1108530997049617801⟩,
  ⟨7802104352665277001, 1712233803072817444, 12180777293186749586, 1125441666595228915⟩,
  ⟨7330330845985706257, 6947957132670498679, 9373711551562393463, 1140097580201425214⟩,
  ⟨0, 0, 0, 1152921504606846976⟩,
  ⟨829043150522309210, 7485532467658058089, 17072453966431109601, 610297755857677130⟩,
  ⟨18043687544558598371, 8708325242362018018, 16625116017321440141, 277441131490434312⟩,
  ⟨15441359965645378481, 7022857083512140090, 11162758362666494739, 1108530997049617801⟩,
  ⟨7802104352665277001, 1712233803072817444, 12180777293186749586, 1125441666595228915⟩,
  ⟨7330330845985706257, 6947957132670498679, 9373711551562393463, 1140097580201425214⟩,
  ⟨0, 0, 0, 1152921504606846976⟩,
  ⟨829043150522309210, 7485532467658058089, 17072453966431109601, 610297755857677130⟩,
  ⟨18043687544558598371, 8708325242362018018, 16625116017321440141, 277441131490434312⟩,
  ⟨1903578231313020389, 13252279451564941743, 6429417326301386859, 900077037001125169⟩]

/-- `M_hat`, poseidon377/src/params/rate_6.rs:1930-2127 -/
def rate6_mHat : List Limbs := [
  ⟨17640631015407645126, 17416650484724036037, 14803487960933328666, 554882262980868625⟩,
  ⟨10632745392742701465, 7191381972905833266, 10576427669223334706, 1037506184958051122⟩,
  ⟨7989155441247042094, 18276457113184108543, 17999817914616464103, 943187440870955565⟩,
  ⟨18204910156218979669, 16293041589642941780, 9975069610392864084, 1088801882579738168⟩,
  ⟨15441359965645378481, 7022857083512140090, 11162758362666494739, 1108530997049617801⟩,
  ⟨7802104352665277001, 1712233803072817444, 12180777293186749586, 1125441666595228915⟩,
  ⟨10632745392742701465, 7191381972905833266, 10576427669223334706, 1037506184958051122⟩,
  ⟨7989155441247042094, 18276457113184108543, 17999817914616464103, 943187440870955565⟩,
  ⟨18204910156218979669, 16293041589642941780, 9975069610392864084, 1088801882579738168⟩,
  ⟨15441359965645378481, 7022857083512140090, 11162758362666494739, 1108530997049617801⟩,
  ⟨7802104352665277001, 1712233803072817444, 12180777293186749586, 1125441666595228915⟩,
  ⟨7330330845985706257, 6947957132670498679, 9373711551562393463, 1140097580201425214⟩,
  ⟨7989155441247042094, 18276457113184108543, 17999817914616464103, 943187440870955565⟩,
  ⟨18204910156218979669, 16293041589642941780, 9975069610392864084, 1088801882579738168⟩,
  ⟨15441359965645378481, 7022857083512140090, 11162758362666494739, 1108530997049617801⟩,
  ⟨7802104352665277001, 1712233803072817444, 12180777293186749586, 1125441666595228915⟩,
  ⟨7330330845985706257, 6947957132670498679, 9373711551562393463, 1140097580201425214⟩,
  ⟨0, 0, 0, 1152921504606846976⟩,
  ⟨18204910156218979669, 16293041589642941780, 9975069610392864084, 1088801882579738168⟩,
  ⟨15441359965645378481, 7022857083512140090, 11162758362666494739, 1108530997049617801⟩,
  ⟨7802104352665277001, 1712233803072817444, 12180777293186749586, 1125441666595228915⟩,
  ⟨7330330845985706257, 6947957132670498679, 9373711551562393463, 1140097580201425214⟩,
  ⟨0, 0, 0, 1152921504606846976⟩,
  ⟨829043150522309210, 7485532467658058089, 17072453966431109601, 610297755857677130⟩,
  ⟨15441359965645378481, 7022857083512140090, 11162758362666494739, 1108530997049617801⟩,
  ⟨7802104352665277001, 1712233803072817444, 12180777293186749586, 1125441666595228915⟩,
  ⟨7330330845985706257, 6947957132670498679, 9373711551562393463, 1140097580201425214⟩,
  ⟨0, 0, 0, 1152921504606846976⟩,
  ⟨829043150522309210, 7485532467658058089, 17072453966431109601, 610297755857677130⟩,
  ⟨18043687544558598371, 8708325242362018018, 16625116017321440141, 277441131490434312⟩,
  ⟨7802104352665277001, 1712233803072817444, 12180777293186749586, 1125441666595228915⟩,
  ⟨7330330845985706257, 6947957132670498679, 9373711551562393463, 1140097580201425214⟩,
  ⟨0, 0, 0, 1152921504606846976⟩,
  ⟨829043150522309210, 7485532467658058089, 17072453966431109601, 610297755857677130⟩,
  ⟨18043687544558598371, 8708325242362018018, 16625116017321440141, 277441131490434312⟩,
  ⟨1903578231313020389, 13252279451564941743, 6429417326301386859, 900077037001125169⟩]

/-- `v`, poseidon377/src/params/rate_6.rs:2128-2165 -/
def rate6_v : List Limbs := [
  ⟨17721242321237835775, 11985636621509722110, 11478464757469040638, 960562638525520553⟩,
  ⟨17640631015407645126, 17416650484724036037, 14803487960933328666, 554882262980868625⟩,
  ⟨10632745392742701465, 7191381972905833266, 10576427669223334706, 1037506184958051122⟩,
  ⟨7989155441247042094, 18276457113184108543, 17999817914616464103, 943187440870955565⟩,
  ⟨18204910156218979669, 16293041589642941780, 9975069610392864084, 1088801882579738168⟩,
  ⟨15441359965645378481, 7022857083512140090, 11162758362666494739, 1108530997049617801⟩]

/-- `w`, poseidon377/src/params/rate_6.rs:2166-2203 -/
def rate6_w : List Limbs := [
  ⟨17721242321237835775, 11985636621509722110, 11478464757469040638, 960562638525520553⟩,
  ⟨17640631015407645126, 17416650484724036037, 14803487960933328666, 554882262980868625⟩,
  ⟨10632745392742701465, 7191381972905833266, 10576427669223334706, 1037506184958051122⟩,
  ⟨7989155441247042094, 18276457113184108543, 17999817914616464103, 943187440870955565⟩,
  ⟨18204910156218979669, 16293041589642941780, 9975069610392864084, 1088801882579738168⟩,
  ⟨15441359965645378481, 7022857083512140090, 11162758362666494739, 1108530997049617801⟩]

/-- `M_prime`, poseidon377/src/params/rate_6.rs:2204-2419 -/
def rate6_mPrime : List Limbs := [
  ⟨9015221291577245683, 8239323489949974514, 1646089257421115374, 958099254763297437⟩,
  ⟨0, 0, 0, 0⟩,
  ⟨0, 0, 0, 0⟩,
  ⟨0, 0, 0, 0⟩,
  ⟨0, 0, 0, 0⟩,
  ⟨0, 0, 0, 0⟩,
  ⟨0, 0, 0, 0⟩,
  ⟨0, 0, 0, 0⟩,
  ⟨17640631015407645126, 17416650484724036037, 14803487960933328666, 554882262980868625⟩,
  ⟨10632745392742701465, 7191381972905833266, 10576427669223334706, 1037506184958051122⟩,
  ⟨7989155441247042094, 18276457113184108543, 17999817914616464103, 943187440870955565⟩,
  ⟨18204910156218979669, 16293041589642941780, 9975069610392864084, 1088801882579738168⟩,
  ⟨15441359965645378481, 7022857083512140090, 11162758362666494739, 1108530997049617801⟩,
  ⟨7802104352665277001, 1712233803072817444, 12180777293186749586, 1125441666595228915⟩,
  ⟨0, 0, 0, 0⟩,
  ⟨10632745392742701465, 7191381972905833266, 10576427669223334706, 1037506184958051122⟩,
  ⟨7989155441247042094, 18276457113184108543, 17999817914616464103, 943187440870955565⟩,
  ⟨18204910156218979669, 16293041589642941780, 9975069610392864084, 1088801882579738168⟩,
  ⟨15441359965645378481, 7022857083512140090, 11162758362666494739, 1108530997049617801⟩,
  ⟨7802104352665277001, 1712233803072817444, 12180777293186749586, 1125441666595228915⟩,
  ⟨7330330845985706257, 6947957132670498679, 9373711551562393463, 1140097580201425214⟩,
  ⟨0, 0, 0, 0⟩,
  ⟨7989155441247042094, 18276457113184108543, 17999817914616464103, 943187440870955565⟩,
  ⟨18204910156218979669, 16293041589642941780, 9975069610392864084, 1088801882579738168⟩,
  ⟨15441359965645378481, 7022857083512140090, 11162758362666494739, 1108530997049617801⟩,
  ⟨7802104352665277001, 1712233803072817444, 12180777293186749586, 1125441666595228915⟩,
  ⟨7330330845985706257, 6947957132670498679, 9373711551562393463, 1140097580201425214⟩,
  ⟨0, 0, 0, 1152921504606846976⟩,
  ⟨0, 0, 0, 0⟩,
  ⟨18204910156218979669, 16293041589642941780, 9975069610392864084, 1088801882579738168⟩,
  ⟨15441359965645378481, 7022857083512140090, 11162758362666494739, 1108530997049617801⟩,
  ⟨7802104352665277001, 1712233803072817444, 12180777293186749586, 1125441666595228915⟩,
  ⟨7330330845985706257, 6947957132670498679, 9373711551562393463, 1140097580201425214⟩,
  ⟨0, 0, 0, 1152921504606846976⟩,
  ⟨829043150522309210, 7485532467658058089, 17072453966431109601, 610297755857677130⟩,
  ⟨0, 0, 0, 0⟩,
  ⟨15441359965645378481, 7022857083512140090, 11162758362666494739, 1108530997049617801⟩,
  ⟨7802104352665277001, 1712233803072817444, 12180777293186749586, 1125441666595228915⟩,
  ⟨7330330845985706257, 6947957132670498679, 9373711551562393463, 1140097580201425214⟩,
  ⟨0, 0, 0, 1152921504606846976⟩,
  ⟨829043150522309210, 7485532467658058089, 17072453966431109601, 610297755857677130⟩,
  ⟨18043687544558598371, 8708325242362018018, 16625116017321440141, 277441131490434312⟩,
  ⟨0, 0, 0, 0⟩,
  ⟨7802104352665277001, 1712233803072817444, 12180777293186749586, 1125441666595228915⟩,
  ⟨7330330845985706257, 6947957132670498679, 9373711551562393463, 1140097580201425214⟩,
  ⟨0, 0, 0, 1152921504606846976⟩,
  ⟨829043150522309210, 7485532467658058089, 17072453966431109601, 610297755857677130⟩,
  ⟨18043687544558598371, 8708325242362018018, 16625116017321440141, 277441131490434312⟩,
  ⟨1903578231313020389, 13252279451564941743, 6429417326301386859, 900077037001125169⟩]

/-- `M_doubleprime`, poseidon377/src/params/rate_6.rs:2420-2565 -/
def rate6_mDoublePrime : List Limbs := [
  ⟨14878706952858838161, 15410104227655356999, 17393275270132988194, 905602962502284432⟩,
  ⟨17721242321237835775, 11985636621509722110, 11478464757469040638, 960562638525520553⟩,
  ⟨17640631015407645126, 17416650484724036037, 14803487960933328666, 554882262980868625⟩,
  ⟨10632745392742701465, 7191381972905833266, 10576427669223334706, 1037506184958051122⟩,
  ⟨7989155441247042094, 18276457113184108543, 17999817914616464103, 943187440870955565⟩,
  ⟨18204910156218979669, 16293041589642941780, 9975069610392864084, 1088801882579738168⟩,
  ⟨15441359965645378481, 7022857083512140090, 11162758362666494739, 1108530997049617801⟩,
  ⟨6933713838801944433, 16845582094611513195, 18106981831632269118, 1315719765541495999⟩,
  ⟨9015221291577245683, 8239323489949974514, 1646089257421115374, 958099254763297437⟩,
  ⟨0, 0, 0, 0⟩,
  ⟨0, 0, 0, 0⟩,
  ⟨0, 0, 0, 0⟩,
  ⟨0, 0, 0, 0⟩,
  ⟨0, 0, 0, 0⟩,
  ⟨11025937787709817432, 2848215840891863663, 12003429085947921194, 123169188111155826⟩,
  ⟨0, 0, 0, 0⟩,
  ⟨9015221291577245683, 8239323489949974514, 1646089257421115374, 958099254763297437⟩,
  ⟨0, 0, 0, 0⟩,
  ⟨0, 0, 0, 0⟩,
  ⟨0, 0, 0, 0⟩,
  ⟨0, 0, 0, 0⟩,
  ⟨12625372430371999830, 16677955247940128803, 7323211740492754581, 634092645821649835⟩,
  ⟨0, 0, 0, 0⟩,
  ⟨0, 0, 0, 0⟩,
  ⟨9015221291577245683, 8239323489949974514, 1646089257421115374, 958099254763297437⟩,
  ⟨0, 0, 0, 0⟩,
  ⟨0, 0, 0, 0⟩,
  ⟨0, 0, 0, 0⟩,
  ⟨8476375831616065903, 8302751278140753414, 4675397025515049474, 916054888187664134⟩,
  ⟨0, 0, 0, 0⟩,
  ⟨0, 0, 0, 0⟩,
  ⟨0, 0, 0, 0⟩,
  ⟨9015221291577245683, 8239323489949974514, 1646089257421115374, 958099254763297437⟩,
  ⟨0, 0, 0, 0⟩,
  ⟨0, 0, 0, 0⟩,
  ⟨10397071512469717592, 5168805500057287779, 15231087545157212262, 795647437775574917⟩,
  ⟨0, 0, 0, 0⟩,
  ⟨0, 0, 0, 0⟩,
  ⟨0, 0, 0, 0⟩,
  ⟨0, 0, 0, 0⟩,
  ⟨9015221291577245683, 8239323489949974514, 1646089257421115374, 958099254763297437⟩,
  ⟨0, 0, 0, 0⟩,
  ⟨4753644871978862709, 5862282760667146308, 12460694012157225697, 599558919665641703⟩,
  ⟨0, 0, 0, 0⟩,
  ⟨0, 0, 0, 0⟩,
  ⟨0, 0, 0, 0⟩,
  ⟨0, 0, 0, 0⟩,
  ⟨0, 0, 0, 0⟩,
  ⟨9015221291577245683, 8239323489949974514, 1646089257421115374, 958099254763297437⟩]

/-- `M_inverse`, poseidon377/src/params/rate_6.rs:2566-2861 -/
def rate6_mInverse : List Limbs := [
  ⟨18289540298934006401, 12620611207485559719, 12496121289749056322, 817144512748384706⟩,
  ⟨15589773063064153532, 10937873166103048610, 6318262381745988044, 164305025615087669⟩,
  ⟨15945838893269705074, 12231655940729207770, 16783976632846575746, 1109102887521365908⟩,
  ⟨6834634673379885361, 14313980702431346769, 11799433102834887335, 414159939376644417⟩,
  ⟨6202864031195801806, 9008291636618939950, 4452886644180013898, 834656796167786155⟩,
  ⟨257831097013115576, 868816813650478155, 3804928554730106375, 37318070574597666⟩,
  ⟨12731957617084167734, 10385122202334236509, 6304526407551965622, 473830859466044865⟩,
  ⟨15589773063064153532, 10937873166103048610, 6318262381745988044, 164305025615087669⟩,
  ⟨6846034351900465196, 14922456655897598264, 3385387262061980880, 41120221023296058⟩,
  ⟨15382748348274919943, 17176897444608801178, 9672737639142736111, 667324299238078128⟩,
  ⟨15347282079877344563, 7118861760574925591, 14639960435031189354, 496118406637979928⟩,
  ⟨10633984218986397485, 1476776383719121929, 18242946201412975574, 235737836971566080⟩,
  ⟨13255078662550912877, 6201099884138924934, 16598544366614787861, 517978551803961280⟩,
  ⟨16511322183643786520, 12899213679171041629, 10327663219981717303, 101291905845336522⟩,
  ⟨15945838893269705074, 12231655940729207770, 16783976632846575746, 1109102887521365908⟩,
  ⟨15382748348274919943, 17176897444608801178, 9672737639142736111, 667324299238078128⟩,
  ⟨14205197080554911234, 18284593956791143607, 9307844449907611885, 840522240017846486⟩,
  ⟨15159258319784243147, 14082599260628033239, 6774164385877933413, 747982014981801174⟩,
  ⟨1720795814776594401, 1331741422739941001, 1433030060135444919, 661580976464017359⟩,
  ⟨18293763308414053579, 18299155137503640753, 10462936480575081846, 453983746301356936⟩,
  ⟨4581286503082050232, 12284808854596259078, 3289926894666988909, 902128282614826112⟩,
  ⟨6834634673379885361, 14313980702431346769, 11799433102834887335, 414159939376644417⟩,
  ⟨15347282079877344563, 7118861760574925591, 14639960435031189354, 496118406637979928⟩,
  ⟨15159258319784243147, 14082599260628033239, 6774164385877933413, 747982014981801174⟩,
  ⟨8459024031946559011, 9756324734815253725, 14081981857002652443, 1295411099915753127⟩,
  ⟨12916186197107076085, 5935794698380416041, 14163718741243160273, 1284207706380505486⟩,
  ⟨18200592249652917081, 10952824854756428652, 13221851894140961386, 952100497899551398⟩,
  ⟨7909306592215715661, 12372000920976206381, 13047646210570006173, 1134258014683902124⟩,
  ⟨6202864031195801806, 9008291636618939950, 4452886644180013898, 834656796167786155⟩,
  ⟨10633984218986397485, 1476776383719121929, 18242946201412975574, 235737836971566080⟩,
  ⟨1720795814776594401, 1331741422739941001, 1433030060135444919, 661580976464017359⟩,
  ⟨12916186197107076085, 5935794698380416041, 14163718741243160273, 1284207706380505486⟩,
  ⟨3910809514494604292, 8483245271389311552, 16246267851842217096, 18865255698597878⟩,
  ⟨3026843501192760993, 8380473052143493977, 3054950936628239486, 722212886196682246⟩,
  ⟨17640176946983601983, 7851638753013976420, 7953773760774643320, 1060395049618029567⟩,
  ⟨257831097013115576, 868816813650478155, 3804928554730106375, 37318070574597666⟩,
  ⟨13255078662550912877, 6201099884138924934, 16598544366614787861, 517978551803961280⟩,
  ⟨18293763308414053579, 18299155137503640753, 10462936480575081846, 453983746301356936⟩,
  ⟨18200592249652917081, 10952824854756428652, 13221851894140961386, 952100497899551398⟩,
  ⟨3026843501192760993, 8380473052143493977, 3054950936628239486, 722212886196682246⟩,
  ⟨6947786146630418877, 15369056627168554704, 17602917142112233480, 860079864989181067⟩,
  ⟨12292153329582579311, 12340018229585837748, 16138005556776207249, 689763430924300574⟩,
  ⟨12731957617084167734, 10385122202334236509, 6304526407551965622, 473830859466044865⟩,
  ⟨16511322183643786520, 12899213679171041629, 10327663219981717303, 101291905845336522⟩,
  ⟨4581286503082050232, 12284808854596259078, 3289926894666988909, 902128282614826112⟩,
  ⟨7909306592215715661, 12372000920976206381, 13047646210570006173, 1134258014683902124⟩,
  ⟨17640176946983601983, 7851638753013976420, 7953773760774643320, 1060395049618029567⟩,
  ⟨12292153329582579311, 12340018229585837748, 16138005556776207249, 689763430924300574⟩,
  ⟨11306146037240305765, 10984198068608188499, 1191708097986331420, 836519420285054905⟩]

/-- `M_hat_inverse`, poseidon377/src/params/rate_6.rs:2862-3079 -/
def rate6_mHatInverse : List Limbs := [
  ⟨3792453098216396897, 12628553005522469477, 16642002769880465331, 421042619293543187⟩,
  ⟨10263844291975416107, 13672341457628810763, 12509513995609872959, 205381282018859586⟩,
  ⟨10784713721876928946, 5674574537437802090, 12687938002553184071, 136316472684139419⟩,
  ⟨16070813810583366554, 1956961633890359529, 13965208031005279836, 927951972604280320⟩,
  ⟨6738933144333850617, 6100304390614169754, 1210061970152249951, 909818292837236776⟩,
  ⟨9669791352790763084, 10325954078533278386, 9503492366281944368, 1040674818174287413⟩,
  ⟨10263844291975416107, 13672341457628810763, 12509513995609872959, 205381282018859586⟩,
  ⟨6412844366295084778, 7666866282335076917, 1998128405856404681, 74724070388243614⟩,
  ⟨2820801561543625657, 2418377097726488830, 6026234412050937676, 1126089764215992130⟩,
  ⟨8551209674866173640, 6260366140671248954, 12081978629156052449, 1140556338048141522⟩,
  ⟨3127468548134575066, 584585047777214689, 7762916153904627652, 166598529350882438⟩,
  ⟨7594054111820467981, 8571015412052249811, 6107608647809765519, 1023873926642050928⟩,
  ⟨10784713721876928946, 5674574537437802090, 12687938002553184071, 136316472684139419⟩,
  ⟨2820801561543625657, 2418377097726488830, 6026234412050937676, 1126089764215992130⟩,
  ⟨10427240268737712782, 8508693586717179156, 9391845005515956255, 937208025112203554⟩,
  ⟨8182900134894401237, 12638356435589207249, 2514008238224928511, 262393601667707271⟩,
  ⟨9827417092260447852, 9328415136733098350, 7749975888478067278, 1296132886589595648⟩,
  ⟨16287831069372846812, 12117020194152290696, 2582012005292236373, 964219332138367410⟩,
  ⟨16070813810583366554, 1956961633890359529, 13965208031005279836, 927951972604280320⟩,
  ⟨8551209674866173640, 6260366140671248954, 12081978629156052449, 1140556338048141522⟩,
  ⟨8182900134894401237, 12638356435589207249, 2514008238224928511, 262393601667707271⟩,
  ⟨2689211423437640460, 9937738931024806642, 16752771701136165272, 1203240695252068537⟩,
  ⟨4340203757804311965, 12676662818122060527, 8325672080044279362, 1087811919015138569⟩,
  ⟨14389282186921406518, 13071685447061354484, 9323961789214815202, 798867032561203873⟩,
  ⟨6738933144333850617, 6100304390614169754, 1210061970152249951, 909818292837236776⟩,
  ⟨3127468548134575066, 584585047777214689, 7762916153904627652, 166598529350882438⟩,
  ⟨9827417092260447852, 9328415136733098350, 7749975888478067278, 1296132886589595648⟩,
  ⟨4340203757804311965, 12676662818122060527, 8325672080044279362, 1087811919015138569⟩,
  ⟨16937615735900532927, 2828202157217662325, 11653172729566405164, 102608297022837914⟩,
  ⟨10698441721372329435, 14189560518339287134, 16709548602960206315, 1115736315296030670⟩,
  ⟨9669791352790763084, 10325954078533278386, 9503492366281944368, 1040674818174287413⟩,
  ⟨7594054111820467981, 8571015412052249811, 6107608647809765519, 1023873926642050928⟩,
  ⟨16287831069372846812, 12117020194152290696, 2582012005292236373, 964219332138367410⟩,
  ⟨14389282186921406518, 13071685447061354484, 9323961789214815202, 798867032561203873⟩,
  ⟨10698441721372329435, 14189560518339287134, 16709548602960206315, 1115736315296030670⟩,
  ⟨4200873270792393235, 10250359348562610182, 13119023895300261973, 870734268521497409⟩]

/-- `M_00`, poseidon377/src/params/rate_6.rs:3080-3085 -/
def rate6_m00 : Limbs := ⟨14878706952858838161, 15410104227655356999, 17393275270132988194, 905602962502284432⟩

/-- `M_i`, poseidon377/src/params/rate_6.rs:3086-3321 -/
def rate6_mI : List Limbs := [
  ⟨9015221291577245683, 8239323489949974514, 1646089257421115374, 958099254763297437⟩,
  ⟨0, 0, 0, 0⟩,
  ⟨0, 0, 0, 0⟩,
  ⟨0, 0, 0, 0⟩,
  ⟨0, 0, 0, 0⟩,
  ⟨0, 0, 0, 0⟩,
  ⟨0, 0, 0, 0⟩,
  ⟨0, 0, 0, 0⟩,
  ⟨3417057834288542701, 14660334709638275173, 15697961235617927687, 541283478161011852⟩,
  ⟨7015809488978334700, 16756137731097346041, 4299145747412822878, 425771021418967410⟩,
  ⟨11403455157288865564, 17867822347283350530, 6642326758447081407, 347793598737965121⟩,
  ⟨3281498772575130056, 15793155797823121930, 13825210503534495803, 403937498710078315⟩,
  ⟨14433853750795786283, 6064690325535561885, 8568546552249237512, 321732587903564709⟩,
  ⟨6678655391923876018, 8629057843778719427, 9842628707936041139, 63076861057827674⟩,
  ⟨0, 0, 0, 0⟩,
  ⟨7015809488978334700, 16756137731097346041, 4299145747412822878, 425771021418967410⟩,
  ⟨2912519858324498512, 6507880465488943086, 4272821136041054916, 111743668526988613⟩,
  ⟨1748445869324305294, 9551769637184621333, 15854660035338842641, 935843652651688174⟩,
  ⟨16017478920517952465, 12052990841260496131, 1846258033159005439, 1283952887503997049⟩,
  ⟨13375753074817350454, 1048153563921378033, 9203345202329021202, 240551250239901980⟩,
  ⟨11153565452311437343, 15840896398791388390, 6651106066134943770, 1041420503258293522⟩,
  ⟨0, 0, 0, 0⟩,
  ⟨11403455157288865564, 17867822347283350530, 6642326758447081407, 347793598737965121⟩,
  ⟨1748445869324305294, 9551769637184621333, 15854660035338842641, 935843652651688174⟩,
  ⟨12634906865313795269, 11036595778607414197, 3160889789817653150, 123157168832279614⟩,
  ⟨8716577469114679639, 13354977326657221151, 13192299021058097299, 1294655858266660253⟩,
  ⟨13373336070740714862, 8730572127209811217, 7187749001613674585, 593376019371200200⟩,
  ⟨10026036648949247362, 12678383936758102898, 11178426371544881076, 1002297129682557342⟩,
  ⟨0, 0, 0, 0⟩,
  ⟨3281498772575130056, 15793155797823121930, 13825210503534495803, 403937498710078315⟩,
  ⟨16017478920517952465, 12052990841260496131, 1846258033159005439, 1283952887503997049⟩,
  ⟨8716577469114679639, 13354977326657221151, 13192299021058097299, 1294655858266660253⟩,
  ⟨14690633444146561299, 13456453518898387751, 10432348396252513416, 1242585437512358865⟩,
  ⟨14102570081274067998, 8257296766039180005, 7790604469177448243, 143690956943080350⟩,
  ⟨8465733138989536717, 2929735846155108951, 4450573983160870127, 472219173524401119⟩,
  ⟨0, 0, 0, 0⟩,
  ⟨14433853750795786283, 6064690325535561885, 8568546552249237512, 321732587903564709⟩,
  ⟨13375753074817350454, 1048153563921378033, 9203345202329021202, 240551250239901980⟩,
  ⟨13373336070740714862, 8730572127209811217, 7187749001613674585, 593376019371200200⟩,
  ⟨14102570081274067998, 8257296766039180005, 7790604469177448243, 143690956943080350⟩,
  ⟨4085032723309791110, 4665611504008924558, 11824165711550330487, 578201258376880126⟩,
  ⟨11519276958617059096, 13454485508887725898, 7249926774019308728, 1072756789797212364⟩,
  ⟨0, 0, 0, 0⟩,
  ⟨6678655391923876018, 8629057843778719427, 9842628707936041139, 63076861057827674⟩,
  ⟨11153565452311437343, 15840896398791388390, 6651106066134943770, 1041420503258293522⟩,
  ⟨10026036648949247362, 12678383936758102898, 11178426371544881076, 1002297129682557342⟩,
  ⟨8465733138989536717, 2929735846155108951, 4450573983160870127, 472219173524401119⟩,
  ⟨11519276958617059096, 13454485508887725898, 7249926774019308728, 1072756789797212364⟩,
  ⟨8573207762665625898, 16056334493165972918, 10346718250214646205, 1191123760209144883⟩]

/-- `v_collection`, poseidon377/src/params/rate_6.rs:3322-4501 -/
def rate6_vCollection : List (List Limbs) := [
  [⟨17721242321237835775, 11985636621509722110, 11478464757469040638, 960562638525520553⟩, ⟨17640631015407645126, 17416650484724036037, 14803487960933328666, 554882262980868625⟩, ⟨10632745392742701465, 7191381972905833266, 10576427669223334706, 1037506184958051122⟩, ⟨7989155441247042094, 18276457113184108543, 17999817914616464103, 943187440870955565⟩, ⟨18204910156218979669, 16293041589642941780, 9975069610392864084, 1088801882579738168⟩, ⟨15441359965645378481, 7022857083512140090, 11162758362666494739, 1108530997049617801⟩],
  [⟨10644639721044274615, 16734510270636734171, 6265966780522802029, 1180401342618465036⟩, ⟨1254097908378330934, 13601601811345135765, 15071243631801644424, 297593012698954223⟩, ⟨10771062345226876930, 7469649658028794228, 3597902033882677100, 608350358812428664⟩, ⟨10231075707837198839, 11530522131003023037, 1802721152151214035, 1212125375706727806⟩, ⟨548206758129328348, 778220363894850734, 12082251172806692919, 593860302507973656⟩, ⟨6029427183938663855, 17136269120728144851, 7031277897576748532, 978052702327451285⟩],
  [⟨14583548544607776390, 1455594659839297233, 7503148269133459078, 979881557166431467⟩, ⟨4091794927241778027, 3984934849444513902, 4168704414264273635, 1243153189837659840⟩, ⟨13672227389423134641, 7889118255497550145, 10535716868579808028, 727851871568307361⟩, ⟨1805790605077811102, 13328027295111756288, 15284753467090911646, 476755389437853977⟩, ⟨6818887996128827024, 12980010109101424586, 17837508282492360706, 804695904048021645⟩, ⟨9531071905126860029, 10560990131084904417, 3843562488879133086, 427342220830413508⟩],
  [⟨12999307184917437199, 4460278989335054240, 8039372983916400823, 524229825913330581⟩, ⟨13201924241923240556, 11745564486322152121, 2471694394944636145, 181216534789741406⟩, ⟨4934105058811497644, 12271038025203690017, 7436143789682315585, 998806416030886275⟩, ⟨13725255261959326942, 8555513885879208558, 955378272993441581, 297008239472103166⟩, ⟨10371095811858205849, 8804518571176544229, 11002636904361592873, 660578117299637260⟩, ⟨8307653710943752623, 2839318436416200448, 12213117778126871947, 1025759164655249254⟩],
  [⟨11863327563780294024, 10993730767593839696, 9502873035480842903, 1097248076762680248⟩, ⟨6808878885915903933, 8278632955554852373, 12719166835729596674, 804467256685775329⟩, ⟨16008107817056775055, 8608502583580218397, 2796011695423831437, 949203486167282741⟩, ⟨9591171450453062265, 6399710760130247553, 16473627252289324238, 199489766710074990⟩, ⟨2126693132859812176, 10946771068545746672, 16987361148217467014, 545647818048109007⟩, ⟨11988059750093062229, 9298754840020496938, 15035120852882985245, 1192754512132360647⟩],
  [⟨8283981142206306939, 15468588506068845291, 14286327059693983748, 168088448899207140⟩, ⟨10471089395398769453, 96236653784383214, 16648343620891915559, 253629587649938570⟩, ⟨2122557167897006073, 6496047148498928328, 4866370458783575330, 393653606927582732⟩, ⟨1613936452873278524, 13810247455069732717, 15313868045534267346, 1243393042619890514⟩, ⟨15475354144715027231, 7573523099482013249, 12718534995660881344, 1280011735315941795⟩, ⟨16713988261819571430, 2839652657083011646, 3620474509759339159, 813365112700437390⟩],
  [⟨5224860601737206030, 471099951455807337, 4240850224623809066, 1213277143090320240⟩, ⟨8044997223262572963, 8080347158505061529, 3228586894312007285, 331597882779275433⟩, ⟨1208998236383405070, 1447425529631254332, 8002978071615560825, 1168296975382357177⟩, ⟨3717552334324548558, 14379760040658949225, 17287286958139444106, 498156372540796351⟩, ⟨7205892599830853163, 15212333206847125686, 5699921803433736310, 905915093597247729⟩, ⟨755943729919434357, 10577236669397908241, 14468710867857253298, 1024324011896165462⟩],
  [⟨8058282063231996405, 17257430900010574484, 2158055163476481194, 595100858348853692⟩, ⟨15085559623482919871, 3472078672722908583, 4599317711792091602, 222588611222065167⟩, ⟨15424099905499014070, 8434797005632313353, 8131086932997815225, 1036565779889668097⟩, ⟨1382697922847342157, 4665453833795528964, 9747274806721360803, 148779622932294522⟩, ⟨4432837085227621901, 3625643010647482210, 9188161200126159834, 1031489011263833493⟩, ⟨2595560161561027549, 10106811297951765366, 17488308776579863485, 206455909861435406⟩],
  [⟨820166082021164174, 9749064658839893621, 2697165176777711952, 1013643423254794247⟩, ⟨11434285783669558858, 13584809878479701720, 3915545683544186278, 1023126538570256918⟩, ⟨2165364699284154689, 12685002878895760637, 6867136501788661212, 674836357022179385⟩, ⟨9371284124941532260, 7254488926567729428, 14153148852060364975, 563833886155167209⟩, ⟨12983913502532225115, 10422261732254055015, 9682741985590349706, 1152902980215236093⟩, ⟨53453825694603265, 7363785068269762421, 10014136818496735189, 418364251047633957⟩],
  [⟨9089547361822769623, 2614400882196504844, 18171746873737288094, 75978327930221735⟩, ⟨16792233542280595044, 9194009742559712662, 16681314096151276162, 141104854369611948⟩, ⟨14121587945665084254, 4285652051739813435, 908329507035055833, 1170458112249762210⟩, ⟨17832160706398652605, 12757316993880307572, 17823976387828534641, 1060884446639737566⟩, ⟨12238967831419693891, 17285564337796726189, 772363080009335540, 1133022491303716360⟩, ⟨7101023699634357749, 6639281158265807289, 4981868997280764642, 985691418122098087⟩],
  [⟨11269122037409773082, 12011421319544460999, 1334150225599331569, 2858146322225763⟩, ⟨9313709853509185496, 16206428797220002184, 13680333402027486517, 1242753153191996216⟩, ⟨17569743508708392526, 3142648113271106845, 1634996132313805038, 345389980530236831⟩, ⟨13214675085238735159, 17546363296125310843, 15104140193957885186, 1009608979945975479⟩, ⟨13156206507994500002, 15331136932468936255, 18120353711369546595, 212936761308279860⟩, ⟨15728832258520667556, 2222718495126847960, 9069363803574780412, 1252511052567294538⟩],
  [⟨15318220334729666071, 10085274749271496451, 13235713280652147722, 745052808139004576⟩, ⟨13156235912943986954, 5448235351584523656, 14912753996910833259, 1074562042912540040⟩, ⟨10973489371567110798, 13864494226359434162, 2551801121655091132, 842122627627640172⟩, ⟨16434063247854180644, 4535379715543303383, 15837253172489347337, 811511753879666188⟩, ⟨17168911107864577236, 43950174469174547, 5104860072131484949, 973362737471998355⟩, ⟨7931655442728732623, 2231832287024216001, 1215678170119206083, 809922596417314673⟩],
  [⟨11089365147905175739, 17689470198615435650, 1802029570881529665, 323182645037342266⟩, ⟨15969427871111504498, 5489904452991350903, 6060256254335150822, 327519122975337122⟩, ⟨8372741465623248660, 14241887742859321780, 5732992227950195767, 39295360183511289⟩, ⟨1187756953137288615, 6353707652463699269, 16025288734445909769, 689723399381686930⟩, ⟨3641027043425346704, 7529359599459005223, 2263874390889253898, 1174711192482135891⟩, ⟨14213602576882685129, 1072450781726178504, 9166004798283088170, 288986234043895133⟩],
  [⟨9857091378959575712, 4700244761781549157, 11886572911958021128, 978573057754163783⟩, ⟨6859829417840328625, 5380908914233546421, 9985382358422821006, 809479275163892841⟩, ⟨7129905675772133963, 9947583967153283633, 11488752011523120045, 70770661730429235⟩, ⟨10339301687172431688, 7034120066892139373, 278535235730000358, 1037618672688193269⟩, ⟨8073945182151246976, 8024480602729778451, 14228737842273667747, 5601376964086932⟩, ⟨17455241286370251178, 5877720710031178913, 9559992722432789829, 1325168601990716931⟩],
  [⟨4443170007910122686, 7353422220255768461, 15086677032035138267, 1000401307557218310⟩, ⟨6016899902613423969, 17460518555665406782, 3732816219387681456, 602171657802810010⟩, ⟨17215551508008455197, 14155576318076749717, 287763472218567445, 348594781061367360⟩, ⟨13673281300516729195, 2214275010578136594, 5278640382055069707, 862836485498449760⟩, ⟨14604602086577261525, 17331229080491881983, 9761345074674761926, 92431445071525752⟩, ⟨288667004247211189, 8068558316435185759, 34133259048288536, 632325899262964414⟩],
  [⟨4414532264671055849, 13933747433746332421, 13027565118143790352, 1050571576397137370⟩, ⟨10778047724985809400, 1316157346886280268, 10174764403037871455, 1310251685035182702⟩, ⟨2901779093000588757, 14345292131236108270, 325687763253834560, 1302296993426055332⟩, ⟨10195270688246580514, 15529132938808577668, 16655748986619374751, 1334926369645181743⟩, ⟨10219117138329677661, 17968691841862978952, 2586002244710590318, 890496969841145620⟩, ⟨2498245601951074289, 1598646875827827107, 890275996690762376, 77165559003555915⟩],
  [⟨2988605310258792866, 15957801327838169961, 7584840999811153279, 434926945147154735⟩, ⟨9597713906228190573, 13530531350309731794, 11006707392867763256, 1180021669203726874⟩, ⟨3103797984913840610, 13327065637625915613, 7317743376243954428, 454606898571769263⟩, ⟨13418762319452988162, 7011698969983978549, 10043811570622910529, 1219725988569937648⟩, ⟨16415739938738212197, 18000325972331813382, 2937222969358261592, 751420552035148970⟩, ⟨18143523461998133814, 17501449569222234751, 11831229978852878240, 230065434288493720⟩],
  [⟨390587431735370215, 6070182885512254444, 15678300086321846232, 658622796995655025⟩, ⟨11187073703980753366, 11256592440200977896, 1503110027135689183, 1132851611041610655⟩, ⟨13154916648506390915, 5339482676807482888, 7230250399862288620, 218460204422790571⟩, ⟨9102410326146594084, 6165251247104570609, 17897733375690573799, 920164771069067785⟩, ⟨17285085289295929853, 16238198804092185825, 16251509486414134096, 1084909706592090544⟩, ⟨3880782017033225674, 4873252603362867352, 14459262730771211791, 163174741264077656⟩],
  [⟨4363513037339290429, 11071402644779655945, 18203948441237058377, 487870628328334554⟩, ⟨9854620422114551002, 11862250176770700568, 874594626487585300, 932096667364472947⟩, ⟨2172530204291601442, 6393872278636522840, 684019909052108375, 180921268676761997⟩, ⟨747820584568953283, 11441694611866320992, 4524856196876367929, 874564518710804172⟩, ⟨7299335342253825037, 12867703813750147845, 7941311700245180087, 1108892033870182325⟩, ⟨17832410557204971163, 4075792975869963488, 7197135716780572438, 152677169125496593⟩],
  [⟨10163931248253127785, 1981713163631115965, 3150372916074444430, 470994848988866265⟩, ⟨15083629881223276978, 2015879515814390952, 11644449746714623084, 946361618448877426⟩, ⟨16592814677886046887, 8039452671655169748, 2594546365519790998, 584104276493702607⟩, ⟨17407066489676124305, 8656046168534251407, 3138964226038501382, 514356098263219093⟩, ⟨15942565322057954282, 6097316293590202889, 6372629697231874413, 113242342217125329⟩, ⟨11571924722120150581, 13912164049336724059, 2502413236406840486, 679604324439169221⟩],
  [⟨11231555889522859185, 12838308109173382219, 14989494611471795387, 1234334251746422128⟩, ⟨11820760137592674131, 13233941704214912620, 9184955620669308585, 760535087243845704⟩, ⟨18251843258930069429, 6913182660293023569, 15611295871669355399, 543202252785444658⟩, ⟨3623801569902716815, 12012005568369974445, 8975238911566253998, 1306561840926137970⟩, ⟨11553511503558092125, 12278824151250337447, 14503589672502199303, 1306659756102330132⟩, ⟨15708785553057654326, 3840692890311772930, 4102206509788468425, 440698181344607784⟩],
  [⟨8058055302582355971, 5700106105541005064, 7460926738156841111, 462277946682165887⟩, ⟨4851568100746305461, 6584456459134975532, 17460185792418666468, 793703974849869892⟩, ⟨1493013092751501655, 6157234009848897017, 14948235164845831294, 1116239172277392848⟩, ⟨541291017778122597, 4361606389405799905, 13559255135673617904, 164046297400629617⟩, ⟨6157883725635917010, 7921949762718398664, 8097426475493743176, 285172774886131081⟩, ⟨276501516953041810, 15996807350070926146, 1269758076943886300, 195784581070827446⟩],
  [⟨4853469952320798393, 17379711604415333498, 11341428304819039080, 766000305508925099⟩, ⟨1723028172270801784, 7846165827796379646, 4636451005692610955, 871151940476972966⟩, ⟨6590646061221323902, 889461654044032879, 1505496877923673922, 752475483640516924⟩, ⟨13045448500706444324, 8361654882120486231, 4205925187373381862, 277826998934433801⟩, ⟨9675553409793389785, 5667173122152825040, 8083271914684780456, 706216661468574727⟩, ⟨14266510371042388064, 7106905440715991100, 10411622989018615279, 894382081849790039⟩],
  [⟨9268336790197882301, 12070173591607011265, 7396189305808814103, 6826922221427887⟩, ⟨11481176188982883772, 15479330738046464105, 15874300506335824, 418080356004810461⟩, ⟨8402920895853151075, 11319528131289558551, 11236635718047704076, 590562434419913557⟩, ⟨11942015297507883097, 16315121378556649183, 668425812435475072, 1203236348881767128⟩, ⟨14719743395974511202, 1514583382813202278, 3223906165579006067, 1338589921222659040⟩, ⟨11353873627418368002, 17696069599691683167, 17867255547403463352, 256390082737611698⟩],
  [⟨3183181278357516648, 10539132954816790294, 14186140147230647162, 782128376830566716⟩, ⟨24279344590760052, 1500125118480868266, 1805095232159146495, 1156936758956513949⟩, ⟨10537024754772614474, 3289834431146907946, 204955315838625775, 635285322161689619⟩, ⟨10063527467101509243, 6065807056365479935, 17027546583602504025, 991768228369353932⟩, ⟨10809287584503006407, 1968797130899798907, 15335034484681843481, 581199600450356946⟩, ⟨5342411348500260963, 6851928330103451454, 17931963062212165213, 1333165923948214303⟩],
  [⟨5362873004958210141, 4780911804231906429, 491658981443450273, 865870945658130370⟩, ⟨16170855628896579013, 16924415594421177943, 18099375624011254510, 1172947874675982311⟩, ⟨2313253813846593553, 6024058999881721714, 3460494784065903603, 200192466049298184⟩, ⟨16495862644170305555, 1027481903728649974, 18424464377133050050, 286370147149132790⟩, ⟨10500420552294712757, 1190864375567816587, 7753792083623713506, 527733109368565721⟩, ⟨14443372038206196537, 7620145268069197030, 14646532763986835342, 456340242357593922⟩],
  [⟨9232251606394270216, 14408677736204106911, 13271324872968281, 759107595695446407⟩, ⟨17249519010359595711, 3324593693860748091, 17110518692688522506, 1222951351162422358⟩, ⟨18126276283902025445, 4360757737312030104, 7886535856284373354, 1092174897468921446⟩, ⟨1062163077313937380, 11987404733688401354, 13771857460633546591, 404835587063112873⟩, ⟨16497288776209779034, 2880366049054710506, 253042145042914898, 795216235095539205⟩, ⟨13406148328760919071, 7241933139744138143, 12901549130103097508, 622176358374555103⟩],
  [⟨8839697166194087406, 4483906360586614080, 14882309942760908718, 26805057196885842⟩, ⟨7780277578177316464, 8830183239891425324, 17543080001337922949, 763106694028031052⟩, ⟨1380876235740608953, 7727437954586184212, 6573237846455394763, 348129619934932866⟩, ⟨14022759702194409553, 8495575903624052978, 4435568764932750980, 556954649769758600⟩, ⟨10833230885057379503, 14946233534988385740, 3482517598744002245, 312685728556510786⟩, ⟨4935346722124605172, 797590664817406232, 6711744841558593604, 1113832946092370199⟩],
  [⟨4507604340829135994, 6192904589647086945, 349044365259597977, 1152686511406973589⟩, ⟨195352152493747630, 5233440319211994798, 932481733874805995, 509755197807725335⟩, ⟨6237574338367694863, 18409691934826828587, 2269618770290486313, 1105546858321591640⟩, ⟨12982330271334867216, 3689728804743182371, 11969860905888785248, 384135728283136906⟩, ⟨18265210337391869731, 11610294943475185851, 7713269183082030658, 64710928906612284⟩, ⟨17581461696584771576, 1251761997536591051, 8677916614754373573, 11467824250957215⟩],
  [⟨5293383473840045151, 14232932703686129211, 16580168622608048461, 944952712971843416⟩, ⟨1172918766922903979, 5995995512044846696, 7739257607297521882, 1042510915533280011⟩, ⟨1981724477088009475, 13354315713534102679, 11891854408097089989, 92846148123740243⟩, ⟨976886551936370648, 14904356347049243804, 14591979302472212806, 1213715283121821429⟩, ⟨15587984398787314569, 16826502960315805008, 12894364377505862261, 1260461626778401163⟩, ⟨4959549071568407724, 16406890426995168379, 5205271867547136181, 625367672303411178⟩],
  [⟨4469737807624992151, 13646441970050473001, 14103514615210198911, 951934596751743825⟩, ⟨179935223424484463, 2716781758867967994, 13772831748270319508, 559465738003921114⟩, ⟨3732370725359378315, 109679493243276219, 881555622161027305, 772217225730861177⟩, ⟨2034891371688198908, 15927708347683796662, 2835422031008901944, 942335024460335016⟩, ⟨10874231289292346814, 11117313284388646608, 16125883931973538451, 1333477728458259050⟩, ⟨5836661691500937581, 2582555451477250318, 16743568702164980685, 1095040268607012655⟩]]

/-- `w_hat_collection`, poseidon377/src/params/rate_6.rs:4502-5682 -/
def rate6_wHatCollection : List (List Limbs) := [
  [⟨6933713838801944433, 16845582094611513195, 18106981831632269118, 1315719765541495999⟩, ⟨11025937787709817432, 2848215840891863663, 12003429085947921194, 123169188111155826⟩, ⟨12625372430371999830, 16677955247940128803, 7323211740492754581, 634092645821649835⟩, ⟨8476375831616065903, 8302751278140753414, 4675397025515049474, 916054888187664134⟩, ⟨10397071512469717592, 5168805500057287779, 15231087545157212262, 795647437775574917⟩, ⟨4753644871978862709, 5862282760667146308, 12460694012157225697, 599558919665641703⟩],
  [⟨3525611259680496361, 16850996105995319551, 5895804919214678528, 391214039273829079⟩, ⟨16383982061649260213, 7412768188479417373, 18252968433587413341, 921842098972532091⟩, ⟨4293960317930015621, 15005027020601642292, 14505531830207858927, 1015323632458039193⟩, ⟨6752151532781968377, 16993009794999287001, 14092320031767020691, 1182677145301447547⟩, ⟨16314233041829270002, 3649678206581272066, 11390243497395273567, 313040234242687401⟩, ⟨16897077646049598862, 5408248314355013755, 10936401950030912526, 513592532346930326⟩],
  [⟨10142077329767560760, 6792944251304638223, 7902051751595654458, 52562103742172771⟩, ⟨4124245661449561978, 16104205151533781959, 12907591592992771975, 375874492004655234⟩, ⟨721737094669186114, 9206501775775148139, 4450459856140585915, 711734015520322130⟩, ⟨614920776545720184, 9338526590820186332, 3423803905067391290, 1297483125050494498⟩, ⟨5114006628798839509, 10631775008980466663, 3587509331998934684, 1269615621594518563⟩, ⟨10586294365539695697, 13070162917427803989, 5131427260750659378, 185094384545327415⟩],
  [⟨15393156556409725569, 12069454178577165134, 10615051884848589576, 627431092634767494⟩, ⟨2254585774072887271, 9054648099999668560, 10092512970859140868, 128794736276163271⟩, ⟨9634188559612410031, 11231916523014098458, 9347609823309203991, 350537733562293921⟩, ⟨712883344164921598, 12267969327296118133, 18415463544294982318, 453347153304216575⟩, ⟨6354724406448162447, 16973074452059542227, 1742850061709863465, 29248222949323830⟩, ⟨5847808690552004737, 2583092622487380856, 16226455529753322167, 622812582439549387⟩],
  [⟨8037108896489144647, 11600187371086455875, 14226278393962213262, 1257430093680684711⟩, ⟨17768344430228638036, 12362984821927414562, 8755702286219707347, 1052522743722421089⟩, ⟨6518969013844050226, 10104698889580418215, 12831301188037688559, 783109772397025172⟩, ⟨6181962216281397012, 8791420351320694807, 5845391987758232061, 691946495243473347⟩, ⟨555663508144587651, 2813166513808555896, 9604748549845359549, 1115460934710212864⟩, ⟨638373104524889548, 6961133691969109992, 16899272275885442322, 107354495377389126⟩],
  [⟨359839753750440452, 16872903944693818879, 9182594678934428762, 157875028486713218⟩, ⟨18133892901854313763, 2808183347815612802, 13420838164084790320, 592901990662685620⟩, ⟨2972894661558754427, 10007808519010762631, 9092666282720580619, 1045475284031737143⟩, ⟨11312374728773702090, 14199049380673735694, 6883328492121377672, 254205863439515968⟩, ⟨1622439358680448127, 16670668058993745597, 4548903667405006277, 711571731093376968⟩, ⟨17647983290779098291, 516914030435843715, 12098656310263379019, 275469573180901388⟩],
  [⟨8548644889741041300, 16958143034062232997, 13155023865968925107, 527671552750155065⟩, ⟨13280891140215524593, 3305529464796220554, 13769067712411857696, 194876564429210557⟩, ⟨4744158468698697612, 16501033922635430369, 13118709481247752005, 455296334218894134⟩, ⟨3276121206714262439, 4384108406151911994, 10320409945935199931, 1129505288669932775⟩, ⟨4802683862047720627, 12048656597166121442, 2985941889978900161, 1215862908384237465⟩, ⟨9878053342652269422, 6952038940472105574, 13204721887023621809, 104559270963520601⟩],
  [⟨2884484268998399392, 7516340773367415265, 17967577411328781785, 71104776242823513⟩, ⟨6836357534971200276, 12307486411100090586, 3725741383492541705, 708703587844324306⟩, ⟨16065785508863042824, 13168438874677663185, 10334681499739682637, 537952869573618152⟩, ⟨4276306945181457487, 11319798687621632943, 11337729997070203637, 154843360608516964⟩, ⟨15091173599951556922, 10089665296762720564, 1001320269268178313, 1278999239679089342⟩, ⟨6790806302663889439, 15630966142638650191, 7219114191273641870, 607000211505329118⟩],
  [⟨10941156742810682792, 13379581544377778361, 13597487267674595073, 856893196159093362⟩, ⟨12116163542944543584, 10494464956681785456, 5328861516400529745, 1198358765731586889⟩, ⟨18189172451487902278, 4704482581638044529, 984078958545158234, 1214725173814978653⟩, ⟨5693469689620468779, 9572644835043944500, 2366490855072377760, 976822768924111263⟩, ⟨13490986302612722028, 1283285868432826268, 15164008493321253514, 443251753067442416⟩, ⟨13150294025593833313, 5620721896853634047, 4766918037148084086, 1004371804232239176⟩],
  [⟨11674076986569886445, 14273565036215986478, 7256033114853758831, 1243175635214446154⟩, ⟨13391657488427814604, 11740905283874021531, 9224412564843665854, 277256927127426063⟩, ⟨9479795538791379585, 12974816116199774846, 12093010719550875010, 5065395771365623⟩, ⟨8817914873159831624, 2104380883716865129, 18076504449817050016, 651566378088004291⟩, ⟨2593549556231375650, 9464329604880807882, 931952291445829364, 1296192193647975938⟩, ⟨6791830127635900713, 5571583372402235342, 5980079258218847792, 609581694037305767⟩],
  [⟨3590436137035362796, 6878827383468400586, 2087187619625759972, 366519334389468484⟩, ⟨8466797588269795178, 6233162019605045514, 7818079020321919455, 1299893902682642414⟩, ⟨13213818269144599466, 1289947883313972118, 4059701246652915385, 12056266522820237⟩, ⟨4508800680162331521, 15986068886298500867, 14977838885955851194, 38157078418942241⟩, ⟨13953378503175087488, 2632607770308512210, 13562084469560012417, 245249845748719170⟩, ⟨14192710935721498803, 10423371171643016558, 8787645447508907660, 1222320713106865517⟩],
  [⟨11672182316223918869, 6397196540158184432, 16362125278956639955, 487254253940971622⟩, ⟨3466115228336022838, 17336865038830586933, 15011622032603429066, 886109464755529302⟩, ⟨60790403003891626, 11789627958407425130, 18093678967772149866, 163664659042316929⟩, ⟨11752605341201064356, 17735918082592333925, 6652470350194431394, 889452019796415044⟩, ⟨8401712234167110287, 10960633415813906272, 11916450035773002049, 1182232446618175169⟩, ⟨10396262244990196196, 13566621656449952195, 17637374041715454767, 487328172506255483⟩],
  [⟨359851191963578459, 6093707674603330913, 12382809233400904418, 822869288595513424⟩, ⟨8685375674428402008, 11116570913984986227, 13141958117760910576, 694631449425721940⟩, ⟨13799808203577028319, 17015236177612766046, 13321925256996230040, 83728605392058044⟩, ⟨11345927491644574710, 6729113552022061366, 489680359452713554, 1063665064872602168⟩, ⟨5144672341518660971, 13584780511637830006, 8111044646642319859, 760808052520956883⟩, ⟨10534617268344014793, 13365424830059569868, 15323686518176324368, 630253372526730391⟩],
  [⟨5574736329985492350, 1394240824897034276, 12869158727379905882, 927371660714513620⟩, ⟨6250879616233772588, 14830533363705576088, 11405716231454843078, 302485753651389813⟩, ⟨9376998902591535768, 10870546783769916945, 8867938913668980167, 168036903158516371⟩, ⟨17665300127173928717, 16211022938249470990, 17778018974492488988, 1035038949736118270⟩, ⟨8713486127840843643, 12284089155092108591, 9199322335133216480, 1254936361875119138⟩, ⟨10672903121209769745, 1541284167923703332, 354508315039816196, 1077919680069474774⟩],
  [⟨6003956627532398687, 12900385821050494701, 13212436788748797499, 550552294639902063⟩, ⟨14895950277557938580, 3197587119252958842, 1370401976516442748, 185312282262907769⟩, ⟨4334813612319164060, 1249839787510419412, 2014732433360765992, 674486378020601344⟩, ⟨16372536311394952793, 16876000734634230902, 16256142784705290990, 1216045970949193228⟩, ⟨7511261605071474477, 12731027885113475848, 7275278577140348070, 1332751723743282012⟩, ⟨2087120385657061588, 5805219940951110446, 13072060426636966211, 863754038349923743⟩],
  [⟨9861938477894648572, 1261863888379893097, 1659273544923639757, 1175309734597332353⟩, ⟨3160898884988868850, 12315548764431121182, 12829922584215852165, 56495588159121736⟩, ⟨9126361106532779429, 8812351712430538764, 16651360315827640335, 488907765340195245⟩, ⟨8831436795438293115, 389432919099331880, 4151373017145697434, 20487081091778889⟩, ⟨1478664308612791336, 8186322499300142837, 14558475073251694928, 808252273304974762⟩, ⟨15607838810385275909, 12674581021244262249, 1909980166381620782, 345071109506949067⟩],
  [⟨10897251009229233031, 3820618022447517075, 10985787470877927823, 403556049280121762⟩, ⟨930794418602631676, 4219345337777307051, 12545787195024594643, 727460251993377030⟩, ⟨1295669867887905036, 9507152194066574702, 7109356788802489574, 787002368140653778⟩, ⟨3498224858763889755, 302153864491265874, 14518919122820805288, 961799431413434867⟩, ⟨14579188115252453346, 8486675243511966662, 4198502112353568422, 266466804927785090⟩, ⟨5714787944090956648, 8773050216612558194, 4209799818844007033, 157683362695822804⟩],
  [⟨7490636877172818331, 18234545141478570777, 4868926515076353497, 1040485086378507404⟩, ⟨4007494498414670332, 11381886286508088565, 2983212756609056257, 310114683693996305⟩, ⟨9176086588288648852, 1592592270921797535, 4569673380486221672, 1302061240324827715⟩, ⟨16913435421079334086, 1877470558106542334, 3613514508584067134, 934461884972210272⟩, ⟨5267175603942094137, 1748374762382459641, 4882024791077414221, 1068225445733947215⟩, ⟨4248184777234069323, 13346185782403877767, 10153633758750203581, 141684902152107360⟩],
  [⟨14329113735110304247, 4241308009922883952, 9772848400881136490, 239381311112673117⟩, ⟨1815346937549645652, 3479767444023955389, 4985298868790684050, 355453443190923870⟩, ⟨5747089878066396614, 5454329989338975845, 12341448373351673623, 1202238166588655979⟩, ⟨9296701061462558971, 17770007858418801719, 9914793610472554336, 1281893899901916554⟩, ⟨3010329870005884069, 2836286366415384158, 2351971757588955099, 425289972726450364⟩, ⟨18291414506166784212, 810246456460775309, 17528761664504541127, 1189494422506112895⟩],
  [⟨13873201020652076543, 6243622914124108573, 6903929397781795660, 574766800775597314⟩, ⟨17971358622227978668, 15854652377477090302, 1063842904034816, 989523394960344619⟩, ⟨8015553520299503933, 4607530076716157995, 7439330134573907822, 1104246105186017619⟩, ⟨3986330100644126569, 17707403369263436100, 4053571974764234396, 108842167919011278⟩, ⟨5227388868334111117, 12812207377137498929, 2588198532604965494, 961490407308315800⟩, ⟨7646326553387833689, 12724139924596788661, 629496738895522970, 1201441128237966538⟩],
  [⟨14866344307104327368, 4985794825846590702, 853871436616991822, 749367072047711970⟩, ⟨1876020443251361508, 6552070073373315737, 12995514842585856406, 1275392944325677985⟩, ⟨7601514916050054383, 16910631174758870764, 7353760964415941247, 324644049762087391⟩, ⟨16565109856331579529, 458787328687847682, 5878204963586402256, 1322072415305233581⟩, ⟨12729053080732475923, 11510453208755572522, 3723997403677235406, 73363110170067874⟩, ⟨18174997862860579716, 6182018227945955817, 2127647890385770221, 870293941267412601⟩],
  [⟨10698372380060816691, 7522180405775599951, 15832604002112875278, 521032436098731379⟩, ⟨15319055731354684350, 1753334646577885863, 4505520717374373397, 984179811150887857⟩, ⟨13141271355432538382, 14700998572061668181, 4549081783230234567, 806347686644718089⟩, ⟨9975557437768999376, 11618707034451291844, 3181936011792873831, 576438052445019413⟩, ⟨16609855326770322939, 13212944030983556053, 3039401190695389047, 1188561968753866414⟩, ⟨10305504178314593273, 14719639554020787850, 2480984582534492384, 221582009878780852⟩],
  [⟨13200038943773919312, 14432882432204232972, 3023115969282520533, 343418406639707901⟩, ⟨9327873286332474704, 5954324830215207584, 3873074387113200139, 744988613833241266⟩, ⟨15847102383028666437, 1096370811445384001, 10166653322883901200, 327347038183216223⟩, ⟨17600124854622807025, 15328683957983696187, 3518858654096416419, 638859422450597084⟩, ⟨3012983939074171362, 9083322861410244018, 4322938770639600225, 442252654129847313⟩, ⟨10656857781541021576, 5978481768391996531, 2250259229090183585, 432977302373307667⟩],
  [⟨14355870696105147319, 8480124686198992740, 4123496920141395243, 506237667861983638⟩, ⟨12320253406233535520, 8322795092624377756, 9572334243002510406, 1226552575804851889⟩, ⟨9845446342011599085, 17778086686673507324, 5271342849823127028, 1088489886300171520⟩, ⟨10715976971447272221, 1556354685447448032, 16979954691422909924, 386763037013271508⟩, ⟨6180856312104178084, 11877570767790110506, 11499883073784997611, 393033674847566959⟩, ⟨7644299261552751667, 2236838738262968574, 8460748568952358391, 1177808537547336633⟩],
  [⟨9135896072628350252, 17288794130611191656, 16136991324140875732, 84153041777780941⟩, ⟨3384444111049248095, 5013442674731807719, 8362856530990022791, 1126331696064245534⟩, ⟨13385137591549846388, 11889738158254938557, 17705852903381913949, 155996115818620695⟩, ⟨15454217037527338314, 9036781253178038581, 12351768307285004715, 776821242022223621⟩, ⟨1200501875000044263, 6384384240290446957, 15639254494736291770, 930709414948460626⟩, ⟨2141846397057350878, 14687259326247822547, 2879743331055932654, 420053148927601148⟩],
  [⟨18343404923952179637, 1978770268004633152, 18074842923392944526, 99740808436074128⟩, ⟨16339172153591076879, 13902224968596916829, 10987490026958244901, 480318192898237950⟩, ⟨16708778634825784370, 5310850661772903365, 16720939557594415942, 983754580352601152⟩, ⟨8614768398997670932, 10441907275834816828, 11459906999048618974, 98256766838754326⟩, ⟨5461219359492352050, 8928173417887044164, 5632769833875876015, 938637862379787936⟩, ⟨14478729241761067482, 14593688601059211201, 14567193330233850704, 193411838718316245⟩],
  [⟨6244372198079752707, 12764020255605820167, 3597323991837773264, 232811656021755322⟩, ⟨12794321084179091283, 12550727012798192271, 5852541072119985136, 1021072807450583460⟩, ⟨5843482488715644166, 17968652270397807267, 10729147049305849619, 157069170856760481⟩, ⟨16486113458959504396, 3842616654194538021, 16267097259825943411, 595256064535306261⟩, ⟨18403329840356376661, 17180721686489435607, 16602787769632693868, 1218551944743323947⟩, ⟨15792003884980763548, 103687243243986150, 1015407070790759683, 925892726865866689⟩],
  [⟨4737231254389322774, 1982930339222313430, 17171322757846703283, 898862720123176395⟩, ⟨15341788185538116478, 15152543049620221847, 11673048694712682284, 322745914045333317⟩, ⟨12638501658486051138, 13136127249934274833, 16835414843273620909, 830854396919510911⟩, ⟨15895567503124768810, 17851680667009624675, 9790662472981446008, 688513180346337911⟩, ⟨7539663061168884957, 14647473521866168085, 14254615857988792976, 4914529917008946⟩, ⟨10355365805280135879, 1713320802629047069, 11781471822278287496, 696018085837035473⟩],
  [⟨17208622806574606453, 2131863109694270375, 17267390257687220562, 717142744114900489⟩, ⟨13115781297674767878, 11806487226059857638, 3832559734382202821, 1327223946228164221⟩, ⟨1519942432011064348, 2971486323152134197, 10412234235600737234, 627890410365264901⟩, ⟨10935974904415640609, 3329695497336026013, 13276582814401540013, 624327570851923410⟩, ⟨110740126727160908, 1977000808556019402, 17939216501132184661, 456092178041276768⟩, ⟨13974795879491265452, 16756058358467461957, 18345173225794766341, 1240468105851879043⟩],
  [⟨16648425534044120166, 17300631023568278668, 3769987016608299300, 701256036605548976⟩, ⟨9545137723467262343, 5920020285572073751, 5586902085914198509, 1101010118319202051⟩, ⟨1804254836884575917, 5416042091971666706, 2881258114252429182, 68889272174393525⟩, ⟨15468731159921956531, 15872344848072676105, 1678659996910931386, 827142061320044550⟩, ⟨14524351942355153784, 10797623040866138576, 12874995891465211466, 522880520258235794⟩, ⟨3987121765421903331, 10914786903369841306, 14357739193531493338, 159659900263967910⟩],
  [⟨1502512509312401925, 17658662731474453106, 12409373669027537750, 369255404008259275⟩, ⟨3933340182670563102, 17988389551284440931, 2662254549780507248, 455350437925171541⟩, ⟨12151336628671687181, 16659863612142679844, 4275242264769905759, 226663222642898029⟩, ⟨16130436743434681682, 11552440823414351188, 4441812352013272663, 1024571907948499450⟩, ⟨6575764606651544368, 3768634045069377030, 18077248345407646289, 1109390810042386997⟩, ⟨14122304828382902866, 7822601784757433157, 15085114466160105232, 454674386781135986⟩]]

/-- `optimized_arc`, poseidon377/src/params/rate_6.rs:5683-6424 -/
def rate6_optimizedArc : List Limbs := [
  ⟨15142982440796561447, 11586951767160912790, 2554152473571518408, 1060132733599829191⟩,
  ⟨5004052621280210368, 17001459709892607063, 7681637351760180567, 370325849830378477⟩,
  ⟨12700316700887579682, 10527071459591008162, 4649940422809756001, 1164398790994859766⟩,
  ⟨14166576988026094609, 7313392791454005322, 12003933110859736764, 497349496445067730⟩,
  ⟨660800666505769101, 8654643871558439567, 14263148622483513593, 820049075817239934⟩,
  ⟨3633256971691786185, 10090676851691033833, 14588357423182388197, 831634409758195705⟩,
  ⟨6492287632409988134, 12046607076154115291, 17147959445519551317, 461021671425820687⟩,
  ⟨14444046072241906262, 11260694318344083229, 15743364178797140854, 866446994798567454⟩,
  ⟨3641312158605685211, 14157364044999263645, 16784472236570305027, 425843099497195003⟩,
  ⟨17723864121788076174, 13911937024562874191, 12749454259525933628, 451378649043069085⟩,
  ⟨12784133990119646353, 17654455838119254543, 14047536069777387226, 645204516252515303⟩,
  ⟨1959581704190940037, 13929985394687694163, 11022302142929130035, 283707020686355664⟩,
  ⟨8629032034013359758, 8320916390268264398, 11188435069201519314, 1277918481865788038⟩,
  ⟨1783621120979741815, 10125702604889014266, 7859706914940359291, 1258189548796714111⟩,
  ⟨4197085784563434882, 243889206587889894, 328885806087941395, 929695947751686179⟩,
  ⟨6420634290533400711, 3371757063543007366, 8900632765923820105, 371199850895065588⟩,
  ⟨9679924820095672851, 5191301328839079795, 1468702730043861612, 1130258788388916276⟩,
  ⟨14270884667693338729, 18421783881067727877, 702505960635108322, 876601962183112334⟩,
  ⟨12801928710162774032, 15709283060501093378, 2508615709628312314, 924328772397935430⟩,
  ⟨9019134492733417932, 4614098400696239641, 291908476903718505, 879711180612784839⟩,
  ⟨12296479578360854848, 3423354675244851904, 17098596077633953792, 378482623029323224⟩,
  ⟨13200816203042245771, 15381254577926224952, 14688424257545082743, 884773501591309967⟩,
  ⟨16263843110415550162, 14001011937262187824, 2325893788175944450, 427344840846697831⟩,
  ⟨10712788406702291397, 14628016237392831746, 12076323935029775432, 746032296870665924⟩,
  ⟨7577844083779539683, 8593563853045273470, 6762705862919489296, 1011466592883577533⟩,
  ⟨10970204418416076913, 4397529361571105931, 15590416832284287611, 432035610777585218⟩,
  ⟨13604542201065871088, 8000646895858538916, 7463535664974476191, 112496092381655883⟩,
  ⟨5448941064349247150, 18035446383961421934, 9688851655819494355, 314108334517577725⟩,
  ⟨13216339084640418338, 18208749029142079159, 2801888902925820506, 1144112407212441278⟩,
  ⟨7414209360993783553, 9029452093631467477, 10351555314693636524, 588771856204784285⟩,
  ⟨3108201764764012849, 9316564318794683488, 2890833741230407843, 2976751152949582⟩,
  ⟨5531824355021026381, 12498142272625928587, 3715194578260983474, 1067798051179441316⟩,
  ⟨5339344176782059900, 10307852721097022359, 14767036192885737246, 130540287097272817⟩,
  ⟨7180958399368342439, 128655658219475950, 15207307979599970655, 1124647386318203846⟩,
  ⟨10677712105355735228, 303877370541742151, 11456613512094797466, 1197130552973396923⟩,
  ⟨1852186172212255919, 7732103194240143876, 3191072801518998585, 684231033415976440⟩,
  ⟨0, 0, 0, 0⟩,
  ⟨0, 0, 0, 0⟩,
  ⟨0, 0, 0, 0⟩,
  ⟨0, 0, 0, 0⟩,
  ⟨0, 0, 0, 0⟩,
  ⟨0, 0, 0, 0⟩,
  ⟨12344835392323260771, 2083746688625641780, 9843550839040352981, 651659425757649777⟩,
  ⟨0, 0, 0, 0⟩,
  ⟨0, 0, 0, 0⟩,
  ⟨0, 0, 0, 0⟩,
  ⟨0, 0, 0, 0⟩,
  ⟨0, 0, 0, 0⟩,
  ⟨0, 0, 0, 0⟩,
  ⟨1110121811836510524, 11074047049180975687, 15444325776340307889, 1176464439067465611⟩,
  ⟨0, 0, 0, 0⟩,
  ⟨0, 0, 0, 0⟩,
  ⟨0, 0, 0, 0⟩,
  ⟨0, 0, 0, 0⟩,
  ⟨0, 0, 0, 0⟩,
  ⟨0, 0, 0, 0⟩,
  ⟨15910765157617366987, 3536546922624744505, 13839442880050335167, 1052063195754658296⟩,
  ⟨0, 0, 0, 0⟩,
  ⟨0, 0, 0, 0⟩,
  ⟨0, 0, 0, 0⟩,
  ⟨0, 0, 0, 0⟩,
  ⟨0, 0, 0, 0⟩,
  ⟨0, 0, 0, 0⟩,
  ⟨15883615976440084496, 10513678964631690585, 17274484441634888004, 104967936091342947⟩,
  ⟨0, 0, 0, 0⟩,
  ⟨0, 0, 0, 0⟩,
  ⟨0, 0, 0, 0⟩,
  ⟨0, 0, 0, 0⟩,
  ⟨0, 0, 0, 0⟩,
  ⟨0, 0, 0, 0⟩,
  ⟨6481049124859745810, 12420828791682339353, 3515061109189248511, 2970636150410785⟩,
  ⟨0, 0, 0, 0⟩,
  ⟨0, 0, 0, 0⟩,
  ⟨0, 0, 0, 0⟩,
  ⟨0, 0, 0, 0⟩,
  ⟨0, 0, 0, 0⟩,
  ⟨0, 0, 0, 0⟩,
  ⟨9330561373397764193, 15220428410405742122, 3596976591192400082, 1172536306991915045⟩,
  ⟨0, 0, 0, 0⟩,
  ⟨0, 0, 0, 0⟩,
  ⟨0, 0, 0, 0⟩,
  ⟨0, 0, 0, 0⟩,
  ⟨0, 0, 0, 0⟩,
  ⟨0, 0, 0, 0⟩,
  ⟨11645314245053381169, 12447229279329596583, 2611021837182599503, 1121293333579047218⟩,
  ⟨0, 0, 0, 0⟩,
  ⟨0, 0, 0, 0⟩,
  ⟨0, 0, 0, 0⟩,
  ⟨0, 0, 0, 0⟩,
  ⟨0, 0, 0, 0⟩,
  ⟨0, 0, 0, 0⟩,
  ⟨5520645742684358372, 4184771738280864541, 4013355666407389724, 651341887764501817⟩,
  ⟨0, 0, 0, 0⟩,
  ⟨0, 0, 0, 0⟩,
  ⟨0, 0, 0, 0⟩,
  ⟨0, 0, 0, 0⟩,
  ⟨0, 0, 0, 0⟩,
  ⟨0, 0, 0, 0⟩,
  ⟨3861533222480473435, 8229127100534402633, 961020646123781410, 1093771644395281795⟩,
  ⟨0, 0, 0, 0⟩,
  ⟨0, 0, 0, 0⟩,
  ⟨0, 0, 0, 0⟩,
  ⟨0, 0, 0, 0⟩,
  ⟨0, 0, 0, 0⟩,
  ⟨0, 0, 0, 0⟩,
  ⟨7693571830729430183, 14740278293355277643, 7478396620768437721, 1020903160466582154⟩,
  ⟨0, 0, 0, 0⟩,
  ⟨0, 0, 0, 0⟩,
  ⟨0, 0, 0, 0⟩,
  ⟨0, 0, 0, 0⟩,
  ⟨0, 0, 0, 0⟩,
  ⟨0, 0, 0, 0⟩,
  ⟨13974629067477558431, 5721400371209900889, 788632258150877276, 1052522919478138392⟩,
  ⟨0, 0, 0, 0⟩,
  ⟨0, 0, 0, 0⟩,
  ⟨0, 0, 0, 0⟩,
  ⟨0, 0, 0, 0⟩,
  ⟨0, 0, 0, 0⟩,
  ⟨0, 0, 0, 0⟩,
  ⟨4992769493438078027, 6924382181722868018, 8263199750104564483, 169174671387869155⟩,
  ⟨0, 0, 0, 0⟩,
  ⟨0, 0, 0, 0⟩,
  ⟨0, 0, 0, 0⟩,
  ⟨0, 0, 0, 0⟩,
  ⟨0, 0, 0, 0⟩,
  ⟨0, 0, 0, 0⟩,
  ⟨11416436440841880348, 7910510255652583772, 2772926057469350664, 240489949253278513⟩,
  ⟨0, 0, 0, 0⟩,
  ⟨0, 0, 0, 0⟩,
  ⟨0, 0, 0, 0⟩,
  ⟨0, 0, 0, 0⟩,
  ⟨0, 0, 0, 0⟩,
  ⟨0, 0, 0, 0⟩,
  ⟨8550478801539329000, 17416455311840648130, 7713828782443004553, 1257322107749939919⟩,
  ⟨0, 0, 0, 0⟩,
  ⟨0, 0, 0, 0⟩,
  ⟨0, 0, 0, 0⟩,
  ⟨0, 0, 0, 0⟩,
  ⟨0, 0, 0, 0⟩,
  ⟨0, 0, 0, 0⟩,
  ⟨10946761173248535048, 6300893940302812177, 14214574452301493380, 1064839331942993571⟩,
  ⟨0, 0, 0, 0⟩,
  ⟨0, 0, 0, 0⟩,
  ⟨0, 0, 0, 0⟩,
  ⟨0, 0, 0, 0⟩,
  ⟨0, 0, 0, 0⟩,
  ⟨0, 0, 0, 0⟩,
  ⟨12881919676216378529, 6525643603496459068, 7739411544375049269, 121520118034913063⟩,
  ⟨0, 0, 0, 0⟩,
  ⟨0, 0, 0, 0⟩,
  ⟨0, 0, 0, 0⟩,
  ⟨0, 0, 0, 0⟩,
  ⟨0, 0, 0, 0⟩,
  ⟨0, 0, 0, 0⟩,
  ⟨14171005468190725795, 807987272814416859, 16062924926726151568, 258817012972523442⟩,
  ⟨0, 0, 0, 0⟩,
  ⟨0, 0, 0, 0⟩,
  ⟨0, 0, 0, 0⟩,
  ⟨0, 0, 0, 0⟩,
  ⟨0, 0, 0, 0⟩,
  ⟨0, 0, 0, 0⟩,
  ⟨5031548057386859908, 16708231376954786943, 3901002117807196384, 15277199136600693⟩,
  ⟨0, 0, 0, 0⟩,
  ⟨0, 0, 0, 0⟩,
  ⟨0, 0, 0, 0⟩,
  ⟨0, 0, 0, 0⟩,
  ⟨0, 0, 0, 0⟩,
  ⟨0, 0, 0, 0⟩,
  ⟨3470573257247529570, 3778398720483160839, 4271650771133121672, 366341134231605540⟩,
  ⟨0, 0, 0, 0⟩,
  ⟨0, 0, 0, 0⟩,
  ⟨0, 0, 0, 0⟩,
  ⟨0, 0, 0, 0⟩,
  ⟨0, 0, 0, 0⟩,
  ⟨0, 0, 0, 0⟩,
  ⟨17671590415686923470, 14797555043330379484, 2826722725742773774, 673498791246184156⟩,
  ⟨0, 0, 0, 0⟩,
  ⟨0, 0, 0, 0⟩,
  ⟨0, 0, 0, 0⟩,
  ⟨0, 0, 0, 0⟩,
  ⟨0, 0, 0, 0⟩,
  ⟨0, 0, 0, 0⟩,
  ⟨4599390077836288923, 15103704149833090169, 13723271685426770651, 1238708412855247473⟩,
  ⟨0, 0, 0, 0⟩,
  ⟨0, 0, 0, 0⟩,
  ⟨0, 0, 0, 0⟩,
  ⟨0, 0, 0, 0⟩,
  ⟨0, 0, 0, 0⟩,
  ⟨0, 0, 0, 0⟩,
  ⟨12304403800545959570, 12269595607865918824, 4224309437769311654, 1102826182464027344⟩,
  ⟨0, 0, 0, 0⟩,
  ⟨0, 0, 0, 0⟩,
  ⟨0, 0, 0, 0⟩,
  ⟨0, 0, 0, 0⟩,
  ⟨0, 0, 0, 0⟩,
  ⟨0, 0, 0, 0⟩,
  ⟨7422908892054624300, 6613469136954082264, 2435694939055735193, 465151622319296864⟩,
  ⟨0, 0, 0, 0⟩,
  ⟨0, 0, 0, 0⟩,
  ⟨0, 0, 0, 0⟩,
  ⟨0, 0, 0, 0⟩,
  ⟨0, 0, 0, 0⟩,
  ⟨0, 0, 0, 0⟩,
  ⟨9966121319294113392, 1036787719885473593, 16922917099071401564, 957685172296873589⟩,
  ⟨0, 0, 0, 0⟩,
  ⟨0, 0, 0, 0⟩,
  ⟨0, 0, 0, 0⟩,
  ⟨0, 0, 0, 0⟩,
  ⟨0, 0, 0, 0⟩,
  ⟨0, 0, 0, 0⟩,
  ⟨9346051242088429570, 5881327167233602278, 18366005774591742073, 1234098542793269307⟩,
  ⟨0, 0, 0, 0⟩,
  ⟨0, 0, 0, 0⟩,
  ⟨0, 0, 0, 0⟩,
  ⟨0, 0, 0, 0⟩,
  ⟨0, 0, 0, 0⟩,
  ⟨0, 0, 0, 0⟩,
  ⟨6556095991079572091, 15800350435028538953, 17490188894945751356, 318651152411458756⟩,
  ⟨0, 0, 0, 0⟩,
  ⟨0, 0, 0, 0⟩,
  ⟨0, 0, 0, 0⟩,
  ⟨0, 0, 0, 0⟩,
  ⟨0, 0, 0, 0⟩,
  ⟨0, 0, 0, 0⟩,
  ⟨9604843137147166704, 10750667974649036098, 15855520508812075513, 289244356768878157⟩,
  ⟨0, 0, 0, 0⟩,
  ⟨0, 0, 0, 0⟩,
  ⟨0, 0, 0, 0⟩,
  ⟨0, 0, 0, 0⟩,
  ⟨0, 0, 0, 0⟩,
  ⟨0, 0, 0, 0⟩,
  ⟨9330357980066794783, 17865465819235974796, 9112978452518873031, 700544745156046737⟩,
  ⟨0, 0, 0, 0⟩,
  ⟨0, 0, 0, 0⟩,
  ⟨0, 0, 0, 0⟩,
  ⟨0, 0, 0, 0⟩,
  ⟨0, 0, 0, 0⟩,
  ⟨0, 0, 0, 0⟩,
  ⟨6722735210481586279, 9213635375899356767, 3419293198746470858, 397188667470959331⟩,
  ⟨0, 0, 0, 0⟩,
  ⟨0, 0, 0, 0⟩,
  ⟨0, 0, 0, 0⟩,
  ⟨0, 0, 0, 0⟩,
  ⟨0, 0, 0, 0⟩,
  ⟨0, 0, 0, 0⟩,
  ⟨5033510300536938046, 14319156262351107248, 14453339555250931608, 1300088399042594667⟩,
  ⟨586365878943401533, 10219333061949038245, 7972787616665459187, 1180682599170166362⟩,
  ⟨8677310049713074877, 6209659062870853276, 6361763165884296788, 1086786531947345096⟩,
  ⟨4779669491370037827, 13794675476884129106, 2856260482144566523, 815058410432730978⟩,
  ⟨8349785262387520653, 14703604045323517453, 10665488643511503896, 1190736588532344714⟩,
  ⟨9753136258891648437, 7592309943578822500, 18234430885873993524, 946608033429176051⟩,
  ⟨8862120093151408513, 9919781382246740055, 1639967479777957120, 548895009658598348⟩,
  ⟨13150047014556861649, 9895352886349978940, 607603433543469096, 825078058460205935⟩,
  ⟨10677514517763000310, 1869057220976501750, 7668490026500068131, 645375934459787109⟩,
  ⟨8393901821323241932, 7155803376644055598, 5465256629438666110, 467809976924970962⟩,
  ⟨8008789779293081850, 17333068400582244417, 864473515802821379, 712131972755422562⟩,
  ⟨5260641048740129119, 11495506189219575805, 1976170684554961654, 583558279245420304⟩,
  ⟨10607922137491563126, 16997507064637422660, 16243052688991164520, 620318480202596319⟩,
  ⟨8682850641454705537, 4234371891064954414, 11030571520428482979, 775687601614273649⟩,
  ⟨12248979915462901096, 1794636648127247975, 16388845185353268388, 1257257804440120883⟩,
  ⟨17181365213230240819, 3933917789297525218, 774796165591114183, 628159510187755171⟩,
  ⟨9201407700189177387, 14700424513123193347, 18288661468232834482, 407382537568434540⟩,
  ⟨11966891449526246216, 6846368159746727324, 5421814018651935761, 1007837491484494646⟩,
  ⟨3054672449338249840, 772010416012553897, 804919836093674272, 60934971449786311⟩,
  ⟨3349955854192164124, 12023516821995660430, 14073054570207692346, 391152224081538807⟩,
  ⟨4393818606630194054, 11894249453630174803, 11407464681452601419, 527342257675756743⟩,
  ⟨593191207061949875, 394301333075100218, 15992303837511873397, 1258463696198082538⟩,
  ⟨7392815618978882544, 8600193649781721343, 10001082189003162790, 160465744058402439⟩,
  ⟨5982722207731997556, 9327097271719907983, 16837081471143367937, 1323283752393867441⟩,
  ⟨15234580594321690160, 14480758270368693259, 7897576353120019799, 1211836381357568240⟩,
  ⟨17534396175019205578, 3323788238042131357, 16622036826489890791, 893487708746761741⟩,
  ⟨3851834168141787069, 11582510337408899680, 15343784808633432566, 461896544402216282⟩,
  ⟨1182215324455482337, 1943242735522063011, 4144863718139895080, 243576649285589719⟩]

/-- The literal tables of `rate_6()`, poseidon377/src/params/rate_6.rs -/
def rate6Raw : RawTables :=
  { arc := rate6_arc, mds := rate6_mds, mHat := rate6_mHat, v := rate6_v, w := rate6_w, mPrime := rate6_mPrime, mDoublePrime := rate6_mDoublePrime, mInverse := rate6_mInverse, mHatInverse := rate6_mHatInverse, m00 := rate6_m00, mI := rate6_mI, vCollection := rate6_vCollection, wHatCollection := rate6_wHatCollection, optimizedArc := rate6_optimizedArc }

theorem rate6Raw_wf : rate6Raw.wf 7 = true := by decide +kernel

/-- `rate_6()`, i.e. `RATE_6_PARAMS` (poseidon377/src/lib.rs) -/
def rate6Params : Params Fq 7 6 49 36 39 7 273 31 := rate6Raw.toParams rate6Raw_wf

end Poseidon
