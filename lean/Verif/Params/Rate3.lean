import Verif.Model.Tables

/-! Generated by tools/gen_params.py from poseidon377/src/params/rate_3.rs; do not edit. -/

namespace Poseidon

/-- `arc`, poseidon377/src/params/rate_3.rs:11-948 -/
def rate3_arc : List Limbs := [
  ⟨15748480026335769443, 10026984616551622801, 2063724428730618452, 1110463257231131824⟩,
  ⟨9405142820695944635, 11887146523697465657, 7764829263011233272, 10688178588086322⟩,
  ⟨7160766575090090422, 13093321275956005400, 4459692368517809830, 1324823328343033307⟩,
  ⟨8967803866417976527, 10882703683899587484, 12604355713142717837, 913362872025451921⟩,
  ⟨15434913893282099231, 3277411989792281453, 17050922401305883749, 1246396795570595652⟩,
  ⟨16287493285262395377, 5813955731335134269, 4301474317614585594, 257520225036445364⟩,
  ⟨6906749939426292513, 6186370802689597769, 13121713652409052978, 974279291569484389⟩,
  ⟨8879700369639612352, 13618625792929032624, 3907123048620659133, 13234475218016492⟩,
  ⟨8645743306703223161, 2649437454338131787, 1563690154181407289, 1014186398941703531⟩,
  ⟨3215833110701720679, 2309636887892103305, 8098930435412331037, 874663616929857835⟩,
  ⟨12979468067887852608, 5086746922420764336, 15129738790560069297, 751939553752695744⟩,
  ⟨2977455406847333432, 16814711076234176662, 2052393181081329017, 1025504667378050833⟩,
  ⟨7769933776177646251, 18381610027802955757, 14883656026535111760, 810712025708758153⟩,
  ⟨17772168373864941552, 6465821213265847266, 13630379320513469760, 377801609900980707⟩,
  ⟨15796194027949120118, 344995813018918925, 1773993772309248477, 495371203446902105⟩,
  ⟨2372367672613269254, 1881994507861568925, 12499063082888296383, 198183890354307133⟩,
  ⟨8560339202466452135, 4674741842794783289, 2295938056459737653, 1305584587019963566⟩,
  ⟨15461653997367792205, 5090711996373026875, 11075299042609757676, 357873227640910306⟩,
  ⟨13214321932666947005, 16528230236252211216, 1734602115269476888, 818804650790090647⟩,
  ⟨3074208048728389137, 15294693683882801473, 8267213793554472185, 939723642447579953⟩,
  ⟨7608844071812963093, 3353589238160526207, 1067027003640137200, 792698467630664137⟩,
  ⟨2391877978401333891, 3445084574946968197, 5867047100623880462, 384653842732542416⟩,
  ⟨13914996210513565866, 8700856800201437460, 10425054275786134234, 541663540168055488⟩,
  ⟨14596932606745167054, 16496367856477422743, 3083425729320663120, 1085256212719522319⟩,
  ⟨2801764879250151374, 12953139825024524798, 4394381772409440172, 830313299202608738⟩,
  ⟨13075739450270366768, 9659330049829153230, 12704212718639626523, 379597176451908972⟩,
  ⟨9001536902225952463, 6674549463409581165, 3938882380056074877, 470816176925644781⟩,
  ⟨5294884807833067443, 14704992853616613201, 11757098272470647345, 665189038743785081⟩,
  ⟨18065518746286947233, 11431857512891870190, 7287431282350112106, 995640933596957099⟩,
  ⟨15052981787521128144, 7858896385113452253, 5947479460571918718, 325110107616048024⟩,
  ⟨8613576755313845653, 13985454223970503802, 5789054661699635475, 985740677230137068⟩,
  ⟨3926674414459183479, 15125652309946021274, 7647466298927812509, 538639589943257540⟩,
  ⟨13088032312231323780, 5311715134728782442, 9012071499019100799, 1330544433302886302⟩,
  ⟨3664690074919872926, 1742673068665566813, 17290766138005523036, 1336141459748487725⟩,
  ⟨16701892693656888438, 5154406097941234252, 2366974417176707806, 154891066872919950⟩,
  ⟨8557542807233937796, 15959352071512430351, 4990793324727743483, 1293908698860086179⟩,
  ⟨15073124381299855142, 16058294570821288175, 6075369664645776758, 87903751159999429⟩,
  ⟨260728936241443673, 368587472503844932, 2223560135924572606, 805228060621005528⟩,
  ⟨7269287363866321270, 2522156147731399548, 13054616534728649482, 931053562448615214⟩,
  ⟨4160721187467010576, 15149513473553012866, 15656814560183579945, 1001129190706658794⟩,
  ⟨14658651187247608250, 12880504629543941444, 10429384779372580470, 1161303852698833077⟩,
  ⟨1235937067845588009, 7263495784070768735, 1030907402673138059, 112249256173393847⟩,
  ⟨9458598589591766548, 11826210343318171415, 5267632108497983083, 878978097354051448⟩,
  ⟨9349450799754247443, 5592311323302686001, 8710868002211880477, 339828983129180906⟩,
  ⟨17187343190949067712, 4809921206309548539, 1654263325380555971, 1029486713709570633⟩,
  ⟨7644765658684612346, 13218702097576502896, 16500195852294632749, 1306030386106155137⟩,
  ⟨3505773913815738861, 4811121454898644532, 6220593478751174597, 617955371370962677⟩,
  ⟨15743683183886237853, 5364535566544930778, 13962926219706156342, 279010990417402073⟩,
  ⟨5534551911701805251, 16755407359921259948, 11104629150013572555, 814043341910345398⟩,
  ⟨8944448190814835116, 15456464214992510712, 8458597289994495014, 1265792487860718358⟩,
  ⟨3488692111583557919, 13331987553376721589, 18402338094634938868, 1065887348732752750⟩,
  ⟨9073355603731228680, 14479691350704356281, 12891384335089494102, 794286481590472402⟩,
  ⟨837263131188576340, 12622228587018704025, 17555140662019162595, 116065994774231082⟩,
  ⟨14557259484417606169, 4562566277830260822, 4089084236598109790, 503526388329690921⟩,
  ⟨4425139792333247996, 17192910803843537440, 6327001334305018300, 1189405791856364044⟩,
  ⟨600163066110636331, 12319630319416791292, 4537854761219498244, 33425175842117417⟩,
  ⟨6516037169436621352, 5864705901197391949, 9864817317342287359, 931460564657389579⟩,
  ⟨11238491471364916474, 18217352394306774045, 8369866412509597036, 1044188737560722381⟩,
  ⟨15194113841410138763, 9713698855149445572, 840830724179458009, 574399528344548482⟩,
  ⟨10094044208972451177, 14820311408839650250, 832731916797264605, 1078999540214538853⟩,
  ⟨16122314034306189535, 9724832477076262589, 15428406989180491409, 739923283713385548⟩,
  ⟨990447045496888008, 3954312775585670686, 14414097128339264209, 1160784537044385327⟩,
  ⟨12790567186406766562, 9540692660342267401, 12022170182251744455, 1252399210348847836⟩,
  ⟨7494400281462281059, 13969110066704963391, 6054746240150948073, 950110029163098453⟩,
  ⟨10519706033512544620, 1273243870837414124, 6743773117001565585, 464260752488464109⟩,
  ⟨6644031355037466023, 1291805761807358108, 6551243450297799793, 489432277343575283⟩,
  ⟨3733838584259262811, 7236713087991210405, 12126920741789203222, 522094252622775454⟩,
  ⟨18303517822547932992, 2807195054210467784, 13159641576753772587, 855829353333514728⟩,
  ⟨4449128923636887467, 13611412613163493515, 12025336169373281333, 1332896560863403205⟩,
  ⟨1957451185913453258, 11039336564323764549, 12727456287856679131, 228326154778309814⟩,
  ⟨11338427901906828980, 109935761989873387, 12048120310880045899, 1308994518812657297⟩,
  ⟨4699060152260570516, 11811201865491436236, 16537310942924896508, 1030678137510996087⟩,
  ⟨12646006819083654452, 12494391672709859571, 16266030119791019994, 719740245520971856⟩,
  ⟨3201794059715843426, 7659470317574241049, 9031647908161946781, 363148928753677985⟩,
  ⟨11915502048720601469, 5772846818657644116, 14815308031156385389, 35923403898725028⟩,
  ⟨170799290955765955, 1257452554540755479, 154144376612152799, 1049253778390741684⟩,
  ⟨12436956446014067805, 12495488261233549050, 15098105238157791389, 981323126540180488⟩,
  ⟨17100349351086466568, 15199087629262610106, 2857850399247819097, 933629509856035794⟩,
  ⟨4893555085527448580, 9471095916978593903, 15023640703244453163, 410519582864510926⟩,
  ⟨17697020347608707279, 18087907458231569196, 3102461787435620980, 62537999126012536⟩,
  ⟨362067899505874664, 14616460120599181344, 15083851369654439268, 631595353512390885⟩,
  ⟨1608981123540692261, 8134210797420893342, 15670126385653615755, 1081728063194062498⟩,
  ⟨4703704396738392227, 9402972062611023321, 6453958957721258724, 851572793112159638⟩,
  ⟨14824233911337383260, 4597555368896294115, 13023979643520645931, 1222004100879652500⟩,
  ⟨2891695900391958118, 5796773624231764530, 15491428749654748662, 1093937749145502896⟩,
  ⟨10646550323399881070, 1003826136171019194, 8409333161078783785, 585473798721331047⟩,
  ⟨10406448549383730564, 6135682111734731503, 11700407245549915604, 1085967648121639010⟩,
  ⟨1292557270730948407, 18351657967081052852, 2678776828196945632, 959596399484615466⟩,
  ⟨17438835186806351279, 5684764232294129700, 10157135796976222869, 221407997194324483⟩,
  ⟨7271080368260971730, 12425374983903708199, 12363525356310613233, 1110769717996073345⟩,
  ⟨8776284918006632977, 15535513105129775867, 4863301670678022317, 606408823553952292⟩,
  ⟨5066052630199551249, 15751267872424382675, 13216457812319899775, 20357134061436216⟩,
  ⟨13075702753995571952, 11742969640320942289, 17235366015989204124, 1150175744034062515⟩,
  ⟨5797072079034365870, 17544469376997963633, 14801627417863273010, 1279229494278656541⟩,
  ⟨7831938700179984096, 17180774215462038883, 4412793878621746257, 1256681412857074070⟩,
  ⟨12968148811839764483, 16811480840776650012, 8602422769386693728, 382111204094941728⟩,
  ⟨13318317749693537082, 3768328516420896241, 142206933916635569, 26627989124778159⟩,
  ⟨11933334459503099726, 1065153861357867533, 11936439423614846055, 1149053547479723905⟩,
  ⟨2631481992765688259, 16002912452516972398, 2790213850442440167, 971241800259043027⟩,
  ⟨13004331011283795828, 14189721912689256843, 6652832565990539996, 452227668495405848⟩,
  ⟨11639365468700302967, 13626754345549226066, 5122223316448852115, 1295194052532032537⟩,
  ⟨12503775634034454216, 12484320064934540173, 6283031731499175779, 1142971827879478463⟩,
  ⟨18442309574762645474, 16043706756922086064, 1203583357081319117, 289542689638807443⟩,
  ⟨13599874590406072599, 12311290605935601867, 1953047606734609742, 893071755833526513⟩,
  ⟨5038580414622442104, 7706592482679500096, 14281875320180208754, 1311692136942617770⟩,
  ⟨9116924453968593592, 4695211437329644351, 122131672006113022, 460639526001551111⟩,
  ⟨612695102453556953, 17430917114440300568, 3712227006774104749, 434565107124519036⟩,
  ⟨2711460600386692082, 5084507891975000066, 8709631773769875914, 701012049286425866⟩,
  ⟨11255000280507413421, 5698447525751632608, 12610021548558458685, 1327688989507972423⟩,
  ⟨13754440516467115564, 4761751981327990235, 9432675603353781856, 1033668598466658556⟩,
  ⟨2955363287632570334, 7600733227996025654, 12027057950170385287, 940571561931822742⟩,
  ⟨9703552155773020694, 5742947530758499792, 15763297443315122579, 930801506499582622⟩,
  ⟨12461619637026250391, 11019870465191278910, 15873529414143589982, 972447937818380498⟩,
  ⟨14971502483088783044, 7994961046161658478, 1775531898359432051, 206771972563020622⟩,
  ⟨4978085183441894637, 6786252161551953403, 1597833793868027214, 752497765450057609⟩,
  ⟨8931448885295850487, 14900305553280237157, 2562728536608668150, 820070530770563815⟩,
  ⟨11091196606428717904, 4420547532075463625, 6826607115289893546, 339509882889855264⟩,
  ⟨17256856864641998223, 7372887677193499350, 3097849850460902989, 1011516479262752115⟩,
  ⟨9808600647888735916, 8803141348520645434, 18015342816914135198, 7277772948085899⟩,
  ⟨4255905157964142682, 17462645559877710531, 3560989839800268196, 1096116226462923784⟩,
  ⟨4532426149332308403, 5237561599212546024, 9574446344492571337, 1288985425094911641⟩,
  ⟨1967144278589690647, 13201768465226207499, 11675172852243609220, 79359524195858682⟩,
  ⟨17074450551687194476, 16589227351082498259, 5830030722038791303, 89110035164054224⟩,
  ⟨3452204926739135764, 5895291203558274423, 3429941105331217419, 412361227440985099⟩,
  ⟨13210175262635268816, 10104864748580005346, 8240781084290164303, 168682271830987859⟩,
  ⟨11525437706352653758, 15971301990722544967, 11793391563239286407, 916031980478624773⟩,
  ⟨4389204516004340807, 12441134604525330513, 4580143368417059639, 517606274666844106⟩,
  ⟨6072537589623190443, 14275421712964513977, 2053999455871445365, 139159162484497428⟩,
  ⟨2238091790845791439, 11897799578864713665, 10598112979470640955, 1188516484791317810⟩,
  ⟨13761995375578127219, 14445881686168874002, 8730842343343508106, 75023619749953264⟩,
  ⟨1876841868458551114, 9237020881271725184, 16194471067922316805, 1271526124614314943⟩,
  ⟨14877699808508013807, 12080680751297116426, 594057086705046692, 93241042719742539⟩,
  ⟨12830970035552954850, 16724821255552997190, 6657724498740869088, 1006163239038875246⟩,
  ⟨4789503842637643824, 15837144161010273010, 14535004913645399525, 386886467210416122⟩,
  ⟨4113769938336656446, 12767551034851750890, 6208225444974425038, 384107338921112388⟩,
  ⟨1457177616745477196, 5817007768895882090, 18403435531988633091, 233268311946882765⟩,
  ⟨8504687346089992934, 12196813988838752019, 4423978201234255224, 103085384776574023⟩,
  ⟨12001393905996299420, 7906247193177979514, 2548978637445902098, 508311140484542625⟩,
  ⟨12545595986735188293, 5025452441931542801, 9681010628496985355, 969281160594328671⟩,
  ⟨4476642231459795365, 10130322522288542164, 5504810838816131115, 942197574992353703⟩,
  ⟨12725269033496721580, 6143157215985784613, 2563593607564735516, 641845243083026263⟩,
  ⟨16567470293191015474, 17979338546951754349, 679740711221916675, 389452091580807800⟩,
  ⟨11781729507075158888, 16614033708022660131, 8066891565891024775, 1321986181569835272⟩,
  ⟨15263301520898366582, 5379961920461128458, 5298170819253721050, 871089269493660926⟩,
  ⟨5741830111596365525, 11415264909554107470, 8692411149271156415, 108534814929374467⟩,
  ⟨14889457972591320596, 4443631419689297602, 9576604194859673886, 55036543682599971⟩,
  ⟨15281837068987139929, 16419105318903348956, 3445836523780143538, 1293417868939267170⟩,
  ⟨17836346323317710151, 12227034928325499140, 2533213127903144227, 888374169811671044⟩,
  ⟨17190507118724296154, 11902410769486810674, 1884965616619903297, 288715797041361057⟩,
  ⟨3698781841092321912, 12743575315417669826, 2170730182690456487, 1222843211331174337⟩,
  ⟨4016814140820935108, 7695810038153355283, 9484931309805354358, 1136167194218052037⟩,
  ⟨14104529875826633218, 4636945317611530138, 9502367629041549061, 1255556235831136969⟩,
  ⟨3761991760077630951, 15074729225518792210, 17745896690436879228, 1023440924724847735⟩,
  ⟨15850125405934611308, 14029919305144561597, 18399969854542387983, 1223450657234113398⟩,
  ⟨15153111831948502891, 17514853580286890635, 16559251203856754825, 921126073718956725⟩,
  ⟨14464801899277986702, 11416622266096337177, 5506399331882969115, 210576422101801202⟩]

/-- `mds`, poseidon377/src/params/rate_3.rs:949-1049 -/
def rate3_mds : List Limbs := [
  ⟨16270238816294404093, 17510165790819614716, 15988650198697570299, 575844906362867708⟩,
  ⟨2093244959304135473, 7921656493611837028, 14184576022206158435, 729731999227928846⟩,
  ⟨17237574486256691881, 7678231653376502440, 12981859904545217192, 832323394471302938⟩,
  ⟨14878706952858838161, 15410104227655356999, 17393275270132988194, 905602962502284432⟩,
  ⟨2093244959304135473, 7921656493611837028, 14184576022206158435, 729731999227928846⟩,
  ⟨17237574486256691881, 7678231653376502440, 12981859904545217192, 832323394471302938⟩,
  ⟨14878706952858838161, 15410104227655356999, 17393275270132988194, 905602962502284432⟩,
  ⟨17721242321237835775, 11985636621509722110, 11478464757469040638, 960562638525520553⟩,
  ⟨17237574486256691881, 7678231653376502440, 12981859904545217192, 832323394471302938⟩,
  ⟨14878706952858838161, 15410104227655356999, 17393275270132988194, 905602962502284432⟩,
  ⟨17721242321237835775, 11985636621509722110, 11478464757469040638, 960562638525520553⟩,
  ⟨17640631015407645126, 17416650484724036037, 14803487960933328666, 554882262980868625⟩,
  ⟨14878706952858838161, 15410104227655356999, 17393275270132988194, 905602962502284432⟩,
  ⟨17721242321237835775, 11985636621509722110, 11478464757469040638, 960562638525520553⟩,
  ⟨17640631015407645126, 17416650484724036037, 14803487960933328666, 554882262980868625⟩,
  ⟨10632745392742701465, 7191381972905833266, 10576427669223334706, 1037506184958051122⟩]

/-- `M_hat`, poseidon377/src/params/rate_3.rs:1050-1105 -/
def rate3_mHat : List Limbs := [
  ⟨17237574486256691881, 7678231653376502440, 12981859904545217192, 832323394471302938⟩,
  ⟨14878706952858838161, 15410104227655356999, 17393275270132988194, 905602962502284432⟩,
  ⟨17721242321237835775, 11985636621509722110, 11478464757469040638, 960562638525520553⟩,
  ⟨14878706952858838161, 15410104227655356999, 17393275270132988194, 905602962502284432⟩,
  ⟨17721242321237835775, 11985636621509722110, 11478464757469040638, 960562638525520553⟩,
  ⟨17640631015407645126, 17416650484724036037, 14803487960933328666, 554882262980868625⟩,
  ⟨17721242321237835775, 11985636621509722110, 11478464757469040638, 960562638525520553⟩,
  ⟨17640631015407645126, 17416650484724036037, 14803487960933328666, 554882262980868625⟩,
  ⟨10632745392742701465, 7191381972905833266, 10576427669223334706, 1037506184958051122⟩]

/-- `v`, poseidon377/src/params/rate_3.rs:1106-1125 -/
def rate3_v : List Limbs := [
  ⟨2093244959304135473, 7921656493611837028, 14184576022206158435, 729731999227928846⟩,
  ⟨17237574486256691881, 7678231653376502440, 12981859904545217192, 832323394471302938⟩,
  ⟨14878706952858838161, 15410104227655356999, 17393275270132988194, 905602962502284432⟩]

/-- `w`, poseidon377/src/params/rate_3.rs:1126-1145 -/
def rate3_w : List Limbs := [
  ⟨2093244959304135473, 7921656493611837028, 14184576022206158435, 729731999227928846⟩,
  ⟨17237574486256691881, 7678231653376502440, 12981859904545217192, 832323394471302938⟩,
  ⟨14878706952858838161, 15410104227655356999, 17393275270132988194, 905602962502284432⟩]

/-- `M_prime`, poseidon377/src/params/rate_3.rs:1146-1213 -/
def rate3_mPrime : List Limbs := [
  ⟨9015221291577245683, 8239323489949974514, 1646089257421115374, 958099254763297437⟩,
  ⟨0, 0, 0, 0⟩,
  ⟨0, 0, 0, 0⟩,
  ⟨0, 0, 0, 0⟩,
  ⟨0, 0, 0, 0⟩,
  ⟨17237574486256691881, 7678231653376502440, 12981859904545217192, 832323394471302938⟩,
  ⟨14878706952858838161, 15410104227655356999, 17393275270132988194, 905602962502284432⟩,
  ⟨17721242321237835775, 11985636621509722110, 11478464757469040638, 960562638525520553⟩,
  ⟨0, 0, 0, 0⟩,
  ⟨14878706952858838161, 15410104227655356999, 17393275270132988194, 905602962502284432⟩,
  ⟨17721242321237835775, 11985636621509722110, 11478464757469040638, 960562638525520553⟩,
  ⟨17640631015407645126, 17416650484724036037, 14803487960933328666, 554882262980868625⟩,
  ⟨0, 0, 0, 0⟩,
  ⟨17721242321237835775, 11985636621509722110, 11478464757469040638, 960562638525520553⟩,
  ⟨17640631015407645126, 17416650484724036037, 14803487960933328666, 554882262980868625⟩,
  ⟨10632745392742701465, 7191381972905833266, 10576427669223334706, 1037506184958051122⟩]

/-- `M_doubleprime`, poseidon377/src/params/rate_3.rs:1214-1281 -/
def rate3_mDoublePrime : List Limbs := [
  ⟨16270238816294404093, 17510165790819614716, 15988650198697570299, 575844906362867708⟩,
  ⟨2093244959304135473, 7921656493611837028, 14184576022206158435, 729731999227928846⟩,
  ⟨17237574486256691881, 7678231653376502440, 12981859904545217192, 832323394471302938⟩,
  ⟨14878706952858838161, 15410104227655356999, 17393275270132988194, 905602962502284432⟩,
  ⟨3912868093747842187, 13891638599538547029, 10034520463596988736, 24923162524038143⟩,
  ⟨9015221291577245683, 8239323489949974514, 1646089257421115374, 958099254763297437⟩,
  ⟨0, 0, 0, 0⟩,
  ⟨0, 0, 0, 0⟩,
  ⟨12940192809323646256, 10063211937356421632, 16102475073289099807, 635255441558029483⟩,
  ⟨0, 0, 0, 0⟩,
  ⟨9015221291577245683, 8239323489949974514, 1646089257421115374, 958099254763297437⟩,
  ⟨0, 0, 0, 0⟩,
  ⟨13439545502292733320, 8210365196597573290, 10798232243990715182, 209985169044052016⟩,
  ⟨0, 0, 0, 0⟩,
  ⟨0, 0, 0, 0⟩,
  ⟨9015221291577245683, 8239323489949974514, 1646089257421115374, 958099254763297437⟩]

/-- `M_inverse`, poseidon377/src/params/rate_3.rs:1282-1379 -/
def rate3_mInverse : List Limbs := [
  ⟨9007339992229280139, 10326424826243116856, 5092355938437508509, 1003135009120454797⟩,
  ⟨3793860473594899407, 15568206114553404763, 16793548156181542160, 297017364836875886⟩,
  ⟨13118704239553060426, 7548360664834135031, 15187305571267045479, 227114138088772868⟩,
  ⟨2709900338282071005, 579150611132688193, 11995391540129672972, 212155260597768490⟩,
  ⟨3793860473594899407, 15568206114553404763, 16793548156181542160, 297017364836875886⟩,
  ⟨928445210678486263, 8868160626470841658, 3755794146411517614, 1205473917191967362⟩,
  ⟨10094677827265099397, 10861765592258933950, 11901484874902647424, 945996443767726300⟩,
  ⟨5126644488318323641, 9647529625230561771, 1074775780748510466, 567785345221932172⟩,
  ⟨13118704239553060426, 7548360664834135031, 15187305571267045479, 227114138088772868⟩,
  ⟨10094677827265099397, 10861765592258933950, 11901484874902647424, 945996443767726300⟩,
  ⟨824862419246658903, 16129767034744593238, 2170701329025733649, 1301512370243790878⟩,
  ⟨3590917015388128985, 13161152940282392610, 1559289252300983907, 436823818333081923⟩,
  ⟨2709900338282071005, 579150611132688193, 11995391540129672972, 212155260597768490⟩,
  ⟨5126644488318323641, 9647529625230561771, 1074775780748510466, 567785345221932172⟩,
  ⟨3590917015388128985, 13161152940282392610, 1559289252300983907, 436823818333081923⟩,
  ⟨7790664405396569236, 15096721329668270063, 11927867068824539342, 454228276177545737⟩]

/-- `M_hat_inverse`, poseidon377/src/params/rate_3.rs:1380-1435 -/
def rate3_mHatInverse : List Limbs := [
  ⟨3075677070517273610, 12935975526496926241, 5413643861495614409, 209652601170259502⟩,
  ⟨5785577408799344615, 13515126137629614434, 17409035401625287381, 421807861768027992⟩,
  ⟨17408664359600548624, 17034391550693366562, 14790887709711326522, 240850225403047528⟩,
  ⟨5785577408799344615, 13515126137629614434, 17409035401625287381, 421807861768027992⟩,
  ⟨6563011294473575235, 14911990801343518815, 5387840296410814352, 742514872555164941⟩,
  ⟨3251880405938485206, 8073678362843046478, 14394469848155607566, 254586312717322188⟩,
  ⟨17408664359600548624, 17034391550693366562, 14790887709711326522, 240850225403047528⟩,
  ⟨3251880405938485206, 8073678362843046478, 14394469848155607566, 254586312717322188⟩,
  ⟨13824643481143691730, 14179537619338997380, 15459123094703748781, 28520280494317649⟩]

/-- `M_00`, poseidon377/src/params/rate_3.rs:1436-1441 -/
def rate3_m00 : Limbs := ⟨16270238816294404093, 17510165790819614716, 15988650198697570299, 575844906362867708⟩

/-- `M_i`, poseidon377/src/params/rate_3.rs:1442-1509 -/
def rate3_mI : List Limbs := [
  ⟨9015221291577245683, 8239323489949974514, 1646089257421115374, 958099254763297437⟩,
  ⟨0, 0, 0, 0⟩,
  ⟨0, 0, 0, 0⟩,
  ⟨0, 0, 0, 0⟩,
  ⟨0, 0, 0, 0⟩,
  ⟨15179341900948762797, 11777292160962496113, 5824707706538620273, 936937875498611239⟩,
  ⟨1606954441813089504, 12826102157655983484, 14966661657048055395, 819162019713750967⟩,
  ⟨18056108788388345532, 17234016165201706377, 6789576351003995708, 125032483782692849⟩,
  ⟨0, 0, 0, 0⟩,
  ⟨1606954441813089504, 12826102157655983484, 14966661657048055395, 819162019713750967⟩,
  ⟨11752092954103863583, 5034202175795696722, 3707413120985258698, 30603057527914360⟩,
  ⟨9883657716457256646, 10991555415607003281, 6328965851154270623, 1087433766327205373⟩,
  ⟨0, 0, 0, 0⟩,
  ⟨18056108788388345532, 17234016165201706377, 6789576351003995708, 125032483782692849⟩,
  ⟨9883657716457256646, 10991555415607003281, 6328965851154270623, 1087433766327205373⟩,
  ⟨9018019125940148120, 4443737769172605648, 9114883657740606330, 325721335091457982⟩]

/-- `v_collection`, poseidon377/src/params/rate_3.rs:1510-2131 -/
def rate3_vCollection : List (List Limbs) := [
  [⟨2093244959304135473, 7921656493611837028, 14184576022206158435, 729731999227928846⟩, ⟨17237574486256691881, 7678231653376502440, 12981859904545217192, 832323394471302938⟩, ⟨14878706952858838161, 15410104227655356999, 17393275270132988194, 905602962502284432⟩],
  [⟨3544248464247567155, 2397127324301944422, 9674390580977628774, 1114449731390581691⟩, ⟨10793968004403082763, 14776098320186757028, 3926381262294758649, 695945431440508002⟩, ⟨2462384498404250202, 12590306298374345930, 11038784733069574134, 419995880141749771⟩],
  [⟨13532986407775683895, 9476195915097473266, 1008114724683017572, 545860035442724601⟩, ⟨16204216982352313226, 12925674836598514697, 6751896652466221822, 941483813900869065⟩, ⟨17313019480228630806, 566130559971125633, 11091260944862748358, 830377232140527827⟩],
  [⟨13653317352261633777, 10493929866956769626, 8396755137825041221, 1146048882209297127⟩, ⟨4132278932442914408, 14861671218963566328, 7959790402925606057, 1318243553399078199⟩, ⟨13456767915419596367, 17246911423899751971, 5711218416857391278, 35403035103928169⟩],
  [⟨12907160498704673184, 12152379198293294711, 9252679699965582400, 1224554265731421992⟩, ⟨13419199242664167498, 13891452473958728318, 13543072901518191311, 1037106053989502131⟩, ⟨16666897222883125359, 12131730689573449836, 13003710399516055414, 648272461984720515⟩],
  [⟨13991351580088989461, 17864339801785851041, 11695126599066872867, 921749339582652232⟩, ⟨11906579800297278037, 11470441940361903448, 15097374289742739909, 275174984759910272⟩, ⟨18232546040145726314, 14147307759659284922, 991776681097878315, 1065560959455072221⟩],
  [⟨3117800866767190184, 1873664776760606669, 13118797281780700540, 918694694774008673⟩, ⟨16198059297050513347, 8432506190058226772, 9370514214732897655, 212402421053033076⟩, ⟨2518782581476945766, 6771388879653376635, 1394823901821599775, 786725020056686548⟩],
  [⟨4999125751846201369, 9316583554979616827, 11717167420397718381, 1066546495878431233⟩, ⟨1873871365393108203, 11936414467331150546, 11113449918732250015, 317274884289334993⟩, ⟨5753682051272078512, 3471409429911499297, 5526758011092646462, 1323229023757477097⟩],
  [⟨2662759502586109043, 1695416312126819095, 1012723056571339871, 933004606031207884⟩, ⟨16642301735251917773, 1183412391970839036, 3358256470522122468, 496531810743047820⟩, ⟨14229377213726726413, 17261160081985153069, 9576276288950416830, 700741200569462595⟩],
  [⟨6784297665956970408, 11357803791388406129, 11332180445619439434, 1106781037719016960⟩, ⟨73464770077821962, 229820375535861605, 4835258747884954879, 991229687813626051⟩, ⟨10226838402609267711, 357277105338386461, 10898037771405216876, 738876256175427730⟩],
  [⟨12081508766912259869, 15930347767913903841, 8853663281043083447, 10038595465753804⟩, ⟨112737203409514332, 16114412090287437958, 6856032020202317595, 113207183629292293⟩, ⟨16338645855580340203, 2107869018362076089, 12567383037519742350, 815641356564041922⟩],
  [⟨12125233544299543001, 11893476647476625145, 15457331543628022009, 800448530217165123⟩, ⟨16675745322148137368, 1493849644880660500, 8185984318393084462, 138242285432587533⟩, ⟨17724307965454702231, 4807522038799077672, 8746642154843823745, 883881308868446414⟩],
  [⟨5656989936467702279, 3451526239075705633, 12473714456419681817, 720076561380511801⟩, ⟨2752710254647861908, 11030634120397179297, 7520710074325720708, 849095153678924863⟩, ⟨15714192245785854425, 1934486269946887645, 249860026764225808, 1186606499687026685⟩],
  [⟨1065442882426850105, 18187640339393109068, 8850384031746892082, 317569289072515041⟩, ⟨1837681773828322091, 10850972211403707738, 336406577412961307, 885368386317519809⟩, ⟨15758214746904074141, 11583431684684102838, 7662385228843486433, 217065657978291661⟩],
  [⟨2532634061285367793, 4387885387692314654, 12158131981630891597, 230565483900354414⟩, ⟨13346419382798549501, 18280976687063744023, 5606331118089126185, 273578743992252446⟩, ⟨17577657789855982030, 9630457784692257422, 12902853055721181839, 36459624765202074⟩],
  [⟨9935908372408102992, 14641284087709280054, 17684292083487177951, 1155088959507788459⟩, ⟨541701721303367728, 3959174565794182274, 18151179085562458542, 340776254243440974⟩, ⟨17690336527687088662, 10937885152973991052, 3836836874424836886, 1090509013794447238⟩],
  [⟨12310573214022515884, 3043141462744167127, 7406092407251694082, 9160197655286166⟩, ⟨5101804845510497503, 7081024525590050191, 11990249650950760548, 264716438448155623⟩, ⟨14013782434072143361, 18031550597362521222, 4176916092795610844, 1008783913934215313⟩],
  [⟨5197923006462389769, 10850213912970425984, 6236288807254229677, 381647096775612803⟩, ⟨16904562081938006603, 1107639524721847015, 12857487247803522951, 271937989000148046⟩, ⟨7013951325055848953, 17628406277137302222, 10293198099660764650, 1028289934164465192⟩],
  [⟨9440252581760876632, 13906337780931242750, 7219961419517025615, 863594454449643923⟩, ⟨12415229001429896965, 11797271759794076948, 1936084790537971337, 467019200964667988⟩, ⟨13553333187067381210, 1913316352777824197, 2458517210763467943, 416174277494956025⟩],
  [⟨7868885723930814728, 3969684852222006688, 847603129181085226, 823204710257787357⟩, ⟨2624306993317474736, 1804999503475194353, 13323117091522537138, 113213718216814537⟩, ⟨13028853788877299982, 16207030875451345887, 2928890708384561735, 948835740600760535⟩],
  [⟨10332479856281518610, 5461907926022368118, 7566281008880752185, 864542613737871414⟩, ⟨11550343341750412987, 1921332364560602185, 10690162369512005698, 600190744590186860⟩, ⟨11343163367577472637, 7523233831279170268, 14378595658429552329, 120678106820511750⟩],
  [⟨1497803481831246817, 7312638636652871954, 34925480233639111, 44726202564591048⟩, ⟨6152756361006073958, 6090155380815116625, 6481578954979806710, 476190110671401465⟩, ⟨18102241645952999143, 12827175776728527569, 10917946848969687318, 1031360619507992497⟩],
  [⟨10479806376196948796, 1250933353292865403, 9714052636425979898, 724896984716198201⟩, ⟨3536451958691514845, 3820878089540374661, 1602865878357815152, 303292371629072230⟩, ⟨2647458017961703424, 14255003531541688237, 9264134941484745925, 1144438898154277748⟩],
  [⟨14896674334234435047, 6601140327636410720, 11594733032791631077, 947808208377648736⟩, ⟨93857753711709862, 17114219253807441153, 16571911382240086620, 644986335071170285⟩, ⟨11491045973623638105, 5832623718891215316, 4637897368334583442, 1270136782835782403⟩],
  [⟨12059760086965268413, 2104859632417338119, 3074047925029609319, 208685506241841351⟩, ⟨507458650320731749, 9076652763882528689, 10828995108044982790, 52861166057592230⟩, ⟨5221245564257429544, 602546441039285868, 15463515802777952068, 500262458682360187⟩],
  [⟨7894603091209534363, 5963299443776147743, 13622917766282071553, 713444535504669723⟩, ⟨4707822806056225947, 13008601324591260598, 6664196336989843628, 361594494120552721⟩, ⟨7234555332968855468, 13223173585719696534, 305242624856210053, 317409461914184558⟩],
  [⟨11052531972415731524, 6240249964832493008, 4690512975789608724, 274300931659090955⟩, ⟨12865203614941348009, 13629535421935003532, 14381802801123693296, 1108602536075241162⟩, ⟨5342089493189303187, 11299417329134660514, 10437815285599784456, 224625807758727328⟩],
  [⟨9419019633707904193, 17287104400249488354, 2449834218878066498, 880784160362712225⟩, ⟨1290387194510150606, 300217878573287348, 14712510331530271944, 675169241465258261⟩, ⟨4319449301091482228, 6604997191961440301, 3677473832318302588, 1226257433999087430⟩],
  [⟨9534885027294214845, 4233504142154122132, 671184154419538440, 588715198189399632⟩, ⟨7834331777517711657, 12046762886677754640, 12085017871628461830, 1280695769450865349⟩, ⟨17051048636914562332, 9931763496822042016, 812132922227142181, 1215806818267015733⟩],
  [⟨10248407954863227910, 6765342538198222232, 3376905111922655053, 689295470605671650⟩, ⟨852480703421168492, 12355793660799378618, 6731311636032405498, 552777249330804449⟩, ⟨1991623127336121727, 6505031450361927139, 15924460190557187785, 1320271660125443798⟩],
  [⟨17438135180680113454, 12154982230827864980, 10857096699189529725, 334861850663499479⟩, ⟨12624059910780607141, 14938141535714956518, 10243410760322861612, 175466020402160466⟩, ⟨11857086838875231849, 16760011700969259517, 8560727830203057188, 152554536976681898⟩]]

/-- `w_hat_collection`, poseidon377/src/params/rate_3.rs:2132-2754 -/
def rate3_wHatCollection : List (List Limbs) := [
  [⟨3912868093747842187, 13891638599538547029, 10034520463596988736, 24923162524038143⟩, ⟨12940192809323646256, 10063211937356421632, 16102475073289099807, 635255441558029483⟩, ⟨13439545502292733320, 8210365196597573290, 10798232243990715182, 209985169044052016⟩],
  [⟨5751631526606014397, 8462191803631620224, 10509863267471683158, 447861109114791478⟩, ⟨1437717886047567450, 16559126213892176045, 11375302712551931442, 1010730393746897317⟩, ⟨1032470319927068309, 9033645067614029358, 18086293033601348125, 304884835659797125⟩],
  [⟨10030163671426435897, 10038896509362625400, 11411437429949289797, 606845429174704889⟩, ⟨13498048305505589045, 14368156343173972859, 5751396272374329581, 1272023166617958572⟩, ⟨9805803927184323301, 13425206131835998785, 13841345243897428245, 615350201809158017⟩],
  [⟨14956193223177978026, 4328965669156513709, 1332264507148878686, 908612595539291972⟩, ⟨15512085810689995447, 1278811290279093247, 9713635222980865549, 89918473543807263⟩, ⟨10908982736163998884, 10522718116611575026, 15481410495350859749, 209345561210183580⟩],
  [⟨11298966019883739719, 3737954136375979756, 15666428783954356951, 93322090349950905⟩, ⟨10237667835076512281, 12325953953570405613, 12285254403281429040, 507107093264211690⟩, ⟨14936641530723543297, 12684654093637137182, 6573648560098330931, 479128193670708215⟩],
  [⟨4665624059074225901, 569773391663140707, 8039376161136700750, 305908263293765813⟩, ⟨12181552876023559131, 7764448317943448064, 10288520924018884818, 1103852203169073095⟩, ⟨15135999239214672948, 10790616626797062588, 17724896909590777918, 1127104704406195421⟩],
  [⟨6486714260719829146, 11040751111500249834, 8958297661837625585, 504881187176923268⟩, ⟨9943503409323924620, 9519655296534470798, 10031214880424175980, 880224541550113700⟩, ⟨2137123775246483621, 14575781645937393202, 6082200831828333306, 319693495256136311⟩],
  [⟨18213874187166503017, 7357620257182256357, 12753979462901781784, 653327632081049969⟩, ⟨5648402480861501803, 1298801804080198935, 16361566576947818947, 92096317293783223⟩, ⟨17945395108017238106, 3498558197841053284, 7092504945026653103, 372132312547601421⟩],
  [⟨15622147422254947733, 250116726000401472, 8318204049018604061, 866935352572882912⟩, ⟨18241804623807754966, 4053430455599371737, 4911593924672747195, 915087345052626509⟩, ⟨4269143728338544596, 14357201884344458328, 903006646797065399, 462454343275509581⟩],
  [⟨16493823488007719206, 14779329128742765495, 18378884619527915493, 360610956997885799⟩, ⟨8231956009608211607, 2237272948977110346, 11234918376541957482, 211807215316292218⟩, ⟨4694295422393950539, 494515799644279017, 16377559543581347883, 1023664249665260398⟩],
  [⟨269632147881481827, 17676834172042717446, 13502391546248246285, 158178875674850167⟩, ⟨854535799571654664, 4436276133137563398, 12250035363748361097, 569847052981690503⟩, ⟨8356573900420286918, 3943111982741005596, 6690528014909196681, 100899612597296936⟩],
  [⟨12053108327360532468, 2215278670095839574, 18310257358516903189, 507153778977982696⟩, ⟨15548327836627863789, 11669395097045425760, 16626297677851084169, 692658363999722441⟩, ⟨5590241427234064239, 15193192965574703365, 7643293374071077424, 502287078265137211⟩],
  [⟨7121109350102790552, 3842989306298966953, 15442678426893498207, 43682019324253859⟩, ⟨8543065120635606147, 17618464589270231617, 4296924638616724859, 409105874035239827⟩, ⟨12676854185827013572, 13888077538347807744, 7139127667431143175, 1225243047885808896⟩],
  [⟨4347759847866483265, 5855881520281836030, 5505541235252858831, 976243446170017999⟩, ⟨1880808402247115426, 943890821775946445, 12000264441794154793, 12973763854532988⟩, ⟨8496845738719301602, 11057791601996073401, 18430915991403133806, 442312408397388928⟩],
  [⟨4597591998391646042, 17549544536524741100, 7632675978077243758, 789227364575351796⟩, ⟨6247914330752058188, 17379927947827819186, 459262613159719376, 17669136651242999⟩, ⟨4416622626270946808, 9011173931926497864, 2385315687804767815, 1100085754679242026⟩],
  [⟨2858027675101851698, 15199707771225336894, 6912007903404713737, 1195736020550467109⟩, ⟨16536374087395040861, 11905207237145903612, 6114638606661711198, 227197704829902271⟩, ⟨3076102373056113184, 9532492163005512122, 6930666801042367372, 359947620632631939⟩],
  [⟨9440427530838662463, 13085976282871216533, 11609820600896955445, 51192596107359503⟩, ⟨17890235474475849352, 12861769158994967907, 17199388852287681020, 1318104728008794611⟩, ⟨9609805589266211410, 1670962659820459283, 9562963939311936174, 688275382419503341⟩],
  [⟨11167389070307520429, 13977359843749392350, 18441644755473839422, 290366407278115355⟩, ⟨12443632002797775505, 4654520606670285598, 7306556664291017650, 1327633699432541153⟩, ⟨8092706722129444827, 3658752323492067072, 4793508300996597563, 747223853807345138⟩],
  [⟨2950573641865927995, 8127787636945490240, 13677031676353641065, 158618420355845681⟩, ⟨11307462183326711698, 4564920402521666764, 14622180354087693631, 1336492508958389172⟩, ⟨4173008676431506498, 17674916393358760276, 12680688896701595449, 968385841042257188⟩],
  [⟨15472538886056214069, 16032473331676368569, 16841883688877890652, 857731186179030920⟩, ⟨3288920438915728986, 5565335638237954732, 16168717028973711379, 557711450924669146⟩, ⟨2265592654319698024, 3205443269480017209, 18001932803255029483, 256652906325487142⟩],
  [⟨281001495283692254, 13790290956215242906, 864387281468051063, 1176693997057782923⟩, ⟨5123560649935846987, 5199616350359672235, 1101436586367673740, 39975262197625469⟩, ⟨6484555314181403346, 13702935644386089262, 1070288899201945043, 1275458004049976710⟩],
  [⟨98165037936801382, 7473654891184825762, 349134079485996919, 938092578927267223⟩, ⟨14188791834503488423, 18250342088521722141, 2040654749291153960, 926512896204558398⟩, ⟨15224380743676270964, 10786962884449555555, 11361613959686699022, 1210280746834414029⟩],
  [⟨11759988830619476554, 8373507443143532317, 3120367880452859596, 1169296147393250270⟩, ⟨2846578710538047768, 1316160842247957353, 13088400622784413268, 408653118294756083⟩, ⟨17205667740934035850, 3622944266683523375, 9638129797382886543, 994379064072552476⟩],
  [⟨10882825922057764254, 14418568533897154353, 491214512167095700, 433897962559667772⟩, ⟨35128611736586842, 16389786149729784671, 10083558142637806972, 137127276176467702⟩, ⟨6798031404470581862, 17848651283256458296, 16222358536010933656, 803683331342998490⟩],
  [⟨6972405454939855920, 4552281101007467397, 7264795943490057443, 864688899960148444⟩, ⟨13927481061475209845, 15489762958527206567, 6189983331269957882, 547789234607264680⟩, ⟨3562534859757502067, 1843985785467419577, 4386226263096503262, 1115671597351053159⟩],
  [⟨12278022351526165705, 17770191387101388710, 10802565891039662934, 1075900781773362211⟩, ⟨9958371080654925973, 11831887817395699647, 1304723427562418477, 354927743406208632⟩, ⟨7902693975921282234, 10693029805943046522, 8006364623005626891, 336833334808426575⟩],
  [⟨16076162621220796497, 11613654344612125103, 18364396485836487261, 865751367130059847⟩, ⟨177169936881514673, 15617655321830945408, 2675644582344792450, 813774581927626127⟩, ⟨10024256268223083204, 4626025808735980516, 15602381466554927909, 372989881235976309⟩],
  [⟨15323355670275250642, 18066772602049731907, 11033816093504217490, 425723417069229499⟩, ⟨13530227036238294143, 4726864651116558793, 11836084010804535503, 345580619383028526⟩, ⟨9033276785296979553, 8015158493901738529, 7685612975844433499, 646369922266692941⟩],
  [⟨6106858674192767659, 6489383503992760141, 15104627566688873842, 967007977448094027⟩, ⟨15940025338744316838, 9550216566045214897, 11499601007486969156, 519967031225120334⟩, ⟨4457318900167954816, 12351443184813817360, 14113262131954548168, 753463690543950206⟩],
  [⟨1881864483835241252, 13219574080686529684, 10918646441166728772, 345526905812511168⟩, ⟨16713317497695859602, 11594535032725047066, 8614425525972045100, 729458370408931167⟩, ⟨2382365843901650484, 13640386342346411833, 2679421435014953531, 1060573086709931927⟩],
  [⟨17434826777667612735, 2365065059007002287, 12113557410986701552, 486906253608904981⟩, ⟨15422260981332801416, 11687068808662228912, 15340447593430286694, 1095477751721025581⟩, ⟨3067136625363818837, 15414947239083578872, 4357451922062335136, 670849424861114413⟩]]

/-- `optimized_arc`, poseidon377/src/params/rate_3.rs:2755-3244 -/
def rate3_optimizedArc : List Limbs := [
  ⟨15748480026335769443, 10026984616551622801, 2063724428730618452, 1110463257231131824⟩,
  ⟨9405142820695944635, 11887146523697465657, 7764829263011233272, 10688178588086322⟩,
  ⟨7160766575090090422, 13093321275956005400, 4459692368517809830, 1324823328343033307⟩,
  ⟨8967803866417976527, 10882703683899587484, 12604355713142717837, 913362872025451921⟩,
  ⟨15434913893282099231, 3277411989792281453, 17050922401305883749, 1246396795570595652⟩,
  ⟨16287493285262395377, 5813955731335134269, 4301474317614585594, 257520225036445364⟩,
  ⟨6906749939426292513, 6186370802689597769, 13121713652409052978, 974279291569484389⟩,
  ⟨8879700369639612352, 13618625792929032624, 3907123048620659133, 13234475218016492⟩,
  ⟨8645743306703223161, 2649437454338131787, 1563690154181407289, 1014186398941703531⟩,
  ⟨3215833110701720679, 2309636887892103305, 8098930435412331037, 874663616929857835⟩,
  ⟨12979468067887852608, 5086746922420764336, 15129738790560069297, 751939553752695744⟩,
  ⟨2977455406847333432, 16814711076234176662, 2052393181081329017, 1025504667378050833⟩,
  ⟨7769933776177646251, 18381610027802955757, 14883656026535111760, 810712025708758153⟩,
  ⟨17772168373864941552, 6465821213265847266, 13630379320513469760, 377801609900980707⟩,
  ⟨15796194027949120118, 344995813018918925, 1773993772309248477, 495371203446902105⟩,
  ⟨2372367672613269254, 1881994507861568925, 12499063082888296383, 198183890354307133⟩,
  ⟨8560339202466452135, 4674741842794783289, 2295938056459737653, 1305584587019963566⟩,
  ⟨5894698623250752231, 11196686474075291940, 319786488005502847, 976772307367475705⟩,
  ⟨9900044152758269451, 6382301581301578495, 486281876073250633, 71881436776511649⟩,
  ⟨8858083304247561548, 5671107377399080192, 14186551763070529190, 1191940751561414494⟩,
  ⟨11388935853995478114, 12687122290317818660, 14863371661788062147, 1158919028776138907⟩,
  ⟨0, 0, 0, 0⟩,
  ⟨0, 0, 0, 0⟩,
  ⟨0, 0, 0, 0⟩,
  ⟨10994187684158036079, 6365622770188053181, 9403760573784657161, 1146936259121378165⟩,
  ⟨0, 0, 0, 0⟩,
  ⟨0, 0, 0, 0⟩,
  ⟨0, 0, 0, 0⟩,
  ⟨10359734611031618397, 6788070320086383195, 6870540987465879902, 1154055204589981421⟩,
  ⟨0, 0, 0, 0⟩,
  ⟨0, 0, 0, 0⟩,
  ⟨0, 0, 0, 0⟩,
  ⟨6567270162376125909, 13203968161919606288, 7529228388954710988, 1019437133634541415⟩,
  ⟨0, 0, 0, 0⟩,
  ⟨0, 0, 0, 0⟩,
  ⟨0, 0, 0, 0⟩,
  ⟨17083543156205069093, 11374420946242035033, 18049715002122120090, 906131070047943878⟩,
  ⟨0, 0, 0, 0⟩,
  ⟨0, 0, 0, 0⟩,
  ⟨0, 0, 0, 0⟩,
  ⟨2206466804129196608, 7840059231658610949, 18148556368765089670, 985832054058842554⟩,
  ⟨0, 0, 0, 0⟩,
  ⟨0, 0, 0, 0⟩,
  ⟨0, 0, 0, 0⟩,
  ⟨15160443716672326145, 3977221634341810924, 11902494952164999188, 990146605314032630⟩,
  ⟨0, 0, 0, 0⟩,
  ⟨0, 0, 0, 0⟩,
  ⟨0, 0, 0, 0⟩,
  ⟨15193334268554411388, 16206854972517382356, 12905310888333022888, 513326483567402639⟩,
  ⟨0, 0, 0, 0⟩,
  ⟨0, 0, 0, 0⟩,
  ⟨0, 0, 0, 0⟩,
  ⟨5576504557462251248, 8125452713587662843, 16486629117159905898, 293174270601514481⟩,
  ⟨0, 0, 0, 0⟩,
  ⟨0, 0, 0, 0⟩,
  ⟨0, 0, 0, 0⟩,
  ⟨17062406856052799045, 4903125714753109748, 8990920239472029770, 936892459427742133⟩,
  ⟨0, 0, 0, 0⟩,
  ⟨0, 0, 0, 0⟩,
  ⟨0, 0, 0, 0⟩,
  ⟨6584002420364695129, 10284681536623141870, 7366280281192288180, 305633769889978939⟩,
  ⟨0, 0, 0, 0⟩,
  ⟨0, 0, 0, 0⟩,
  ⟨0, 0, 0, 0⟩,
  ⟨6566050072214065144, 10806265958907184854, 2902594108468871307, 927316604280713413⟩,
  ⟨0, 0, 0, 0⟩,
  ⟨0, 0, 0, 0⟩,
  ⟨0, 0, 0, 0⟩,
  ⟨9252557727477672981, 3306161630265918351, 179799263786823209, 104291884324148129⟩,
  ⟨0, 0, 0, 0⟩,
  ⟨0, 0, 0, 0⟩,
  ⟨0, 0, 0, 0⟩,
  ⟨16542259604895379638, 11861465458652059930, 2193746946143577162, 159871979033281704⟩,
  ⟨0, 0, 0, 0⟩,
  ⟨0, 0, 0, 0⟩,
  ⟨0, 0, 0, 0⟩,
  ⟨1973639865256742476, 12494642903985355205, 12678561251384262826, 1063132847474762378⟩,
  ⟨0, 0, 0, 0⟩,
  ⟨0, 0, 0, 0⟩,
  ⟨0, 0, 0, 0⟩,
  ⟨16335431452481000471, 3819468482480263699, 13079543972531520553, 161635515931478039⟩,
  ⟨0, 0, 0, 0⟩,
  ⟨0, 0, 0, 0⟩,
  ⟨0, 0, 0, 0⟩,
  ⟨6649676330206378374, 170192309920289600, 12660537932851201431, 875374125882958636⟩,
  ⟨0, 0, 0, 0⟩,
  ⟨0, 0, 0, 0⟩,
  ⟨0, 0, 0, 0⟩,
  ⟨18237532705140415183, 5538703501092204277, 12946255801995328124, 1087375767378395044⟩,
  ⟨0, 0, 0, 0⟩,
  ⟨0, 0, 0, 0⟩,
  ⟨0, 0, 0, 0⟩,
  ⟨1012766659404803227, 13885920911268862504, 11108883550523828802, 162298092776208930⟩,
  ⟨0, 0, 0, 0⟩,
  ⟨0, 0, 0, 0⟩,
  ⟨0, 0, 0, 0⟩,
  ⟨2714322473297105009, 249945166940002912, 12698583590562308965, 394261012891088761⟩,
  ⟨0, 0, 0, 0⟩,
  ⟨0, 0, 0, 0⟩,
  ⟨0, 0, 0, 0⟩,
  ⟨11185042895155911424, 15268539255422683750, 7532909772946377585, 463947154991508934⟩,
  ⟨0, 0, 0, 0⟩,
  ⟨0, 0, 0, 0⟩,
  ⟨0, 0, 0, 0⟩,
  ⟨2052933093431843614, 1295021459124440371, 8148559147565678653, 89295276853247542⟩,
  ⟨0, 0, 0, 0⟩,
  ⟨0, 0, 0, 0⟩,
  ⟨0, 0, 0, 0⟩,
  ⟨12899268934677529381, 16307080267150235665, 10898130171280001197, 518068384980908314⟩,
  ⟨0, 0, 0, 0⟩,
  ⟨0, 0, 0, 0⟩,
  ⟨0, 0, 0, 0⟩,
  ⟨993244798968596356, 11096685116364920579, 8750430116109558950, 9308397748705116⟩,
  ⟨0, 0, 0, 0⟩,
  ⟨0, 0, 0, 0⟩,
  ⟨0, 0, 0, 0⟩,
  ⟨5953598583374622076, 16232619257237216458, 17798149940250628730, 654505929641861550⟩,
  ⟨0, 0, 0, 0⟩,
  ⟨0, 0, 0, 0⟩,
  ⟨0, 0, 0, 0⟩,
  ⟨11857053641605556992, 4354078495412090273, 4158908777158450718, 1170888300956232550⟩,
  ⟨0, 0, 0, 0⟩,
  ⟨0, 0, 0, 0⟩,
  ⟨0, 0, 0, 0⟩,
  ⟨12321182200541779000, 10436914785964154798, 4712843605747406852, 790686269705752315⟩,
  ⟨0, 0, 0, 0⟩,
  ⟨0, 0, 0, 0⟩,
  ⟨0, 0, 0, 0⟩,
  ⟨11380659121996065200, 7281347105742142276, 13205980178228421104, 804622887165645998⟩,
  ⟨0, 0, 0, 0⟩,
  ⟨0, 0, 0, 0⟩,
  ⟨0, 0, 0, 0⟩,
  ⟨5152043905886227057, 17756682668953288347, 10695990401739553448, 1061486419247893614⟩,
  ⟨0, 0, 0, 0⟩,
  ⟨0, 0, 0, 0⟩,
  ⟨0, 0, 0, 0⟩,
  ⟨13186025127373894323, 16210743521572602678, 17903754729019377882, 874061397244045546⟩,
  ⟨0, 0, 0, 0⟩,
  ⟨0, 0, 0, 0⟩,
  ⟨0, 0, 0, 0⟩,
  ⟨12725269033496721580, 6143157215985784613, 2563593607564735516, 641845243083026263⟩,
  ⟨16567470293191015474, 17979338546951754349, 679740711221916675, 389452091580807800⟩,
  ⟨11781729507075158888, 16614033708022660131, 8066891565891024775, 1321986181569835272⟩,
  ⟨15263301520898366582, 5379961920461128458, 5298170819253721050, 871089269493660926⟩,
  ⟨5741830111596365525, 11415264909554107470, 8692411149271156415, 108534814929374467⟩,
  ⟨14889457972591320596, 4443631419689297602, 9576604194859673886, 55036543682599971⟩,
  ⟨15281837068987139929, 16419105318903348956, 3445836523780143538, 1293417868939267170⟩,
  ⟨17836346323317710151, 12227034928325499140, 2533213127903144227, 888374169811671044⟩,
  ⟨17190507118724296154, 11902410769486810674, 1884965616619903297, 288715797041361057⟩,
  ⟨3698781841092321912, 12743575315417669826, 2170730182690456487, 1222843211331174337⟩,
  ⟨4016814140820935108, 7695810038153355283, 9484931309805354358, 1136167194218052037⟩,
  ⟨14104529875826633218, 4636945317611530138, 9502367629041549061, 1255556235831136969⟩,
  ⟨3761991760077630951, 15074729225518792210, 17745896690436879228, 1023440924724847735⟩,
  ⟨15850125405934611308, 14029919305144561597, 18399969854542387983, 1223450657234113398⟩,
  ⟨15153111831948502891, 17514853580286890635, 16559251203856754825, 921126073718956725⟩,
  ⟨14464801899277986702, 11416622266096337177, 5506399331882969115, 210576422101801202⟩]

/-- The literal tables of `rate_3()`, poseidon377/src/params/rate_3.rs -/
def rate3Raw : RawTables :=
  { arc := rate3_arc, mds := rate3_mds, mHat := rate3_mHat, v := rate3_v, w := rate3_w, mPrime := rate3_mPrime, mDoublePrime := rate3_mDoublePrime, mInverse := rate3_mInverse, mHatInverse := rate3_mHatInverse, m00 := rate3_m00, mI := rate3_mI, vCollection := rate3_vCollection, wHatCollection := rate3_wHatCollection, optimizedArc := rate3_optimizedArc }

theorem rate3Raw_wf : rate3Raw.wf 4 = true := by decide +kernel

/-- `rate_3()`, i.e. `RATE_3_PARAMS` (poseidon377/src/lib.rs) -/
def rate3Params : Params Fq 4 3 16 9 39 4 156 31 := rate3Raw.toParams rate3Raw_wf

end Poseidon
