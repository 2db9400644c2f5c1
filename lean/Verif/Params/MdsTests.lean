/-! Generated by `tools/gen_mds_tests.py`: certificates for the matrix tests of the Poseidon authors. -/

namespace Poseidon

/-- Row `r - 2`: `M e0` in terms of `M^(r k) e0`, `k < 2`, modulo `q`, for `12` times the Cauchy matrix of width 2 -/
def mdsCoef2 : List (List Nat) := [
  [938273527714263380472091659864616281263988815017118203103914828435267693227, 4691367638571316902360458299323081406319944075085591015519574142176338466134],
  [8123785986791850028391274624650601726386941132553276593963009400629406356546, 1389594971424921715382718027900760821618818877936744680546304239581345824146],
  [5239709310612120176662330048594610401863833642303387367982900989963183221916, 7408705257795742017234178301268658428681885708187115162171171632320035811453],
  [4118741419156953167938438220675651499511357382584602607308433491823510181569, 5809300713293213540748245746666298337590723970984420945620191859293733416297],
  [659087666218863154350184892549625816476071130481222947057973589189465677504, 1178028147285469246807070018182764644105116083529509251120678887549359724880],
  [4176313808183901844178240793680877391026944081550304159879890859534626113770, 4293927210363888532666272430107050626103197823623876527830169622177783756768],
  [3591088982507667968573260917442083648468986141746173918212679000889336196634, 952518948172018040025536296650660394334809448109432137881265307672560715800]]

/-- Row `r - 2`: `M e0` in terms of `M^(r k) e0`, `k < 3`, modulo `q`, for `420` times the Cauchy matrix of width 3 -/
def mdsCoef3 : List (List Nat) := [
  [4027820599771789839690595077466824772210051185105485022284485575506917153484, 547455795606195132123166280912150325366644216739202268133902761968309119921, 382829003214958234423762998534190080131154064938627328555013020213424008375],
  [3615827388554574542122921170167065987849896675825476662842758225481437445276, 3754128816325307223351712207705039384676630175059247860476426708062388919449, 8047795963668998942509353311282193744039932868602012875546538410296276468011],
  [4264624220922767310028760483944609221571960349377515188641169078819359316703, 8014686445032720832302227232896339401481408111179868858816353595136797617258, 4074472728664153745641573812301133651607395581194839437604847336917119812045],
  [5706264093284866579102430608073211207907740934352188689077066636546074571668, 8216320500077902069268578795823798625557164848677408880837878997618004066559, 6579591819167493980469124644809279057569060092449405726304291460417577665546],
  [7840739669285624614903785320488371635387106768689896399431140137490825403766, 7379242795292588272393063896633254130122516413961286836818591166244516308221, 5954142464426376545027710287983310798231561866811932843258344805072069553608],
  [2174600878126299609597585815593893750333064044297016923154267991296925655606, 4354207763845168151944146385455647027183063409136898593382851919043318368485, 3508056193809741828581021548973910968311048577655721838230869728758710296500],
  [8076151236904877856433209820625799747189711226691982738018721238600866694628, 7588330539198882137344129854828254775523506215599299031331519555990585193483, 5991295515897732965397961509643811865025171738538168403214461004128019363647],
  [7175438860815910165582647502597822167085902738563786336633176286641606694918, 4829633061872578092062916344641072708310605176932645218186244774119945049053, 6772495637956291464478302939953352595406216261660815581243319336061468284589],
  [7935314813177121728364975925232250465871839202492141440077471255282956770278, 1785784900629010120388436235147200718057439551177572245558409234679961284568, 1032641910073822607707606410960115601492083487262024140574155471695368509247],
  [2269074850664350739044629349555141730912911725355356559804311681050777061929, 6826130378698788497786841121686946052737499804001416180404600878536398489823, 6603321684139929761850861653731640467380609549444730661391696509418934701536],
  [8136648411319340354417098244087000862079384147102299215457134173266611722164, 7665095235760441020403873210690479903005403112790145385595092215281756196955, 1453979067489700588353081313094106327347623862135172329932967004227104348748]]

/-- Row `r - 2`: `M e0` in terms of `M^(r k) e0`, `k < 4`, modulo `q`, for `2520` times the Cauchy matrix of width 4 -/
def mdsCoef4 : List (List Nat) := [
  [3988113651968215677133467664928976946400211877351656332367738344115006541078, 7601202262701646087862064056301504436051705447520504154188229801518885008634, 3507017186329330888251696330440296914468695303574306629829853567993449135585, 794565325569998078447477431777971062429490783099581668858353867806770514612],
  [4281244717436277863581913704942610149199390897846460029129039620344722469580, 1111721850917500771952377396627855694946412592068076168844869273047096455521, 64730342217992190722089386942916506917118717970300465924616025963788164898, 811248733345915781965171771311067357953648966754161289004173483340879661129],
  [2176751696037314474915588015024795338409673787425895530216645299683087446949, 4158820524320548236313369941224760353329250776697759991047063966704824578863, 2638663740139224286163044121691425275558915950010714484340806513499342620180, 181938804146106530252354026347271681211660863670594076433117707795669397245],
  [2684612332795488448726242992799594233252931623760403708534916627948369647164, 6181011906561577533424215617192739926611431405329561901478132542224140964644, 6575128334207045822425127483406501115911124639162341840977221980345271902006, 7129898934909748784556993439951853744618643394736779256303044046370301367907],
  [8070074991925527887710447972349463521274301893350180708732123100185567960085, 6753455165226377974755356978374426157118967988903439240199671808640040354717, 4851541196579987046709180707322277071442096256554849795431669567718780396211, 5543936115080884743649466720739837160363925887662691611817536266579243299101],
  [1604015266848258824281329946018076829188585550937070889190550794185905816878, 4159113994768208595701342441535780146706457808863079651846290745411877762886, 343387315349260068679890471468242957513414166410935288814085427709842567904, 2400316202696087429707527372258672734168357806122978633360884964953597188611],
  [2274271884099008495253102262749060617693603078789442312400336489193133355685, 7634750248703091536213456826191116573224627088558062586703535293943178773567, 5764175801495489692455568393297931569368020001713818606056636481849007209436, 6155482665594931856408361908532258675399868835208921400420943616557744405599],
  [7036761120050500116235125557903393636454459218421515317429838702197184986542, 2341533672625906853500769819297868262018177490483105660338875643333237335025, 6967175040033784234185045723000305309473820261925940478767318331613789292041, 3432089009126448748973157533020561724045243206034125192836740531626419022045],
  [5588204349758907132255976462698269685076347378422414059318475978713548646469, 6440395718424742154390610262473663759319685481849912805150740603888621291332, 2270115142383908639436351341752494029532948754559743436395931079837844781132, 3712446292561858621899198230853752933710267553054400085714505869560365627106],
  [3745982328287495471784359226039445170525099780705966326439394841209836399754, 5296575507216465932889889209330400513652580751505963954373399195072714487532, 4039053258520543874248479052057152017585961849525293244978749006248293830357, 8308018697119680467102536914511973375150975751448967964918581455401601093667],
  [6957468231765032672145135697781584485421149052357092324567787071986129164910, 4779402571552379182529051084895843298984492156834251199521232651713765598914, 6173238662785441556928938714712432695052831089292738292327567635058986613704, 6659989418572145349074129862299564708937303431177162139648993121988332282607],
  [7490600843014922466482926843968734645853189930193943561367443984037944143516, 7933807450638340066430189206671589169255664553122346602516214566414962894873, 5340451018387420367327046129257863897996665781638103185189132536227881533348, 179511299707274446500669485926909705492028905309486508200050489446953225966],
  [7031781272272724342949787521389165912879661668326003113708277547104465264881, 5946558038460227190506307222778574098318454656696544511293978051040819566101, 2909601628698156475277535494805851850141142362017769774724792893997270121476, 1616819558477863675879707755042547306720669097331980931559050156190741870366],
  [5532409798336127293991479399634368746633420747935199264188055518284451953393, 1417727418773910067993883102978813844560716253340675956230854601000549536417, 3503435322921842056399040363937313598871555454207273402460774026306924001228, 6210569863413123822786281020138503538799484212580153581775043988586287861487],
  [6163009056225719470226548766469919233012667423917740129251901357743040024471, 7451513813958604750477366568548612521679157001768191244453143288252711516850, 3113623036826558606669635075534427058841801612588673698029870025081168758025, 6936882900764061643534602655446198105499370790688274911622878651652490491451]]

/-- Row `r - 2`: `M e0` in terms of `M^(r k) e0`, `k < 5`, modulo `q`, for `360360` times the Cauchy matrix of width 5 -/
def mdsCoef5 : List (List Nat) := [
  [4422699238493893605336884752522800480777603489029385738767344517994432567710, 991615409909151225944600656586108570431473235014629110200129949488080327526, 7668186086005538236003988943649623727239089550709421470806774621023905385940, 3698108331154933086088316087442626776751753282162831143875217397848629137009, 322854283072070102864843050023168103986300978529073707264425107187360423927],
  [5184148928759628931988011464805006003760955521674754206131345122576091550281, 2760205252108172452869304046591848398798253748228430578812628680859560634988, 2367640202916614502092334309866945794193185221242008138002245634137128473016, 7565031454493356070574106487270321583437150679105707115558279923156895700656, 641666339724106884473659516321231587657576464376740384918001367391053453516],
  [2374557393398221024256523039898104119894321333698436057552242164794840582382, 4522823742137658648289215954916827975041331379205750939338991141139143677046, 422679098269626410526333103007642039294533668045069649782060793348980806186, 7783159045022915123851669584736295989159230287004596159685506968179542997994, 6718790425156103988044756027573129588240653843915023108162244627844583963683],
  [4998040591824110177563862388767134645043640052985189681739196547492882450408, 282267609910898288499395045394154825625094685230461784627792745119097500709, 4085833151178089832594865372300769905100362358634365427895138257157107409386, 5016855976401319554560441046389244756417294504614368257369566346331147325736, 769387127933261905261012705372219274638564608720646821111603234830559727638],
  [6544615039650996881421341173729638886288811028483977806198078726862479698933, 5910309800838231790955423073868078392167805010799017841837510609265194418629, 1062768862556077146959033011464113267235851013087826729092779651743731658596, 2808725763663108031166738383646456096957402997823311649139884385295301441867, 2884434860434418604414893860818620154431815924222096382955300076677579161689],
  [1913960397281402469594933182885006229713131122687969189957890169728483536682, 1458015154792954192855021520905110203930848296791206433844241477556266589485, 3683590920835074610094712185992013377688755933784640786680367594278720644451, 864371093843476109317206351015838077737182830563123853906753299810773908794, 1970809984790193799865555053143504655734993226764594381023892774371654017465],
  [3315239257765224296557542995069263479316712522642607587267711104303333315924, 4186534390015310353122285918652227350375713263569744807620293088985005586487, 795286222741674686882465214776672431061790357296557384393950711545067879488, 1238926791238663046994714596425776485446054580078065889244424551826600545035, 2785958228186531921063869441807602971020842618067333228919503335128700369525],
  [4586635584004111078636945935000512603976855591734141854266397973713248720819, 6660589024551980749363129683193837100069800453488956204484121403660470862603, 1370688601888266394694921651114598665073452606375851218281008761339883169345, 5526100563328607577494079047422207981633483338933790288296828400876328459493, 3303995743768453273685931009747795679462751618893424835338100132431760593582],
  [5370860424524597678372476603381308088101853984362877325992939951749590737292, 1695163542922887767313894017914551992910267781381970890891871594056639183792, 5168961445788741449851170871873690960456671052802467027829618399080229790159, 215238054395493271642392624497322546477949661918726006024583421684623185862, 3198374548807977855656772671410822173279701186118708449637157045887526171862],
  [7509148042231111267646162433091984548083306873061111625115831573811341261776, 2902877397107961235474277156335882093763865730429688030247976127867695863953, 2710766829497594748747800789002549926040998801823831269608471994515837871066, 4492435184196666338147045402680934974447467159541565704618888229649431568021, 7970793019593476516142886156659015327281199772358155485674276269567248608427],
  [5270840563289972121312642049943507573338281788028902385760573871347545195297, 5092349423524311043233280531307057797527024037574331803400912248265543561708, 3520093223574070867571356762373500000973600269010636574407297054090534335466, 2815575781952977164476521850994407873165825778966245217948368458041663934676, 167544327095750076115722247598079847609774085019551908967563552375827651152],
  [8139328995873549182828787480369589841858450328730666744122391902569882898643, 5607118285338115322245383247518190309241140359079780624250843596534664010420, 2333825024182672543128559461086287764962424431489178717591383191813603280037, 5070796965984170727885456895761577250321724204487794755443369367493660832432, 8228420192626535029032725907018939072395262684705693786274764250869059266713],
  [2092261566359200642716092297788229513006072882455425061078372881543823715836, 7151768832583908359406491889810694123853879046242524184774768280108745493106, 7060975921487786327735377518477288237025218108123391803521051906719273712604, 1086177512829489427032311896860247051022810508313827037896100806105453883610, 4974548214230733984762595251805418129755004452606918991801989773526533770726],
  [6942961089803153953443473004067474924398221141062889421110497734714211068942, 1617989485623011894874341790246599045236591277270889294929431500537708143290, 1476686265056172466985608246113218839091262305748124302988378792879440489567, 2481982089157980756516082195581693532482958317115693075837440754248303198921, 2417261967507731965393886357925893308613003743005820567935224839729570073676],
  [1435122773791502883776406264306716674610257077914515250143143817961884051506, 357960210764613544639031497537509193091591615539704552378844965592713712035, 4086341831914483822240443958883402188327800184273321245343074075469337823299, 2081652536090360215695106202308213915537004213368677707275982074346536238618, 7562732155611509165565171386406502749935050234657137810139731056039729340047],
  [497003809510119108578513756361037896512812389144477527372258575403074516572, 4763816460831455781595995079373198840297750466345796713666156389975957839063, 8338007117040549986842826921429630855959404367378906497609008936615926712469, 6387557589868814688136131404987674173481968427850267346213752667008065541294, 8138236470295992949830770614818254877071328352547221431457129807814986400630],
  [2329576964487850054020884587332124100359693852121299748996356813020207515795, 3079700519623457028508933506926361448989657669652564948310780674351315329870, 6837357269515818896665253949719674445911271941111870080338322162050951682052, 6223250956903371379796415218887833935958156867128292510140760501314633797450, 904590647172912268090237260382150236794981140176317143428451413355697210732],
  [2743780217026127162269358775029363134668317881154037337627552486495153946886, 3908663077844391042431336407636174112320987188191676716744286767720142617194, 7331059362311236907921433912384869832695770808600922102242539435421679298929, 2496835651160990344957474708377889726085791902980397337071150116652664834630, 1931016771599577214703417476111437041015185444620915318332318923633993151917],
  [3464251627478292833473704901460769545498783830379310084856224960896450929192, 4033557938070888246096333821701431575856827739640225539109649266392419279171, 4350939578642230094357980629954139974470304264938393854934791812682828696832, 179316969753572959906588450545597693063092921893653020334602384306226268193, 31325671666645335132537038126166158996004584241153094513242556050541784109]]

/-- Row `r - 2`: `M e0` in terms of `M^(r k) e0`, `k < 6`, modulo `q`, for `720720` times the Cauchy matrix of width 6 -/
def mdsCoef6 : List (List Nat) := [
  [1533138668260324510074939954132210319199557113508293922173200654987970333491, 1036479715263637713618761270876163129427259024073666861994975924150816441589, 4048193880485051111407600139229870525780536110797113268500423921667332448969, 3983635486322509740420551685324586971411605948835118595611877837943755102874, 1930517623020575286642868440681236039026965165242272614616206869254096912396, 6103516324926623619543656457946674252035752700608461159337519380341395062777],
  [6745007680803290008389739895161623247097065926827538816858221597651239070234, 191880152620108740533573439830973019640450114183226346818133901233388536416, 5065966665928123164068093078201117643064134196956667446661164170484243428979, 2392816684021757215195335405039332481588539043908034797144295114445092589234, 6783588297182236711799893433879402147899291442770750334747286401386808315822, 2272415163907050372377903447283681715875007694533175479977792522770260623664],
  [118337612696281508694050449744246015100099667041932775650059458987029512628, 1707400538633764153185068178400633492156232209753569978273648063817089524546, 5691476769862031036859174636134712135413035442496592197941425882772365706218, 7573134991157686999650352442593116315296811456619470124378529971839463999316, 3270654609748296211453454978054811507948862462633225252815159796343654305021, 7971906511368618988156997183445987510116417306677722256711228919871942359825],
  [6446017992969778091626090965040056722750700145286167888413256324112824296187, 633438492224262531265661828425616980557163083121650009754117634673446383784, 2337413827000217362357746730579494677555901258135348027834610584326910253843, 4660787972338315062998654206379148137615565145751379633667767408418863502683, 4713161602533328897251211526851377930141186061541955708428023461674061986350, 4307064248117265241525334633810697993954298536356146195801105289650304885428],
  [7393244029855845619338435277468446983311733142992032435586451260567204946738, 2621221569135333793500300167628076410256433982594300862949358728506682418381, 7275704148171969543840926991641530524092427884267018654839771752957747806807, 2157362310815590362873837770170572075600748246581108800740201280737855352434, 3246120916020531537523873888774747958485871368836221884116927365837709816263, 1592762804745395371589984160759431850924819930278537300449076633890619427186],
  [3670518717104059786963342219900181525870235492326209166826589022506394837432, 727898302238212101289975727812059237095171262163552232510528534966896991476, 6605607484779568928532355189761015703150863529111853524565626041737140804226, 2083465391860909496489404872165910947869313116237742303927588514577226240120, 5089314497175425787907993909393252335003897751120839714175317008089057564800, 547953819935428157597865699930334384854766128770311513924698341478985605275],
  [7076740389442589996598222403873824013253222085605361773558317637662228218432, 2651291151154849799021158921021972807309150617770772201416429112370541787982, 46067994550368251496497221268728128818524972296815630722880502633638948672, 477711202495609203371282950659806125731202887346239223336149651243025440497, 3106943728669884763776479945148136809737622387229758930454335277528443639517, 6936588289244506826154290017377990753346837916925395612567423801078743520119],
  [1937461847999159803896966573600962497452520144516290542122059197243862233606, 1591634741945745943350379146691362333467330179045938314617692758924138470571, 2751118263932736257626230865708088948629350352806968882558587705092226778586, 2843811531296635595917907541163814449122847800273951597309167681307010695919, 8073697902664981668388814790152047218608149046516022403473151318351599537509, 7229412546079584048312183106469565097919468118778501555684203879509930563037],
  [6395412568351152080794118759240228695343907294321206328611716700177085460465, 4814285471197434568813830727152735801102895697286689414170977707772849472863, 4826240021425446629966621797880750909824437829474280166043697312300817875529, 4031358002548114287909495966531922016992063195323569992910670594084643595217, 6803308878674344046240815891021068746022828822956964429590557262889175073355, 4047745631167532165132026215250163742427901755669016471152968425060394355898],
  [8114277493110104404901708316236769525717476382581127525367438285946162889841, 7132540002093753872609709449555132513645025289512584749584255840355501132610, 7122524157115614856788483154345572704936968742593680141600258166991822474514, 4551528698543365122162155614971729671101554011790430324944213955750782799143, 2138437237283452164462137813773469305226471243323160269786267917227109777315, 6548189268641341762832476198346953368146972027625795461992708118607782987923],
  [488033121425150752780736460853873412191713483938590452438772638309033976691, 4416733138847664661254445621505347714251149614682348752893423213327545857001, 1787363707584258975921178616820815489025287048637338814384804021641186946670, 6575792670917231444543737417574389683524454144026059820828171923540473600704, 8020461829321348305829114850641430569099378374438400658149616430319540383200, 6140675066434001540812976817577416656594018484247727342412891057502961910827],
  [1156433772817371095046934743183522726152871304364648103898551179034822940933, 2058817703046257503780571355201856396561066656677251760736749657171110785594, 3970445847481890433001137713527992861816529420667549445381518003178607336222, 6342311849201589224852751531999547028302749540305175897062796286063055915663, 124907691448955311832103647218100489124614023005951428904095600499807484556, 3542950750909344476908939199360572185218991716265771531500888861631987669086],
  [4345818703994743174151862013374620074065429083971296592228307586331004207408, 5133377385902695915918655805599524509445669244899158455410538202850545609989, 6522998287863810799991494719654281035660708299884149523009155216815717255947, 3750354609395102770066100104420803952971864695608339957019958548720114969228, 3426168102106664109295004020920195428744657583576705920198974285254159396695, 3950459198624802616095955749038598948209958401769818602352631764621385823044],
  [2945218275813124456392371748465768949832414078944850028298471083760391840906, 6536248610039743435533295689784044502973509687955061019317774511554386671398, 8150218468541623615519153344536551694976463194538744880204509389706604418183, 6852392357545314537263490673243780131870387850794202424235886955320412317013, 2575738087860912210938112683839945398348176360163089841265035385572454348562, 1133718037839030792999892407280356450955527419800188460640309930379281994321],
  [6276164145464054504397395948018102053930317058424941173114308983180170608389, 6875297630348849780092242010709928581942001076995232692247038728822585323352, 2701778962122118575729455015723991597544774597208636745947888483479747515354, 5176165071492733231464663524615088347238772364809775106077823091966381856525, 1041114997000110701189185443664958298981241769082530328839185213054851970478, 2323082128021438449227156405168838828754817894441479753515399594615259389760],
  [7058568322662368416599654264021768495639957947748078962733663916968095355554, 4535990257084134467228951331160053487718311942876698005719631075323660892067, 5763874758467589951230632745856656813250291329908001756059671064540612351573, 1084286339106966040933420755338731786713330944298897403957392353907795155829, 4546912173159433820678952841376795938678297121883150697752309635744899316395, 500661641273610278711328656949143867983271521071585101397619507801728198579],
  [7533399580128771224146333580526424513352670792579693500597441400537696316858, 5733193647367076278568290202425453473371275073063571731845299543585127501413, 8373122667653090263919939072519828203576844297087341417381252170703570253776, 707679414008690892662363335254791759400118444831020412822689298740374168884, 827760757175863754802135274136579781244163648521244647546491451778548434068, 6196426413719217016890674858334963500599055515397861031567907532667166670362],
  [4765235152593849016767206608172977476558503775947098722809157047265805071390, 3004960946113553166196919270626046984714048270809468905699118389552855201285, 816446135530078470103767287181137259171590548209741418887002928034358195364, 3213577791826971223493362911472961941536183877360893232190395594804427608411, 4015752555371058125184084620613515014984346416019553366345662751313428211087, 1318948156616297975745010555295252224021849160078983583385327272650004401684],
  [1561371497209193829902154300507058599125771307507225983352310364602449720254, 8328955602740220223928219613382338824865855945357614611365840895149731242705, 4678866398329173427117895872820500859658600761017945500996020057120591978684, 1310044056511957615789767766922635008704882015536493630264090591915501005402, 5645718128456880027869598018014521749861766270556454358444050827464464324243, 3508674889391596960285281329354607761024677008416892103356991051463085565709],
  [1125185052306990935659160955990945530104752733458003320847410607165141513866, 4630649095944609682600809634057426697851192560922492401408007608765663108881, 2680165138369387456838553808021619798830916276139500373980041587116506771568, 1024723435361344974543754323000371393907674321820193841119896629502732344905, 3155951126496027813430738870301349125531956607214250192375138154138599426838, 2090478820389596573805206174644288861270615063018692368988296360146500065123],
  [1963762827923421117821632175514529014290008345415349032781601497402233187158, 5938843562806552595424448960483273120926609739794615934654141883348743285306, 8244802116960153605249881009939925124253478402416217444346051570438049660380, 2621129051412186423709474080070767271498906940544719309527825420227043265814, 3049881770478102532020879160659643305258184711167737528672021419736837849620, 5366550115096403503061588403614412751295053429630949610360444611398193074867],
  [6222868802227995633018579696845142900715327803497884812014367872934108705000, 2492774686345757706573400133151096539185236800141782741344357647227106738654, 4190191797867280331039766367422398687268204750536727491553622767708755570033, 7401029127053411210539659393425735867239788409279800049331925043433302965690, 3924487527599343085269793385357392165024763260359776693120345696840439383058, 1718868676535858052224229997753248970816923280959881733344247676111993434595],
  [2758161961732787531115896833308513335256189877592601671184288705408108547323, 5031182208382720228282136512479558697829650499340558995735938438285493460034, 3453039024734085801542328895784428198559705696819271675218740630597752921861, 969992781216790898647599701962103734414706779677738924231185343275275469116, 7894505568080528102365281036803801864207352288011430422832754657679897393282, 7295543779943800495363273134544891222136692231319546024471384387797759339351]]

/-- Row `r - 2`: `M e0` in terms of `M^(r k) e0`, `k < 7`, modulo `q`, for `232792560` times the Cauchy matrix of width 7 -/
def mdsCoef7 : List (List Nat) := [
  [4476862525706063669709102515584673592994030306162346833756258957367622095880, 1006893806906054967816787140067111009762628692786074441815276045377728253579, 8407588561586292512278639818760685721910056521525826131983440163995352678762, 7824738033689928821160732639545633002250223211222043569559207792392172114121, 1241076530106677466408952280252806377453995279623486960839699102210123971478, 7347485472986473142795162970578734172943371789090735243043507069496579385240, 3908946782027158035515374577685859651814154406333030441349773677507449040973],
  [3905095440669127605473979129920906869883086657621775130866478247154556388406, 7492754928439498849586150417154076544319160209621097718766526902661247963204, 6349416344167376255522058969239786898587100030432979238577021393040016234514, 201523341712384996846965880892279603095409942568607257016983094877047399999, 6857285462437880845720694348275518648243201178501471145287558733442306751168, 4768136989065960357003541023468317688335904153401755548162416219038363468982, 1538031375245786430834144785064673995957711309288864281884798983457428763092],
  [614494464732736804844140954784102392818294290004920350791440576261615523754, 6582129921040943019575365602379588758059899229774963429219919233802415978927, 3243212560542630028581482314477910794652480655960774863006330229092275818230, 784929473704080795324222911288191795845631682232371353536912045880538024758, 834071214173586782568712568593264274002407224707564792491479806360473322343, 2323988309829592228319125467340102723858656345457174813024626506643889709375, 3040119716024420196518571607207849063721554881169548513279924541709373450029],
  [3363088603905558589087237531021261668562360135913172636331886766976495687290, 3452521053815511556479711749366685086525577479044336983974444296657108411942, 7931980395036925375953834907790056092413725245843765981707753677043976626273, 1440296158307218475570315477801811333076944506452395975010523881468610313151, 4725785124657646813764633736267806225911776631493612629703304856876381630138, 7951212408845043504145044555213662376765084213057495916661130818021998326589, 8423515255993596749579929012125921873198611718247990450993102362487153863608],
  [1527673715028051770777757135581809680256705181769013303970118209958501290520, 5713595881440313240533269010539055089029816749221457709634972630978275930733, 1732274700749918238029908869839727094834841913835469282940354333417935948155, 7990509769307416170787859214696353249121985533093938583647691286480202884388, 8214975716240647065056707566293122543356253007263179458499290747953848907137, 6611022912139973674646849629523572727604735080769825828150894619353287698763, 7125808084435260436363405256039102278754913730440591967961823846129581583121],
  [4890489126680944532505069776198443459857070996470889891226894126267523001083, 7474828696132722439215282638599035853577497502474597212278386606406707829394, 2091530363009666147026980625017093998348469193429189632550397562574946250135, 6701889579031466835967675965109945515846554041536664169427816150965110975537, 5299911442141488102498414904072868401057888421981607597987688861967996645859, 7640450290752806588044373739648402839446108304999285037705685231526337112218, 3727008123987014115752917240481943432125646807451709108327332984668168088265],
  [3400397934762073675284250027180361798980939639678964307020316896078458968736, 4051343292394255961038353378190024142306825516078153087448604925903582414329, 8385955738857166512395343667697346766258587375949419681265731304506354254075, 4516207053561390028762779002621146221920459544236528663740945513349181214893, 6051761656287431540125226184874654366111558438360989837812978794400614154254, 7792629721563609089969544219078129319372642328199871248872730416679491206698, 7065724137237507827023541662006776385016302159656488439876090362303779168080],
  [314439243968813042366056263492109844904326009245581297030404938539902175064, 7167872727849150487820114618808127376640784056465811778935718831905292653696, 5296966967703185529067130322264549771440812692976531761259338864256158715416, 4140913898405958525817659273678034704781559727121730528750836483836267188706, 4710772354717368054592704460944087555300813682378131832753294122083384166654, 7008411917421164794909915746510857459170421050223437131345795897486297128613, 6941481762353464614131685586129653085761509225849363615082642476421168539358],
  [8353512465505439727786151638457472126820343614805282809930235584414970417544, 7311142541933804001880160648538122549486728424690557511687504093977412507059, 1021802371621642794436901237125754811469387836217989542219043271684234130151, 2087846942295009354707523441333742867442544398845782592833814157338847473620, 3077845649204238708747844021481457171096489747950993365202982282810505507707, 2786682684095374809804112349137485047838969550906700804297837478345943215807, 5329021140132120426340685253388451469519864406069145616833399608631506782120],
  [1212659695317423016313206215556609800381727900853432644371940197911912327570, 430630721958324936957186269773665251552768779414918888225668672451185378791, 1164577413858844341638274533742413921069463587429617603938133185871083341597, 5638575640440433089472653037663012470550353882160194942964080094903403678484, 438936920795501220163535929820689389967575201179923794031362623050122945750, 5500660993504459471991631565399525547219701734850699410271346702330058488677, 1148954575254101316227926138203422947580121104451553509534203118911626633973],
  [2308390862767952367622981176243661527085287705742490635548364574524546205039, 7801859030620421948570316578501514899720498831187084574378597274862794358511, 2673232838543970606429625445971400198695915298773789409876334436241531694880, 7650955224277839744315505388261374170840839777446387364283412041671174885617, 2739117700103877448740524675907303107764130873005739777715531704204385280440, 6618848293540976142351371138246988071143737575259561943249335047114238182432, 5351245376668363218695590354243319921307030890295205180615184149352776272676],
  [5894381940061879414115479391579103671771033256135421228980285451459758189414, 4734030628809341830256737317884821136626683230944578626041133369792853658725, 5183917376984437719579172839296612266782049424182394997635515819172734585722, 2259091405564448934459197041922174392943997305913560125730529499969526930112, 7440843406384604451599612575403433775583605579031537462835331935750603971149, 1232919522625312106419482829327289729686203343662118455224984204382788981801, 913833970747455386039222383484513433769991054439599665646897596644411648146],
  [974092618325540846222877889406411855560164495516472588653249174264786430635, 8424334362423042269418330920778133940625264856308198485113370922898802926636, 1443576072212446837623941744623998902227894108906615136142122879666521495956, 8078763555981728011481074596132162640360861504626783282181868872561851800199, 5420373548474383517898415350254705515010579250630491217277610424977098639583, 4794237522985157532923264611123428887611639042965913801597156598723601080300, 3947935077452438529748714761674305389370622670778692533705403541771958863477],
  [3963701053102512398862733952060300940552990273669870456357012090398509981975, 2557309435695396110397299186815160683348370076149784784797389940085094018851, 6260578813164586304947035182238527984818115289985342938834945898056030256387, 3621109117732081178430349622076429356185984987022999550931007660871160138171, 3537519031943917320833731812723109168380760560588219442158356665511618039612, 3748925597034018610798561032055126542263067385884953421240604281652437526451, 3318612823894338523311796111817942251517941657432600017346043048790796525182],
  [2841584479905540658124248518036964953067514026162905835608209780748444429651, 3528854384048840557767337085399135225693819748395594707697886174961387565642, 6658031469208089281069886618589255015400357174970755685361342799743567724032, 5272324554124093109441654371581414479528068513194304176205462620901644539976, 5202679081234596231679973729677380885777510176153380160107845456442102250651, 2157675297754919283033134130833802635986918467923125235298048813057389671179, 2421054327718398732968826199903765548587877491958583026406397564878129177610],
  [3207018082220981382094003246022532404957306395017725031428063006322443667840, 6137363790467113620916197129232736128908205739145483836259133793946003782818, 4975468764115474808934809309574076156066426179098577501892806771299563665214, 5916566831440687047985814259458655730275463651338100807835499927564083858622, 2937485269907898959774472296617323766176509250650611137969744771930337857915, 4096157995738537008603564640158275337354095687027391566216783719635991415251, 379138542023042615487576247656973148729337603823810292108613600659797747228],
  [2128210834485419191089329222922874085677500312782616179673949865260194158250, 2032299085933835047134996660514757205823057660736183971387456287476882685454, 7244242265195064087262263628379084099136070477601514557422738994112111851148, 1594221844182078859216638168441030769124962486371024688178711831105606517997, 83964338275178585927686169997511351324408904882304019894253754550335036360, 5335165657115773294089197358655332816357362312595311850487098606925522360824, 1299010399547852205598556059804969236257153195159681480726569858862840805039],
  [6978667621666059165221660492063412985190522707045357587057046131218802223805, 3611425580109043124119256040007489967946104473931902247512110467091023917334, 8089636123273016756587837606605231808585996768720360483042486408615828398695, 4337522244720918495546382974542471478123600810055723519528899376069832582516, 4797783781243279985508259136542161253663545142505465089775956922980886157685, 5803344633270545722360694311220161990027771746883483638342625709307183367642, 1322438000521906057872036629325703855225756854505546099083164088801025552176],
  [7081442707509391493693027997987438876995615915428254133456921588037970267413, 5610467836277847101560793295057953193613409735442945044296900178145097688771, 4842734298945700208831230854231382736438324030193659691777889807829024489284, 5389538644781632625664817182724150892270065399709535133746776920088851409855, 1064898934299117208281478581298029049180769061024829813090288147464901274421, 1183469750130770965654933360651145021270926441386917700492011921415633818, 4364244434965445171538396369766344512998422512898018817078499819534229930897],
  [2431867405415221155907078330331009423739684983587607142830661972376548237384, 7260256238777912882420443459941296930638273930328776606411854876433979219917, 8257657353436530280974725040022966501376705403377943660443686045443163363385, 3238997167312731642987148447744106333580361812617240119461153193188109738299, 1494206938172379702624247304680485089943122003851552505110125242648381996152, 4156138947201037454382192055626809034703155456649419406628666776193657166187, 7215358494169917038861098557241072844793967148779647386728656530610628108275],
  [3986968757888124164478014868690135244864332406841603450112311173023928320956, 8095881159299821818507034011022396145308824314370810604013010195906348352140, 4442016183426494088354881489329754159170716458791269463040648602492499199855, 3086543134612326217334032223388343699081593095652454555913423757126280595466, 1467878692414556185208599632108560663037533343530794721744742849369083313430, 6304326979627942139371919263768296173705220546018771815324751849563912812972, 4882591006266230105845389202427805153883129801329695689236761761129532881098],
  [1521337541152803144662466833540646891116175808399155067872711433654513062728, 513044998218410569458367076288220071591281146008147230526226608767912172286, 4703481033822473919794530585207947762869909484227985611143124877592278977881, 3596133023488230973072745596380422263129675098034411763231688472283875263888, 1311089109897466398028960660724457927193058897194759209284657640088250155157, 7156806526234495893656253645975415718411928862943657417477447446457971532485, 937611262083985478281055058776777702239159279729168826248196437536239972569],
  [2979854863578999895516121357632182492284469182810566607482641927177724211970, 5442715984236245226758356491396306353965179399192253302813955101024455245208, 2440701321070598797869877434679333755040389066128385867058876976179703491950, 6212454509703530792137742997390636660292100610655516729492943103559134916709, 8268457951499655279811562597706289241854878181521007679551659159730741388679, 1659676303583898299029231986098915177056407314820502646154915678231693134707, 3696144230660701188654611954051170931238034513883219375999779080158767479334],
  [4209133586648135792404861010768144964495905213450475584732583416148839870689, 5001738098776964044433187602024934974462164206912260149009875188676158847245, 2980022199946970056950479205647256408487487821151993224956921082022800229164, 1118519377705291580451501896650316541539239817405344660218805226280449273550, 746827737684741010034349704927041127672898209371206770751053572003568472984, 6056361268402551139402322435563797694437848320819587560734981010977815692452, 5105983508972787745556798058843425620654608826312463592461510389259860900202],
  [6657659793652110742557479013828678320616766563669429146131062723259698061201, 8221264122430112473313572727554611592445644918349512210193521828662998130428, 4072150780393618958507228940713198477757870541476883936401775632408507023708, 2035569124312617776139111506973105299177635817061164909299886520594547227963, 6793048423523068401578145342473721981101768896492694434257763689274628197995, 3566978064832688073060973124390490227552915909200082015000292428438007236888, 2423507478755433902931346254253586496508667829717401888369654019312789887218],
  [4739775931632597260040718858722948201540798908170141357524286318383308587530, 4652428198421590392545988285800907828220809350501981522996841694152712732641, 4763191714187067639788094617726948440936190008989560608084114734177932161105, 7276972217965625477492898603205478070935900404472174668749162805792219721567, 2121406962548300873103434238173110909821590508652301613260511253284222589014, 2630011530091088918226843900666915848972058663785998694123091525689516382934, 294351743419645337476106133369205538816782366723586106850791480737659229811],
  [1372733134243722083030042435958387205716879295674355424015237131477635269781, 3241760733568229787822289736018553399985831191219827682379521706272728560283, 2928707812185067680911433487239250339137505780380159462139739510703135500557, 1847674345467814223575377258090495773972949561563483810824814930150578362264, 1819202417077344415382938377506906012645493862340893069543777650556338647630, 4821627306245225374225315452976062271242094978972868646575955655577321424251, 641065729700607168030855348097590045142328014788385478482002655574532312360]]

/-- Row `r - 2`: `M e0` in terms of `M^(r k) e0`, `k < 8`, modulo `q`, for `232792560` times the Cauchy matrix of width 8 -/
def mdsCoef8 : List (List Nat) := [
  [3321107586361386579815971213839570984010772364131976080566568093875133135796, 7476988369681347514089799667928039480831484385819041771958482447321689147350, 427124945942743204168567861789031329149155318224006070640098591525660182463, 5631578234920204536402326042638594158421110799955206135335235125603558823071, 1616722784740284349042767886693564383183975505151941541190986947949813128816, 2032079005811816378754845574553998969682711904478116824972600210451683221401, 4270530250270880196302612470853526177049790393235809104789397392978445933249, 2557235194864466866478071435179029229026662061311463037957335816680000332792],
  [4027251976466723752028605113996686508663269395992136848170903925881492605665, 1320632286548212815993225590975641001292607116217271316522617695273067654902, 3728804383965960606977004966932428128699344956292299002416373905315973966536, 7305192723631352396651830221672668052932049433876228069536888683239688348778, 2929077388186526029695293617180305175413163084425688481093366660197647001129, 3522403197730268383290565206450752220604115564498007598604917341210904192178, 4229475350556216405049348442481721852707301633623131314016935827883611416763, 4170441615831673857053853746432426849206449038456071107503936135487222593582],
  [604487329329784831994459973464213511601980202238000549577621909903087696231, 5117283357821830672139628742733009008080771763347262074754854655707803028526, 7879957559594793902405218728926443729835771357534900231469067288838643492968, 5249847508701511747739138430068443945903559256734289050977092928085812190436, 4925611422897097115009329495600154142675632413747397310558180683507580325130, 6714362007477331995389904967161806832109706385113529534029895260269199101012, 6911684342490199631158030072045567405981170300429361070274109697022171520109, 99006592956801693445559469129835085891638074479453015540678142453935925171],
  [5100576188895867699833534647730855809939798703114021279610081685183205332292, 8388745778179250744051029426193510421125941428937022409768413502635877527654, 5121068912610362047399585583899968961079131321879546280582312834262159197700, 4492520001345505688280723754792166908734112400193040535325239031012526744454, 234250427921564518388971308650489655937528407485424159963738109700565292296, 3209109660978316124455570549726511932548249874285502571697036141582005878629, 2366296989541612471486922026924790384820872729967851920283765728331620031387, 7203063574097648588159903230582535058305097672202845239582691977329641192849],
  [4166637695870991932034463931743981021820651410916086916424442279623999153482, 1963174115846133465020397891290488891147691826798699282376144320755348803543, 359205383183956374988010565756438173047647197567787679885396177767321073277, 5979432249140503702702120464132021879698217784556609239630893106429456471442, 6463413897419179268120361529286856618017552162759714398205082679317674817627, 6980379178580590839868425686246223747430116758998871509367007949769082496550, 5723470494447520627069840824788128469651486415114101264689118628038221140325, 5474916910356828676065766238253150218789683399344877672426366660133316588242],
  [7988898416410134201864899686149427774032526829473987519649094855332760367253, 3505324381800059722485946186683288155691309265365470112042435755722813945475, 8026254009289509566088069826555040928873467668199513130567557012462054858453, 4555034432138864702535266524582842122781828983559518837943338293380271853080, 7546740222855633013903305036086636500961261673812304887191869518375013627162, 7660887138040681631852767489721571172580608138014933417663546171722994336317, 2724176700317135989673761709480834937946319278774021460062338207286829626828, 8200709081613139454886901235414152890321803196353300396690404275509609944797],
  [1216981893138750108878715696668236301395667568031383228687046963141846152012, 5096006727743318705385500751153602507041215621954240694196092570787726328217, 2555258112989742649302381511390218343442850408795412549057347334020211033934, 3556062269737705565261926672194435923698438627856484969470336367850894161923, 2883193405533277719950598668857575522028519365659080761686899301533477911100, 7548370110849643066226700772477154599430919796419100801922907372751343770861, 8221468138679380336483055231315427651301629222001029363894440709967477909063, 4982695337742693883666156966697551239539520129185014846739777910479266551990],
  [8198641522989687469169415574889947634115916501774727579610414018820966413306, 7540589793757440145229869531130949466280614261713029874817926417355977593593, 2117169974877035938513964322007414591309279438618504568914793021440158157840, 2228536788802605631578621368182561646237410776823760481497746097900872301433, 5177886038895414595702120285447369681977350448038610072579555791806778001060, 3448053529137561953197995269648855952520242506192393707609284923172434312637, 2201574934728918203607610371801444040188605119312260063807350128252494550180, 5979844807271971674591872800694688788517940052544527664523473661328637370370],
  [922079110867931633477750239448210541630706263533182166164739713959116571124, 2928868739450717145985361096745789696351636899456984006994956783190930637042, 1339040917339857187282209350766641345775526733085815273664055363234088922026, 3518929280170138003534724763095798841395173173917225817980055992714198587330, 8414220301170665700907366195378000617117079472943885876079946569392392166034, 2777799939491370744477530917332597961615707876377240391770457409213518085946, 6004561187016003788404974450214807290076487230701369167091497519152146961590, 3926143835135841421000990151130040866352828652676231312675544924667142146556],
  [7249983515465262947637084327519110860732973067404477961623907692852939163871, 3881141168813647942365393215658357486266006892161154356369683474602299026139, 2850165993590505689945484627367996770035258734450262083973155894345282528001, 2726178244471727359568005629799926311048441277614908783202198290345093197488, 2678476955288299050469388877043398712929021537424540497610358149472634098315, 7321848742745461929666527561244447863369874745933140076618171021190421100034, 2792366901201733504165338332923470475548790056081396128004389883176563142729, 2123610525061593634780178546100412508504288721972207405945597880788356427739],
  [4480647618041042234432239376916665012690947215522777025986245443247734070387, 8137452410712143213375663155734927662248114443677392701584372662778301903782, 5094941838252230883495073651169510356550218588087822520985209914151035228084, 6058008782150994555668527164571880704962153140986158671149339792665743196467, 776189077649366320620360734690639830621724351528084098673572808579278115480, 195162820582535239312113794173539215165539858687634362258749009159683741829, 7314322602486776734206787893202614337806638152318660519966875110577255823042, 6150706954683870990225237696443063936526008843722277349976802797301810234460],
  [3245059789110398976772908878966257574613527695604403111108533350030737691441, 5956828411039013973711617795291664185375748728944419071977895083839447871655, 5494326267420820953251110842553253045674289628463022707177983336050703047115, 8325584850267313681120220607967375544956331811828773650496675843981577112709, 5569509050207910767907573788841588291918662620238348756259902694876147830449, 6250656116427334137298120133310146567714161232492095625665671687404804979831, 3158898851708737775367030782325622246933917583000604046731769948604295647791, 6953636357212482944482026946587260463637420206864632979016777392003716996075],
  [1213055922010634105111864449989332303896915803756575250209581451152443575830, 5670713946857096281291464380309752579877772795135805274676396489512571210019, 6907563651964273123323185544421816979465158991392848323565734176365922524755, 4579578505517766943209927766258658006954216248656660983610656600136764625142, 7062761373150885296869647802876824726887296743735875570999579691632968462893, 6684763299034677035574962775511427062143554164255253897326638980645973732456, 684182915853838076090054575785866383694336678468915132589672678316487656116, 3794205698479560099465500427606910840375768542186871666833956126262513776293],
  [311518405282148073925982366502548104577230607482971483139000710290217480267, 4870985065809045861586822113176821535509221643684895876196854300407521948082, 6629411561137604577544926814187224468416490368795947272348570493125863130107, 7830431671714519967997753610333920940553062469592141018647458956180261571058, 3504889748503914643174073777777237169477770321897867471215809252125032172513, 2740068686199046686293982227199337455654693676896144664299447182123599896027, 1889347701760180859520548527423438495388697542810291890115013744831011938474, 1580146076217348432259372705703622550946726305083083105665427300983691630352],
  [7450418060906320105577460524724951220231260309499675172587830204950588797972, 909733505006996721327340624646849100253301683347876215724859417931151534061, 8282143646293047549038840462676127082401015255642302118792047128046986140038, 7589761965512092463061586932475437016003032966640826760371132759904516513971, 40907703245435570022724272020534988705694577064425710393294476545502326157, 8097481245408264979273028711405000211774157497893944619886620444497554317528, 6333347269614965806986702851295705939440723514264623893643562372581644159731, 1693840174283304648241256689084243956836230700185052886826190967731179800758],
  [5358323442361951428286549840061678349086554408069715379738900469651437058598, 3379514250110547905841014182169337283134737114899217104866989686727988150651, 942584269024245505561254531399807734129320104948023090489686839962006091181, 64595504500673889960912603947091221535593205572973623887424364989532743559, 3488833759640782144467089517459953516682778696255578327848367934913657928446, 3273943227775555309782630169030498674533415757236969230636722704395841761384, 7528145390720691114803743402786877653059206752347664071700440688163789412194, 2142530687883236234254297924121580819554565508035122912768837782916198618874],
  [429256050750640456228029549586458522424240401505263019875457742415727692330, 1918539225390540603512375227351073888554093040939143410198619819037363669225, 571160112285195198959810764140472805642764871585612342696503905985177214937, 7124118971315643873944483901031477540379189445822974746054141185888119447070, 7734738024667091808436656658611055238367602899039921780122363215129363782189, 4731627318238525085529004876560686689269810307689743647970028229487386796767, 1767552173051021536450153840239658226385198113120272253755442947954755519147, 4193815911571863309992796533666831085431057564485379820421581441425920751487],
  [1290827729639566952002785152779304504298278695436032146914766499326264835633, 2024189168434479965459056657717008394244088536726747982378167141815707874313, 472359075913410525986701588020228674584927287764286527072146370810131339660, 1974803103477829136008835623349435868486219219861610785039506935513885207376, 4079082337433196161372207943955798254874677261341434882937474003661777680629, 3633574235810421516115283380913685906722565354944866226884021154664956659301, 3948892913317288069704781506417412384326780446330790929817402115052709159345, 4119146268788861614386968201460661551505226798441609664630006424561292537565],
  [3131905052119218707481609685899992954864605500377673095263251680449961373893, 7532902780762231141673262101002733810327551978587160362625163139168760386222, 2559860257364914458505650128247159835167924422021839548335335961045870524858, 6345592654774100452964356824288564532865319816139643765242057529455820938704, 2692048279083507130175065963885760741371679768563542197927665834531862557719, 7090365190202196095478665819897793136318682578031271469054663349089003524834, 7094291356498480686484481148405726001357866349533798060121794881764833388527, 1285139274956105765812338022810371433737849447485295811291110129155913406832],
  [5818405929384196271490294854316103561040760115238036074460513196864183556104, 2478984403921659820779330758041853086572084837721689554371980296688357439984, 5726680988177683477825366031565143481781353226556712041344095491267271619845, 1005292384484754158301160352230484800579329260370398464335655194985477303716, 5510513162962542536735188020328367141198628429954418357896955179494268728799, 6889028777350930882133867127481619618465137705281231430580497743573117303807, 2943078866807784166111902362530467515604245861134914459971875822800333818869, 2902951553689895199340951935789394911948452369176324178086965046026748159461],
  [6496045963335609407699990210213425842679215543612568816416035224153909736404, 681664320388688931403198525127666231565111871009207963927812829028613867395, 7410817606455857106887714525979349044208051668858247275771694027966728507523, 1116930752938256281815829638357618001183523013912515648049112111487929372492, 4880202720597630814566594719895354902615225524929955063794798369740581357379, 5649218590810185762056420301984407249396248896384771700125879108659013571087, 6129471865211596943850436066257879953997952070775106010790781697612553681997, 5784774388104971329142226694014612446232415844650170659127626521159654127069],
  [5251473088718223035174486302416629894275830227065132038252577204246757070748, 4140806152275489490483178987225530344875924633263329084927887481558600583147, 3762741611110186206433983931321837850002494239657046514311564738857082059193, 7969534906303907594228651350747305131175670398770155406187750521163870579018, 7426338473503519563129995905173452183175174168786340456230843442979324388980, 390431309839670887869122250085385633177737987720392596150172248665736010381, 3251595254767339120027619118047784073337815218276927100317272626830951723301, 4368641163787059050710797449733096553525431861609949856178090976502768377791],
  [7232455478468343782294128900970837321849757411411388073835091126158006756135, 5077024506982212998921651242768051087012944567190982666077503457975411293638, 6286980235808400368962056340163728809267516250957518605554268842720898254370, 1419185614761290315961647907260460616419569151455586912964735101022792016993, 6696389570940781648084519130807070656047875390284624110905188963043692642505, 5662406265300740596909479661046165616878969066469349923986538496472785874048, 7464311426993136095027739416091108135521553557147523397366594638808555470062, 8045134423771628119010691868861757004799659347677266238103850251535325275517],
  [1428344322910864702103765997399920613059241142815397531387841324365476129383, 3878314403210552776057127605121450820469929062064966087583583994097870980644, 3152433527800500040464467968224588820459932704764355620857724327662022860325, 7975800135843885540177872875908556241944083430342197694659485414704501965809, 4431159126677192753337890651644634170317109874578936271283448729975236072970, 3665854086819538631140477488441288471243947316721576759896342089655390486761, 3623123841139102428746887483483463467602151067854477942058644996168028839539, 1663828617193249502470577664388862448104276388601150489978685033479076941338],
  [7777269872081686745121756478381667403080204808891833879684915749144696897034, 2784689596488509975631238863442409183418847111096782579765619848678310566009, 2015224587492131013443987065664955703061384775304452255262253356187218348761, 1858904943143030497959431280202138718933776989172621619403996917628646358937, 6931175312160581396915123140970668450056554162419393162319401577288156192484, 1485762883295993674908315365443959941025359110032436727041337345245299149740, 5763805723715479950013459134574555040671317042614247782836111299496461020291, 3269432728988511170822313333469637736138758516135406120924174514258870798541],
  [2266512058287686797095320845793670765008515584672364250460194265386653454925, 4313073337732060323125274096136838689031661846260615138683827347148919541684, 1929386499601777730351195893981522960574585141442985718832293778561598117559, 5888639873432042137090773684008372550833952011401295809870932538422413470931, 3491526791454577044703362571425950688031665181900461610371805380554208519812, 8298485786403526813951403325057075194853552951386659746210787620720702993605, 5592578744534317721027267451989561246895849309875196005919738015713100076661, 5082320049679190789561472816084000904629037841359780416115281439132477769257],
  [6975980927755124598653166768957328307053092502856357822854590565950340169237, 6318125046417710920304996751096689937511619631077945735519469611934507954847, 5650706305101435021930273412833358587544399434950378342935862486033251215273, 2589939063063528425253541334950770865017246253906459034116012745139097130044, 916932832555555750433073703910753615563059140788428403251954787969975103203, 2764735946177710797016193605464320807744622605088700544599043461641226827463, 2115544363180157317297638238434320189763236104533143209623519554363121045137, 2258500227900798246222639946726727627027792592718959874575660211831512180414],
  [1412384085135140662616588924546007758663703586871960567780220213859792930033, 4697043659929776374032061710856537647973464843422744292254148489846856774180, 4692550649005751186227065651364724820321503230137823381879173743217715348755, 4137829928063229725481646832366322294100743059772376410358755522346113743202, 3775977085265845058193947301347608245708480612197060410695161639792431741558, 5324182372583701093255137056300922116010210755779616027042175717877963810216, 3828273936020908596686191265472435574106363926692018489596493383212930838311, 7218276073720919440872271728783383730315904733905347361404318940627281344283],
  [458475043727989295427711937026845492234312385917037304982916495567797024145, 2866855365452388880241986478598487695997583053349423971374370200310418483040, 5758213304982075593694155769050764420710277960645075772355152425081063386570, 832069887320737021283220898213162928571710949055876632163056286309644508645, 4707096992823590615874693430718915640893751714584363577759043480585807482573, 2783698450013478896731022687656595000141951316279367640716029837210448298503, 2231644891463039802402271370872997800868937246448264095572058728532868452365, 6174381756407986371944983791171349756992830046759182812517130989704094580138],
  [1620957749201741632145177632550124981402037785494848180303446897325909910709, 4889161652628252008943366220663331255974882653269001511237979128222979044732, 5643085213654291211468736605231649914806190700138271958114367455988294178560, 6434371517896683758951792024098370928054172497589326264741218817293961664480, 3619898407632041731990865624942402293556691140401990776556352808270176482797, 7188782851962621977495148036441054863374273968783259996072355151573333130067, 4682798359431492571899309430342948704023216940821168314674433658843882387117, 1747117868405161799734293890467811454921456145192457015652777977584823272698],
  [1900399502271329243404228962672723927428905014763312974179251598437689512554, 3719301687444773114958474313538171258272063423808130625358364874197025223544, 6007125026524318561780293039728436777707486616816767122230711474192267689303, 899186590978764165789999623238703841551159025896815354054351936278076894173, 4541527519018718072418195206016798734034702418776754171517878170175177963528, 4312481872923806684284316349789738889002360428616248970160595384600824334745, 3699961440140619110768413461581127186179753340694638622891298704547836871009, 7136067906093756193099135854437443846028716191538644964357076207996387861330]]

/-- Width 2 over the integers, row `r - 2`: factors of the common denominator -/
def mdsDen2 : List (List Nat) := [
  [3, 3],
  [79],
  [3, 3, 7, 11],
  [6079],
  [3, 3, 3, 5, 5, 79],
  [167, 2801],
  [3, 3, 7, 11, 31, 191]]

/-- Width 2 over the integers, row `r - 2`: positive parts of the numerators -/
def mdsPos2 : List (List Nat) := [
  [2, 1],
  [18, 1],
  [158, 1],
  [1386, 1],
  [12158, 1],
  [106650, 1],
  [935534, 1]]

/-- Width 2 over the integers, row `r - 2`: negative parts of the numerators -/
def mdsNeg2 : List (List Nat) := [
  [0, 0],
  [0, 0],
  [0, 0],
  [0, 0],
  [0, 0],
  [0, 0],
  [0, 0]]

/-- Width 3 over the integers, row `r - 2`: factors of the common denominator -/
def mdsDen3 : List (List Nat) := [
  [2, 2, 2, 2, 3, 3, 5, 5, 5, 5, 7],
  [3, 7, 7, 367, 7075777],
  [2, 2, 2, 2, 2, 3, 3, 5, 5, 5, 5, 7, 7, 7, 7, 1583, 337781],
  [5, 7, 7, 7, 7, 4999, 2331032686627219],
  [2, 2, 2, 2, 3, 3, 3, 3, 5, 5, 5, 5, 7, 7, 7, 7, 7, 337, 367, 1013, 2339, 7075777],
  [7, 7, 7, 7, 7, 7, 435743154975972589247285835253],
  [2, 2, 2, 2, 2, 2, 3, 3, 5, 5, 5, 5, 7, 7, 7, 7, 7, 7, 7, 7, 1583, 9446341634396646950221469],
  [3, 3, 7, 7, 7, 7, 7, 7, 7, 7, 367, 4519, 218327639310585915312785421547057],
  [2, 2, 2, 2, 3, 3, 5, 5, 5, 5, 5, 5, 7, 7, 7, 7, 7, 7, 7, 7, 7, 71, 89, 4999, 793030972881424502733114716881],
  [7, 7, 7, 7, 7, 7, 7, 7, 7, 7, 43, 12451, 52183, 3928013, 222082350917035248435546760319287],
  [2, 2, 2, 2, 2, 3, 3, 3, 3, 5, 5, 5, 5, 7, 7, 7, 7, 7, 7, 7, 7, 7, 7, 7, 7, 47, 337, 367, 1013, 1499, 1583, 2339, 1895626962795398397963331049]]

/-- Width 3 over the integers, row `r - 2`: positive parts of the numerators -/
def mdsPos3 : List (List Nat) := [
  [55664, 78437, 0],
  [34103223644, 5973498633, 0],
  [20647731426840448, 454910630353789, 0],
  [12499303485563984579308, 34643630170671695105, 0],
  [2522186191348058241592357184, 879426295555347244793927, 0],
  [4580479764828352450567408613965692, 200917613123589045454753481017, 0],
  [2772831883306730316364172602998637650176, 15300841570351407310676661661468013, 0],
  [1678557061202514849655221849797260681005857996, 1165232600175195866396722411172172225969, 0],
  [203225722026207943086760073082794229479602175722304, 17747612198560456913272276350133723331569217, 0],
  [615121985538657609282940581471506530678360785509122195420, 6757829696472922701437467000151568494078286227561, 0],
  [124123086165974337286980792714370834130881095264132228731724928, 171547066709948941663103907581769956690885696049159199, 0]]

/-- Width 3 over the integers, row `r - 2`: negative parts of the numerators -/
def mdsNeg3 : List (List Nat) := [
  [0, 0, 1],
  [0, 0, 284],
  [0, 0, 78437],
  [0, 0, 21646108],
  [0, 0, 1991166211],
  [0, 0, 1648456271772],
  [0, 0, 454910630353789],
  [0, 0, 125537865359146076],
  [0, 0, 6928726034134339021],
  [0, 0, 9560311607722365609820],
  [0, 0, 879426295555347244793927]]

/-- A prime of 172 bits -/
def p172 : Nat := 5035313429233177725991365206272449831475738378188133

/-- Width 5 modulo `p172`: `M^12 e0` in terms of `M^(3 k) e0`, `k < 4` -/
def mdsDep5 : List Nat := [1349431655841433116458788011084291005492404158044222, 1394559765175329724194804186395944416421901502391049, 2422758548893244586858993328082798240632891762244024, 2840885851001471466919437998112691843827376555060599]

end Poseidon
