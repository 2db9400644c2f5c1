/-! Generated by tools/gen_krylov.py; certificates only, checked in Proofs/Krylov.lean. -/

namespace Poseidon

/-- certificate for width 2 -/
def krylovK2 : List Nat := [
  1,
  0,
  4222230874714185212124412469390773265687949667577031913967616727958704619521,
  5629641166285580282832549959187697687583932890102709218623488970611606159361]

/-- certificate for width 2 -/
def krylovN2 : List Nat := [
  1,
  0,
  4222230874714185212124412469390773265687949667577031913967616727958704619519,
  3]

/-- certificate for width 3 -/
def krylovK3 : List Nat := [
  1,
  0,
  0,
  5629641166285580282832549959187697687583932890102709218623488970611606159361,
  6333346312071277818186618704086159898531924501365547870951425091938056929281,
  6755569399542696339399059951025237225100719468123251062348186764733927391233,
  448025609483560764175423767585354274303554659170673941982119330577840323516,
  7037051457856975353540687448984622109479916112628386523279361213264507699201,
  7288374724209010187595712000734072899104198830936543184825052685166811545601]

/-- certificate for width 3 -/
def krylovN3 : List Nat := [
  1,
  0,
  0,
  2777289642034219606197391313199264192541406892450669881187587892168392371948,
  5629641166285580282832549959187697687583932890102709218623488970611606159514,
  8444461749428370424248824938781546531375899335154063827935233455917409238817,
  2158029113742805775085810817688617446907174274539371867139004105401115694424,
  5629641166285580282832549959187697687583932890102709218623488970611606159174,
  280]

/-- certificate for width 4 -/
def krylovK4 : List Nat := [
  1,
  0,
  0,
  0,
  6333346312071277818186618704086159898531924501365547870951425091938056929281,
  6755569399542696339399059951025237225100719468123251062348186764733927391233,
  7037051457856975353540687448984622109479916112628386523279361213264507699201,
  7238110070938603220784707090384182741179342287274911852515914390786350776321,
  5804801515158360370033947070587933961723980597967384499498857560266945163928,
  7388904030749824121217721821433853214953911918259805849443329273927733084161,
  4726552895860601779128161736568004516867343655648732948135970948242661004630,
  5778201141507005318073964471999595265450731119147086267448275485113856877455,
  2853304956960219983386573739129197284546021292408795677786844257201700305176,
  3196818384520016471426963296927998994295721850510828167676286707501995912985,
  7913723968634894435811343368828681427404523088283537837288667143722070580778,
  4414067272669893022611917162253840633983074970624384090182205669738717655196]

/-- certificate for width 4 -/
def krylovN4 : List Nat := [
  1,
  0,
  0,
  0,
  4818674840753210737944283235953309157492720618704782276814445238955422140704,
  3430562585705275484851085131380003278371459104906338430098688591466447514734,
  4222230874714185212124412469390773265687949667577031913967616727958703982658,
  992250,
  7600015574485533381823942444903391878238309401638657445141710110325668315145,
  1206351678489767203464117848397363790196557047879151975419319065131058431827,
  1746360,
  8444461749428370424248824938781546531375899335154063827935233455917406517441,
  9424622488201306277063420690604404610910601936555874807963430196336394236,
  263889429669636575757775779336923329105496854223564494622976045497419058846,
  4222230874714185212124412469390773265687949667577031913967616727958703473708,
  1786050]

/-- certificate for width 5 -/
def krylovK5 : List Nat := [
  1,
  0,
  0,
  0,
  0,
  6755569399542696339399059951025237225100719468123251062348186764733927391233,
  7037051457856975353540687448984622109479916112628386523279361213264507699201,
  7238110070938603220784707090384182741179342287274911852515914390786350776321,
  7388904030749824121217721821433853214953911918259805849443329273927733084161,
  4691367638571316902360458299323081406319944075085591015519574142176338466134,
  7660172258329447158849419988271610948459541813773804001817189139412379022583,
  7600015574485533381823942444903391878238309401638657445141710110325668315137,
  6167016004885567491648384273473796103216944665976149644037549281442714020027,
  1128974575879564963645964834889048031936474853393974045682827387721137036071,
  7078581309492629781014255492046436949751397235940426676512400999845286999134,
  5622682852927605248491843752624104832952014843657043591034459507203099322420,
  438009978548595405533756586750480361020983959780743072754991664034441850958,
  7373988208363578811089862133599692094147032820100217918962091592620563854356,
  7169218143230504012706697791334400918411532295996452636377876273773515214991,
  7582757448561452529314602371760331447927119705585604488286629677189575930676,
  7860024295706902698323217721630775825312678762878149234011626603692292399950,
  6384938663407725621049670057752308786004309376900357512214741078888034527817,
  3911583003368692312863023580194522341496874201405392282137283269129739712653,
  6534169381023340907387135893989031088442902233153331022270610385653476590286,
  6165445964976938525347972454646504608076287298675535601464006131478141264881]

/-- certificate for width 5 -/
def krylovN5 : List Nat := [
  1,
  0,
  0,
  0,
  0,
  4980215293010458870429804490160286046700123549882073555474987830668044900926,
  4464466291754930466580007333348963914759418322791165630631815996237022130682,
  2142480580997826553352273298753718091389085317033373908344710659669604041706,
  4728898579679887437579341965717666057570503627686275743643730735500357930622,
  3377784699771348169699529975512618612550359734061625531174093382066854503834,
  7117384857714807092150814886242870514040187885494032626391066037382158155362,
  422530158807761371046050295118669382806299544915345157354141135830626846986,
  4622447183081032828594871930125753228568916533037060878418850216610597536338,
  3040006229794213352729576977961356751295323760655462978056684043310154987249,
  3377784699771348169699529975512618612550359734061625531174093383685893749658,
  6025999532198156426508128616373926377425239062504928114831356775167760271711,
  6511316085148840928894034199029727349325649299301755855106922453655761191928,
  374627030338276797003038779102308609755585352323198468002944902388536359395,
  3040006229794213352729576977961356751295323760655462978056684045279754481265,
  3377784699771348169699529975512618612550359734061625531174093380518318971290,
  2807494413461111948454846831173655722172095313683951683941292238129386960064,
  4736443761087168890633735720987642296549187548131192621453626112739293491893,
  2032812246589665898491898948899412292280307403589814637852045290124159975797,
  4728898579679887437579341965717666057570503627686275743643730734795093139006,
  3377784699771348169699529975512618612550359734061625531174093383201085585818]

/-- certificate for width 6 -/
def krylovK6 : List Nat := [
  1,
  0,
  0,
  0,
  0,
  0,
  7037051457856975353540687448984622109479916112628386523279361213264507699201,
  7238110070938603220784707090384182741179342287274911852515914390786350776321,
  7388904030749824121217721821433853214953911918259805849443329273927733084161,
  4691367638571316902360458299323081406319944075085591015519574142176338466134,
  7600015574485533381823942444903391878238309401638657445141710110325668315137,
  2303035022571373752067861346940421781284336182314744680345972760704747974284,
  4898623899446136268869866245894868830719505973343669244202336347258231224328,
  7740756603642672888894756193883084320427907723891225175607297334590958469121,
  7814220327653267686541609524394462243548851903088994045905268687916247285761,
  5058686258624290890594724951879971021924664971074435367009430908802782549334,
  5107597632768186900606972037720441060213083069329792009602553941411461682518,
  7400529342865184912003241418648109861735506944511803660146622284576752472338,
  2877465283238355913231013991028534573240112693495412457121427596573040689386,
  292384575488407893225047500148883543874256389419111102083923174818297867941,
  6509004886003408569752676743245366138993019854279264691972146876885353237515,
  6773027528049213449501564388191367663503744377490683058445399889243065134094,
  4753273365861059537856325770438189619380636560235894226412110080718513498075,
  4801137924276790104688285571995227897471807997748821454894006184050640724546,
  1459399222217627824788265533248843176326141124960121850850768811818943992142,
  7154514056033112281437466029381272202424348461874651098140510584869766643156,
  4267965303751035305209187814224329804823054791535263065889156012575877310759,
  7150253122128107883720905645702719941624885199332852371143369236950926672105,
  1789181766698931700598733948098847074062978818812650916226868518883894500060,
  710212420222118380793853986998978011451059515765727537444719224612487116015,
  3173378674298557038668092767450656969172919884696168664863076537129524764723,
  5215986701820089864476576107046877857254183189515161712638833497307651868978,
  5154430087905475576617395355067935460832780602487017954629204884833875130870,
  6720891282659453193014320246792772397915197725022409950921017997852279176448,
  3234395668015742500753088970059937824153344701414789877674246208227774023579,
  7628895843654193343429179010460817733668969777267656756304784425575436491927]

/-- certificate for width 6 -/
def krylovN6 : List Nat := [
  1,
  0,
  0,
  0,
  0,
  0,
  6940046253232975577282861880210652280388853201644609706308928154145934353553,
  337901733559610104978721682770932816533373112217966884198293656338106572152,
  4373440244883012781704625588129285806883385881567393938434776535411246409520,
  5220212717828447171353819053064956037577828679913421275450936648133614353070,
  8444461749428370424248824938781546531375899335154063827931244677831880551681,
  6550485682018037760,
  1792326528521649420003226581485854333842160572921643968626419574379159118919,
  1367139579854298625751581945513373167852330095913326037703057605746771297914,
  857151340957022554188427028115355115178863272205720825086030390500600675297,
  3224249031599923252895005885716590493798070655240642552483962355791948387731,
  24494673848821263360,
  8444461749428370424248824938781546531375899335154063827895007599553606369281,
  4632806736540157917889227106098436620099739575017166061389128038331447562752,
  7910533006705318562672504865950211939814103047018312448138755130077728202285,
  443274806209208800764310309201319943250864573219421387026297512781065927692,
  6316896061910053719957562551608014028665607814349013980378406873797534682064,
  8444461749428370424248824938781546531375899335154063827881181610076871588481,
  88765494297456936960,
  4234378698962681928697614693390511237093062323848003628132045696185304545135,
  3101790239749793898790029571376045539770018348340030815491895003810352599187,
  476251997674599766911136162654013295430427162576575573258358263621331329351,
  7896120077387567149946953189510017535832009767936267475471071539625334061096,
  51199720021929024000,
  8444461749428370424248824938781546531375899335154063827851151803129092055041,
  5044254926646800463545140191550560027903263921627146432543723230541101248118,
  2248867772676104131567870222996716010378413304431675619925353048179999869259,
  658010006448963929162246099125834794652667480661355622955992127569028621598,
  7238110070938603220784707090384182741179342287274911852516202562957040869578,
  8444461749428370424248824938781546531375899335154063827917565034338280919041,
  29015590513029120000]

/-- certificate for width 7 -/
def krylovK7 : List Nat := [
  1,
  0,
  0,
  0,
  0,
  0,
  0,
  7238110070938603220784707090384182741179342287274911852515914390786350776321,
  7388904030749824121217721821433853214953911918259805849443329273927733084161,
  4691367638571316902360458299323081406319944075085591015519574142176338466134,
  7600015574485533381823942444903391878238309401638657445141710110325668315137,
  2303035022571373752067861346940421781284336182314744680345972760704747974284,
  7740756603642672888894756193883084320427907723891225175607297334590958469121,
  7794887768703111160845069174259889105885445540142212764247907805462223912961,
  1127139072254446667408636863103258490091438506471976289492110655592948473706,
  7841285910183486822516766014582864636277620811214487840225573923351880007681,
  7896577028780934486008871415967743809994963009242282305765626047170386853889,
  1374459018871906059132034270789774207256355043903052320142103805225710591090,
  3675947723901345574297554691269491554240893574674076880327467157022824366723,
  4621120769663893604465335180227678765292767555724464104366257554725057089430,
  2770684847417305471379340454073671892867670051077432682082505670760978410174,
  6322585384521339104369409334493430780699109381641603646051077241163067951960,
  6765827830275646279419058245770863316493879904400536791519450893342913555897,
  4880048681404637753071626875829200126035151005590286190255832372789475933929,
  2220171554468811939966436817944284778320534391110550859088300084877780752789,
  3553203571831513972835548379370808106996268602704275941490459913746706940996,
  1265568788595799513155022997414755480301169298350996204372292501434777801877,
  4614509848690152371250972282543328150228606572582618803204651641167124058262,
  3703471957826767805104855798243290155161668972267175037436997929971739150754,
  6288053819392969660937988116750464785712351126266027807185712988936547759964,
  833721840766554164904165318040670440332921594091893247794511209290793565114,
  2752882939122225948980374925295832394042263688250835123775135875058084705366,
  5770273556110595060310790329014755294897606656969581682915471686314841801502,
  4083094196251262967447828199961282215539392845376114949899820994406409202979,
  4855134799545578644316683976632729088145771002853137922592305550487070892730,
  4145318750295907286860030511329874470750238176747442764858531166990727842267,
  636373051845378526483705056328097519024183739315902558341713712805325022271,
  2556917905227673650763146490195275080844091114000460248814797315309567712109,
  325939851651886752733897524942671254038748433102984922779366300834077605883,
  904941592843758715609597285808542292026866067695028902009739078231954387067,
  716990063184089185838225604424970324093380880683651988062908152521278534152,
  7498941764569400687708903217790178620986701196755325286345217077966888496960,
  918450557295171811790939357666567490436156018136603284616259420550665081500,
  4510138047639173521017254071112676592512243187700343978967252377465797661738,
  2615488691726266175474992988643616218619386572395930791819032870244173724631,
  1836481303392030478766157964952642939003617374466023631027936747756404646163,
  5100070595740973578900000195996849824269695975755951989834155369140017496078,
  8340743349810850169563721335067328369218935311402946202039331169609255120151,
  5104428949292914515873603522194807693644758724738366764160957084250470357155]

/-- certificate for width 7 -/
def krylovN7 : List Nat := [
  1,
  0,
  0,
  0,
  0,
  0,
  0,
  4441482521833440374836764585058430361015561330856767506918599830757183437146,
  6784099522841949076628286136894184482030217660620216185043521707920528976141,
  2655182128860781895693543489161059986702458868318579974299641480194949388503,
  4604819222503164471645084393539699396212259173421149690578851994183877954190,
  5833936521688125709843740987471906622133404795600302573298662102025715416877,
  7681259667118517703689893238775051072271955080379719643502077093647663639944,
  4653070759889102070504454558104117476472434327523297533969021095309648748043,
  4421515936641426242797316726469664535529844114320135040906368684479364345558,
  2323302595364758982049295699422999048511285736937477563865941908816606360997,
  544537080428196743896033829851453620738764985216371237836387483014763963945,
  1015516900831585106001958733990329375920641128525886157244393772253829485789,
  1632621655583139181794903735442981955856276702749018504567256050749455504151,
  3348241393359353870839184232286560723810852214471310509995427064593885890232,
  2585039311049501150280252532280065264706907959825079881222803245250537731135,
  5140229329636376549631958128402441137383999164044806414747173522886109140658,
  8035764135632528402408042921905178570745288972210122313428473872771367893903,
  8370327991425176875893393641670897227779119099652883575731107343750855654534,
  3537603994933307623881181976348259728807731259952819162649769860406756218327,
  6140607529920830688715292743022194765600143882622428657682301655840233681981,
  541627284219895479106338625811061293557637858385374198707388918029057258714,
  8099789841288436937544791267810871162748311606932028216314791890088406896223,
  7285419878681655192330096323492421959081396422391797847294925483581447231224,
  5853641721560586699677268857965670748454308775974982328242790804653155490336,
  7048085785392024168996143000308146536180133358258255422194731040550685812451,
  4249575052221362038973829807606937520375549837742490698458063003769884738163,
  4634174364973568946127732992276235986633414302359797583878679806654187385311,
  3816010411549263602794658500032477295519721273676307433632528581628854459485,
  6893438162798669734080673419413507372551754559688043101459988554411268104360,
  5171054622828793735706291096563931194541197365120777363309480179225865423988,
  4952041307869037855810359204568924114775152684155854268014774726213120092301,
  3897652261024351736948535853150415121614332303077854738809432593517536775212,
  8211987929349686871599714989141648309544217323075985012968721440525535669076,
  6856269703196090262564346639051617129322140280708480764681153073075328177406,
  5243936888128988047711369422625275251262584718494666778483490479077795575731,
  3791390989539268353744370380677429054903465007348751915652124087626727530998,
  6888642726651996945344123945477778465611742995739127651125217231457847370317,
  483593602979900038420423724575345773971819849123304704826402183638979878833,
  4639703071036057877943268988470605574218028434863229419928926728336196733714,
  6579414922875260945173937203150136956528077693451684539080941242030456315585,
  5963310988399069006224733261801904611687039795773825561147598043178513584194,
  5440892264208950040113674377465661176192634848552246885182853390633444731627,
  5859422438378869273968572406501481266668991375488968735137624915148479187906]

/-- certificate for width 8 -/
def krylovK8 : List Nat := [
  1,
  0,
  0,
  0,
  0,
  0,
  0,
  0,
  7388904030749824121217721821433853214953911918259805849443329273927733084161,
  4691367638571316902360458299323081406319944075085591015519574142176338466134,
  7600015574485533381823942444903391878238309401638657445141710110325668315137,
  2303035022571373752067861346940421781284336182314744680345972760704747974284,
  7740756603642672888894756193883084320427907723891225175607297334590958469121,
  7794887768703111160845069174259889105885445540142212764247907805462223912961,
  7841285910183486822516766014582864636277620811214487840225573923351880007681,
  7881497632799812395965569942862776762617506046143792906072884558856248623105,
  6607230927285978031843492212830902031620845832385222382273934834162117068085,
  7916682890089097272733273380107699873164905626706934838689281364922571161601,
  7794224396582272456531952593618016498220524733570509484975351304593703503110,
  4132772932978683139819597847898779213381162498694272359799130730835832283083,
  4342006488226463984269728849405101423623474288164184952667570195349172461597,
  3417308778918315384587457579932204162022940101630320869947821266573221907684,
  5621335106481052373753203549250262951795816288790155266732558991548238140777,
  4567616755479391966393318813976097846433493016806283324644672576624503660880,
  2613042888536886701722863442900575829836644507853210684116389927535131158769,
  7160244489137236908811356264987163933771334730342307248833717158869624452883,
  4928986143030314372383208998527413539087158592570486006560279223915037518263,
  4258464271598763596639761262930787203500854454929436908629374038934003755895,
  7640676286548600728977299108130382778858144421942664712320230325021730434322,
  234539746910666828322185536898777410896490224220730354852181797191693328372,
  178767833365464069408887945666822694297500660141533373274287655477934186691,
  7143685935729915360914524525093034242343748998086186505418033666894716995298,
  4934813169358003895941673956583047161686792896331169350248605233535721074812,
  1120642907286282279431370895930564429299390487353662563249536943162041625646,
  7655253990103957203206348706823456430803600542532070822736701228260676263371,
  8056774234756885477418103210525313794023222315945266439429159482818114385908,
  7188063614497773632688004506201597003346169954266349426031641970673711271935,
  587720762696638552354961712406425912079267161686649302394721368981329194622,
  3818256155947189617526211013611686938679759756090202219337869381361613989310,
  2897094922352865401140480079685925499941279555122052933796908225745914424503,
  2214815186784542737228965784912857074395990911707813684789478145238096697939,
  2327263854527920512971910768459461533761481330380897770777777324151110251384,
  4791748615937279727714962063732247738047386441165484648927971417925423333884,
  3903306309550632669276128131418114143462009208125809699083500355393899988485,
  7161878588471453531586297541358947777341258000789686282628969785905761143621,
  2373011503519926165495275249668872829772867850411875556455059566704689991305,
  6321923737797573459095417804645132748464735186257512096178918111150376275206,
  3503076305515328453592981176144210444109451701235900574565790088529074485572,
  731549847206451849723232194435702521506954789178167683773057120472361579739,
  1965291671972131295245442040419107729066289457178537279354803116529605103893,
  7426883103707929032711055311497579654228649007812251000170422205959234078691,
  5299863599832505376849982799854177639463593924241305072938960832899440540830,
  5711214125928537885552230661406330748442560719305106194651157712926868451691,
  896151997863721387119288119170304949892681571780358447175497583177801202379,
  1445244438564722041235344024569090091830412321745453574951215457399289310486,
  935907302844538975228566705377118429695608717553641824636558591807612809815,
  7709913641035229183622064651378071016894603054044962760836842619160795089204,
  3325966429812521635063920839838583862943529865308418934378705764770692085780,
  1817556477748822769727612424831813096090626519550627449069293694053525754996,
  6458829423949511850414501732302499789780129936144368724990669979598377951476,
  6213792312536144541741582769396682548276240833056077030087711953104127940241,
  1457834376348121855217902888328038635013769858694993195566561681062129464117,
  2350990379286426698350450480727761081131627672755465690420326548936130663018,
  2841246928670903129736604816980436680826601413381617105653049020421470608604]

/-- certificate for width 8 -/
def krylovN8 : List Nat := [
  1,
  0,
  0,
  0,
  0,
  0,
  0,
  0,
  2070593424233577915356126598789692796573991553647844972961261796236415718235,
  4068113825122618007130524700599739940651561301381285292891964176975965819353,
  6523781543441039109670598341839894470812777027202459589423192333890494710800,
  347793077501802727953902808932128069878622998407223393832356317043613171059,
  5359399610103749420060196636235128898960456030932617886714981062566131231038,
  5816338449861377588130568197630146845602296974362526793611635662807233336335,
  8444461749428370424248824938781546530617255740032382674146171350109898874041,
  1278744973193026048829288727639767400000,
  561410631587077604982710142825261705518523275878396426442361190107050676797,
  3798999149868026074940640604423908388425227624212868910386370982782137993870,
  3067877193005500306973577871687794764370508526816582329599570872469093658819,
  4102029011430330068401385188394855372833947321865509655447397213032284174881,
  1620328373588833243631547430018534121237702625069826776904245900926807781399,
  4997742668029035557208488229074792844984886388591713141715768192260260487736,
  7431210962643189425621825195721962100000,
  8444461749428370424248824938781546518850091796091613542274506228121693239041,
  3580523394300865207945216047766265503158030916928469205203849625553795323463,
  8238368962737962470605540353578825268153548949538115548302137834649658337115,
  6343521686761443957954885757578077936779418111827735487845587856740358547563,
  5377692676161860904776217487764913319570899557919715719514922145930376965587,
  8211861822731844326215029591679234851967507096577263216032246654917822238176,
  2800459253636959579470273576636737370551465139746140659638152140959270189615,
  8444461749428370424248824938781546502182104201229627079074830873046284964041,
  49208111709016013019471223212491583000000,
  381002108128498834079346066504364498980591370089934999009955674421346677655,
  2235113943532045854800241265720740142368035062971062821932108331402043978146,
  6939700077464517811420861087044345038576971884740741139189650772935576638499,
  580038281144530279459419037279041056267595004854593306337749370661597915580,
  3393692633993191253701254606480495937256531597801874755682693239796686822833,
  3791390989539268353744370380677429053986089168139087391121586411935846405998,
  59210265412698762945921064271446730400000,
  8444461749428370424248824938781546431573001445822569669241434380837569239041,
  4954881736733243408952674210731825343696447732477644758179562184932438070181,
  6621686877237064463686556036301673940755949118332945906444245859367331835501,
  4693787121568495132650205923791100342198948298951042346283059593435526463205,
  3629849204689703099566290539193643448688978108434043539475225747128464605077,
  5547380315660271402274203687837772408122561498174755515391947045456965143571,
  6419514289106261189862627121828828741706454115426943721323828170876362439829,
  8444461749428370424248824938781546465694748155962464615070502875500684664041,
  110710012507286417959913136533188899000000,
  2848995298766400519485001299162819909714686348988305837252015236144053992091,
  5865632085954624465437591737179487864364558329049759614969856361080049015322,
  2182487752651009402892591484823357805130256974428305324020849439632881950103,
  5439636478941045589959006751983811346253944448738199103679543384340346238548,
  3415039678077649803924157144360184259012493595229419048851434947844065549755,
  8444461749428370424248824938781546530788401405236930968080769173128976207416,
  37918927953074470529984942647444322340000,
  8444461749428370424248824938781546467460987483200059216132646028468032439041,
  244205695005933461016857989420576434798553378598732142184791602601061883329,
  523764785247908236732653217612327847747805206607956163530898449759780670179,
  2709499998707011009698373810966430125184870967238390668041121370616975075842,
  2833205014701960130323275334507451431435126489454627736312391675461839959855,
  7839068351950968868098633445008604776369128560475095915034038729109165002570,
  6333346312071277818186618704086159898670235227060995528925526245026448311937,
  8444461749428370424248824938781546522448898615787476024965748376444530214041,
  15047062110705230245822894405266573000000]

end Poseidon
