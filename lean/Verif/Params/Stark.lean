/-!
# Certificates for the matrices of `vendor/generate_mds.sage`

Written by tools/gen_stark.py; everything here is checked by the kernel (`Proofs/StarkRuns.lean`).
-/

namespace Poseidon

/-- The matrix of attempt 0 for size 2 -/
def starkT2_0 : List (List Nat) := [[1176051956847107240720092743191536744506212303326360080512163156103164149850, 8402878543642667924723401420033811459284838550048699791113189260852042826292],
    [5535935393902879129094190749868598276367224136842358849250625741902371918397, 852045520402960286757476806137003380038111134742018251087010944117170670045]]

/-- The inverse of `M^q - M` -/
def starkB2 : List (List Nat) := [[5252923180100613091489256421719867106772666618996450631286083231748750866448, 1486166562780330958425009651108183512744960799599611040310854850337223719507],
    [3181751255832595855118266986028728263784550261842803811236019101764093600381, 3191538569327757332759568517061679424603232716157613196649150224168658372593]]

/-- The entries of the matrix, row by row -/
def starkM2 : List Nat := [1176051956847107240720092743191536744506212303326360080512163156103164149850, 8402878543642667924723401420033811459284838550048699791113189260852042826292, 5535935393902879129094190749868598276367224136842358849250625741902371918397, 852045520402960286757476806137003380038111134742018251087010944117170670045]

/-- The inverse of the matrix with the columns `M^j e0` -/
def starkN2 : List (List Nat) := [[1, 2808376642482737195793159376212180378071930166963200292216615677572142312055],
    [0, 4748387031360542404133698151100415875909922687261104475150796738388416795812]]

/-- The same for the transpose -/
def starkNT2 : List (List Nat) := [[1, 2650227739882019148139922850385616827920233616691455195772750238604528181203],
    [0, 7708398364496116332096192721210043858810367884955141008819186190842945874733]]

/-- The coordinates of `M^2 e0`, the highest first -/
def starkR2 : List Nat := [2028097477250067527477569549328540124544323438068378331599174100220334819895, 2553899685526031434054319399795539686463099348822983970509886219467837287897]

/-- Row `r - 2`: `M e0` in terms of `M^(r j) e0` -/
def starkP2 : List (List Nat) := [[6171600972244667473288275174471536717906132838705725119759951329818784425924, 4067750841266370632453240709065753558544881463101624660803963727343664320417],
    [5539586091297985352076156397186768991675856047471266941785689485753046005213, 98371147679287938360731248713808342443538475791718152293418272825418750412],
    [2826332088485696221806644771002015155844111899727884122972111610957469638746, 1834937940604708212417483691554134434410125650185683402657114403323251128207],
    [606104664410335006648942602370954986862702433694839049957390582899946210864, 5000104164280807110324885317709292750304961826256547373596603279249775322017],
    [4728250377128771238234619226215597861163221920259055191028537479114097809683, 2117025082773836880123569857989751628474287523576752927271806387310353151770],
    [8403562740351246805119405086052208012920053524347044479191768078615383338858, 1467518387724134026361060008058236780189417070157746013332112813094042317107],
    [3847451653849710221200114860036549208976458104860034648034864085918868664228, 7319280080483099020667561762789465626922248876602460048067321079850203996575]]

/-- The matrix of attempt 0 for size 3 -/
def starkT3_0 : List (List Nat) := [[1176051956847107240720092743191536744506212303326360080512163156103164149850, 8402878543642667924723401420033811459284838550048699791113189260852042826292, 4811768985211772890695110403603066421529029662509159174865246530735459231858],
    [5535935393902879129094190749868598276367224136842358849250625741902371918397, 852045520402960286757476806137003380038111134742018251087010944117170670045, 1975757179445587153504332846839733248013115409591135033263127279549863534348],
    [7538581871990313094722169407693099586981512115574584706059794064373804072579, 8068228532188099852215410265440892229890017298378596673075865704251484253563, 4490311258785448094966638742404772135519324058760425359537868315201320249319]]

/-- The inverse of `M^q - M` -/
def starkB3 : List (List Nat) := [[7450821262854257725075245205898559994492494828735550406621913708703830246346, 5102370299891880093650900807188491885881625086403842571448535688375319452, 6011719543742320147607736639373025882525788462316104758175279080168628644490],
    [4723964966481472504093611289966208520219106568405950139887321787983025238310, 3124020522929555643843592581545903131983366624285603314776176024838303711659, 5746159751885613944735431821825562970015579790071890593567995809875261599601],
    [5334114850490448141703474227456375687601326333374757806870889444376440167033, 1564179464775919516865685985681334317716827104768445767980831844347869863570, 4064934740751810496727869452424253587313995847553517221850802450113117770015]]

/-- The entries of the matrix, row by row -/
def starkM3 : List Nat := [1176051956847107240720092743191536744506212303326360080512163156103164149850, 8402878543642667924723401420033811459284838550048699791113189260852042826292, 4811768985211772890695110403603066421529029662509159174865246530735459231858, 5535935393902879129094190749868598276367224136842358849250625741902371918397, 852045520402960286757476806137003380038111134742018251087010944117170670045, 1975757179445587153504332846839733248013115409591135033263127279549863534348, 7538581871990313094722169407693099586981512115574584706059794064373804072579, 8068228532188099852215410265440892229890017298378596673075865704251484253563, 4490311258785448094966638742404772135519324058760425359537868315201320249319]

/-- The inverse of the matrix with the columns `M^j e0` -/
def starkN3 : List (List Nat) := [[1, 971247571302793583174699603897349574764847105368807921053360264595489693724, 3776341421164329766891931492451665347895997006245985008408641099750493277387],
    [0, 6316142334846374815971484721635150268186533659800341008218974222714162753314, 1209362696920847105358980919450890055963483238429382414895751826071374096677],
    [0, 5741408327602244710208971475456697551202583951829184831641604095369108853906, 2910457053224187375133575602196902666524929025901508263892335282691613236478]]

/-- The same for the transpose -/
def starkNT3 : List (List Nat) := [[1, 84024039895303270285512946384857095221762554807859046931692700040472221159, 5453210016426443310408011279098570701266870617716742676497185445453020889056],
    [0, 3391522198867421338591651919963013820347789939285718225638380999796733085089, 3663051106103483450491810527019581581364481864849693620120606203804651437655],
    [0, 4803124117090602669348819365790004077389470475421126105605655994119578991831, 8394402167237790921293085896833192120629619374227456323076852152876309549787]]

/-- The coordinates of `M^3 e0`, the highest first -/
def starkR3 : List Nat := [6518408736035515622444208291733312260063647496828803691137042415421655069214, 348856582611288924814716636458889183243859039764578583092723985285951233372, 2853938830829354178298905310369990082476014541102317414569945812914162239470]

/-- Row `r - 2`: `M e0` in terms of `M^(r j) e0` -/
def starkP3 : List (List Nat) := [[4471066279734847021951706705700439812278434991158498754061959353814200929204, 8114104552360171000959285560259688505568448956259226298576538159355349816032, 4398431417692900090309033227490034942285508785033206094958289909395548511657],
    [501458896204388375430431505798554769479229797917743065034418072865128715557, 7845978206160227373129379089169066600022447045635067825288910302255089711095, 5310292740168974427999573662558628779753753020682018764952101067842303403557],
    [1463687572579047376534826846775043572873759377603074399471634768835788933149, 1889744925773964196005867626821145120078684798844391949772551163966013969124, 4633921443150678116899626699941794689884275058401679892085363389040205787614],
    [2772413914754288800840360017063544567743540705443062331440914237003251119440, 8428890049347548806887234533955242360062015711562023164227577048894531923731, 1222063750620844728805771459273122125148182292741859115190615645284502759526],
    [4554801855527022549230659491047220460348884115618400562230934336921233210397, 666272505445740081611901810712134069438158469265439919947803041996774086344, 2970591654709718345544284470648657524317570352471376188374516696099476286189],
    [6545913656061752541523729977406054510130346822874281403080968084887804975157, 1332817813678530113779526283650397268399683875025644629890419334066855363947, 7440476428658506560886494570298684418957691858491762422499360427405417737766],
    [2177607916139890963133747770581819988842022348207796820295699420686401032033, 4175026144929539023467953527842862498521922843026367273363733235317637116333, 6625743052495389455196842222403642349337289707538301610266484278680961904087],
    [7281980823714650135383372759075997943826766402740986824110454112404459637910, 7028269644635129033473902732897373976518625514313799802201079546658811594691, 2351157309133056016638367272506627413621215780701260784204576746124654271175],
    [1218958308311215934163821929803176794701606208108576956120096867307357587798, 1751422541121084304656761159152993265406905027278449668699541176885535927271, 369711257878202113800514063997666367336215002635357776378536642268789052207],
    [3355500884296140860639125306660846103146091127602797559439278583050036399921, 3128918806576890518231289405702081609246685029486642961877985147468989286847, 6147799193118602481930573039563433117986405272570013364646928639455201074101],
    [6677024610306139935137412095769032859797986294412990397544990924640398104349, 8158621503361962625910082938675991582069133860376460235473399897065884976091, 1651457620204847428237824292991642524639110163796850922092241490729392883775]]

/-- The matrix of attempt 0 for size 4 -/
def starkT4_0 : List (List Nat) := [[1176051956847107240720092743191536744506212303326360080512163156103164149850, 8402878543642667924723401420033811459284838550048699791113189260852042826292, 4811768985211772890695110403603066421529029662509159174865246530735459231858, 3491060443190940448551743563124468580352653886511835586373000083690145634006],
    [5535935393902879129094190749868598276367224136842358849250625741902371918397, 852045520402960286757476806137003380038111134742018251087010944117170670045, 1975757179445587153504332846839733248013115409591135033263127279549863534348, 4969776798134479195755944320592368060376369976206298444384447628772768875992],
    [7538581871990313094722169407693099586981512115574584706059794064373804072579, 8068228532188099852215410265440892229890017298378596673075865704251484253563, 4490311258785448094966638742404772135519324058760425359537868315201320249319, 3972627526893529141265572767308938827338210935036416472928422756809189099260],
    [2475755090116208188350033464654743026594381211312282026581812942238984164656, 6695315029320763806702142768628269856101567640583453279462511620344557143987, 110254655584894384643836735748241854861896392743903946539601281576026246422, 3704194883688904544883107644979215233303334745456272062031135715253097584481]]

/-- An eigenvector, its eigenvalue, and the place of an entry 1 -/
def starkV4_0 : List Nat := [7146746249386061032463517537991620104592839327958376297641231383126403051829, 846527185185088951574347844097291341489791559426756225337272629145223675385, 1407026705922608557078839882307174721538577440769523517908983195034644306141, 1]
def starkC4_0 : Nat := 7648141048339516257904068483388247667358091649491540105039004810596356952686
def starkO4_0 : Nat := 3

/-- The matrix of attempt 1 for size 4 -/
def starkT4_1 : List (List Nat) := [[404571005720710758917952542102188141632925492023284634218779532955647621085, 2825842983524553620544395431706013320868401364721066623450260313383827487206, 7460994105698878465414169445305824126086997043227412466791915403198589757752, 8242773904102324421527287350007791858934319347326366836395044138980796935606],
    [4905034045432375612115794395969198942437258653209975773623763330582711240297, 6559848426036244266318754037733852411437289925888736621504332524252145359058, 7786630835604991136508253271269363068305280772838293133030931708599899967371, 7428699022136995580231146036379041992602104341879799509088961245826161691158],
    [6767400842187190075374991218701346247124130218515822835668915203767947970722, 215446169755863817010549660120790827713072416229099176873396793812402925519, 672066471166840632588411510740703526007097043043288776924746811512664490646, 5385927620493705582085278823585867802806998920576396762281958961421319508007],
    [2966477112622082468391141318220279616167638225517293757765754078575744969985, 8054718379289912215468126315300731290936673044823962700292400034688648279427, 8308373316915523582209156283088641331778038662853007003254477239916183657361, 6626681293579679428240785279553788672028348140048656961122361358271476200667]]

/-- An eigenvector, its eigenvalue, and the place of an entry 1 -/
def starkV4_1 : List Nat := [739100354296718326527020531327591768746824748138303804234567189471242564065, 5267647102363055657709558815104900908370972593612024249312849790799311144794, 143717137695195426081699684745150443902347147531956790170060763367502491823, 1]
def starkC4_1 : Nat := 562632769666149155018995912347423382135487091359075760640821732930574570096
def starkO4_1 : Nat := 3

/-- The matrix of attempt 2 for size 4 -/
def starkT4_2 : List (List Nat) := [[3112925236435683242371071258551810715663224704190033055759399561178309878622, 3826712585725033190374017522401217919165733232883853962064117539811460916395, 1174745283730072398173866916818211802957638420795115460173119914193566370641, 7368247161873436113340833597655688624107266779212405285056128277321569066780],
    [4086587823080459442283808702007339143811405138713778195661968711853549697517, 5631266975502578439352943226310703149319605598890740834809496317979572792100, 5148902127700344455598821624283173461297454145395320877600333748473975928681, 5947190074850597705038319360845895773165916837886370540852130971120981609956],
    [1096848266792923595807440603677577032897070976109009018113358654973242762895, 3551372186382566745742719714779130380743921638774821506588373387735477913121, 5088193278699768009554220523523116435455373304834032974271154172035100570771, 8029456723907600753959820034824168033135665691918170617841090524548989665774],
    [8046189751420715145690577052064250944358242635883241130544725394304165446252, 4911753874901799379068183746240894415192736492544975579342251664984005607507, 5984133932876276273633457488809635194916116919604220176186827708493410230038, 4434219415228609726228295043856158344164464387641197015858693192417292612863]]

/-- The inverse of `M^q - M` -/
def starkB4 : List (List Nat) := [[6121574956890107873649837014926218903379973191455863375591898581375021020756, 6511988512108209963927303654852047199838827062222485658988643680964445440405, 5951800483526748902718472457642782268085883152996096414589050976168830783237, 550504143415833112382229936805902380381944647556288035866822753272224250669],
    [8176959378496421452213555977794408759425590336890176480686253201989830349476, 2700397861161517693590525195210519634314166471655418622145944619717490237733, 1572977007159232870478199051415663432036696132014852143063214041939105760366, 3597605198024786644462561533361420356239073666812910935349149307233473728112],
    [4947833963387451055980013330331286511563718939393974841701544870784719971838, 7387322362016791600023885339622352474500661420674308873953651754171805995242, 6496860897615989016766730577884271282975839966343272071084936108077396914924, 5099880216496461494767441053723086078428216824700038940855444030908350382775],
    [8091254370999649567173086091954652031274988064832679208177335946379960829010, 5944470011684801985344990484450707067034212290754088048648842062231101168226, 3585803671568688213763238087582943351173453486128904754863228334586110842478, 1570089783189126264490557089542083242081819040853573587047687602664910304669]]

/-- The entries of the matrix, row by row -/
def starkM4 : List Nat := [3112925236435683242371071258551810715663224704190033055759399561178309878622, 3826712585725033190374017522401217919165733232883853962064117539811460916395, 1174745283730072398173866916818211802957638420795115460173119914193566370641, 7368247161873436113340833597655688624107266779212405285056128277321569066780, 4086587823080459442283808702007339143811405138713778195661968711853549697517, 5631266975502578439352943226310703149319605598890740834809496317979572792100, 5148902127700344455598821624283173461297454145395320877600333748473975928681, 5947190074850597705038319360845895773165916837886370540852130971120981609956, 1096848266792923595807440603677577032897070976109009018113358654973242762895, 3551372186382566745742719714779130380743921638774821506588373387735477913121, 5088193278699768009554220523523116435455373304834032974271154172035100570771, 8029456723907600753959820034824168033135665691918170617841090524548989665774, 8046189751420715145690577052064250944358242635883241130544725394304165446252, 4911753874901799379068183746240894415192736492544975579342251664984005607507, 5984133932876276273633457488809635194916116919604220176186827708493410230038, 4434219415228609726228295043856158344164464387641197015858693192417292612863]

/-- The inverse of the matrix with the columns `M^j e0` -/
def starkN4 : List (List Nat) := [[1, 8096623839529491286271723824683226173549627870410345599692865118803787669996, 3561557811375444700498865738201618395371393279442134779067161065145452536299, 1001179028060902112836250383982715050515535911927132454280355299359283296656],
    [0, 7680573102229605629366457238536336991842239194152605290794011603298667487229, 3663016071251790837479413448151033639258964349219788727555567524274878074107, 8327578838888899418300876918361150357915356726478660281793001178760202333920],
    [0, 3385671113043017158593182244569501231046822044742262888803535667210138053298, 1381048925018929461974420873596427244886085381626098148598170126206775331830, 6374925626008158982010968535287344347941337545763229341335912731752672017518],
    [0, 8146557320384096553747993824386082880510490661404558882662704765454320762280, 8435835342056508304381363007017229819300710219581217517569862791322846340493, 5687653563044323751366922380459950524146805157436866789122036993042713776229]]

/-- The same for the transpose -/
def starkNT4 : List (List Nat) := [[1, 5755887803513546360951507611284857538504181790618958685523110618147133677985, 6815171038970911993182225081879917104155838112789044787517251684552692848971, 8088143724750411985907417012248449015867556603122540603834841635243042401261],
    [0, 2659027923977289679466036775728875236703915573998203383505596156394997977967, 1342850701568827027073760639281442542292228347894782711070510739445985318139, 236430017545202179785354318807820303748894508256344160746474217566912648728],
    [0, 3975946308069770362563261795917600292705320637077055308139510339736169012144, 7727083932046165074889183538637643666612486068427633171443112697621154286035, 6615027030261090521929616436088790962858020758984420737499105257855740014931],
    [0, 1706903059538158477033204161167577360115739353093243323063067069183026371576, 4011438554361721932662325415160897329711815248999587901754602464429189536445, 7368741264824842593899149946308444461344507535116096213694670197139902352142]]

/-- The coordinates of `M^4 e0`, the highest first -/
def starkR4 : List Nat := [1377681407009898569008880174678695581850869325247876224828276331775457376274, 297650730814803488648067569906104841140290548591131374581774746049425708, 5507943349869684369470954311834906754220740235879579396095698335357570030043, 770370285730571407718442442427005937194521884408434722535991760984933446802]

/-- Row `r - 2`: `M e0` in terms of `M^(r j) e0` -/
def starkP4 : List (List Nat) := [[4308769083658183004079358903872289700139078631663118327877052393372622105014, 2383057832013796418603353763086219115519265244826143095078263944431808745995, 2556739082799167462855895869074136350084051592295702933102649493067902087722, 226591331234518195503041664754189353980100931283141192047154247070799205685],
    [1815622127485884584736870705930475633368159525294102507245491157419354739168, 7486536472595482237322696682561438753581840133311007344521438127643746297338, 5190859340537112427141278625449071692042472382391462191466405017916517071997, 7119359960389956697706750048426324494128630377579340480936926194888938168335],
    [1843495291517229674552936881598244483002203835377823659626713514920158077094, 3877337651040582360857307497073668958649832171592628742576226090261125717741, 6665909209541874479563615382398000562985849053834963869189630247640254874503, 182677140093923584748689272215306469649097363746141191226940856812819403828],
    [8033261561421917892695817754730019542930460736785234714273148795172407659009, 4266024957246606181817944052243148863616934885903151584864271764606316482557, 8215626366328421162140953860518770600988100631800787473811115789749407159006, 5006616652278109896630218018720025420666544259931307628449805824639984744],
    [1195658251372830378967445465169268460241315211927431662899106828732700323900, 7860579746745948926305625578234108083897483964391618103128699405302705481862, 4029776637081974304167039717894638425615663982509707207857290276280242456560, 119118272170984206669561901319145067662775384839941155352844115704297538616],
    [5612643577022925373720566396908971385982562634326428623953534886899444801282, 2924942126995250869968554408377375305693584326938789870523034932313619197250, 1757005246699129972867702676914672489209664612973897022705054303120151794258, 5016762120502528302986588464072576568002390826304468675204533129107346783753],
    [5761637396933980379947239415559758434200897996609926371334932940243884347090, 7918505616833017458598986479472481291062133877011651061400356466037141602067, 445746662361022263940434457184035622344923080445632412407628455797430268499, 3233527690629691442103370649689921658653482102356107486793539095636425243794],
    [2420341503793834227113832615777305809173534921284051350216807765112731293123, 6496395081592354451067638282025416604522915155011078416071947298140242677704, 7922492670252246687450163315762863481558832436548086505510781173803903404605, 3496567208230705047748322798846809973018304884869093169727072795961279141201],
    [2079738289688019775421320389893291019520171354299067346301092887461215107102, 4164790107951965356719749891488504112075776970662408027488828080712017355901, 1568948780209322858817316443994813878806746757323859956098110290681176718971, 7441812548822368479740583202651397222435358096701256572959671891488138791075],
    [3403024622268777937333675691381906246030473565116762718729540623244361893913, 3459205594653917377996422945755404202390302686203012422365494282372247912522, 2712131304477949669592755087447267064529982534177126233426492328823341499144, 2641989392271813522039890003333296328421793741355494513217378969210022397280],
    [5925670284192968685731320615123873374504777879757014899629683535833332401033, 7832549182883234596255327735643874679059012328930544344008737118319246348866, 5441357549289862264177610173008689322822736841847923424806442989847952203644, 653732778370607208110574720839902792968004879648764677621673728222060170254],
    [1695437413353386776913553021635462524203664127090871481648885243022652414519, 8204086230329147545438414279295978327384217964182760178037812973110743015335, 610616396440686520443536206206759162100146437794130676605911338909151141689, 4175823357712222301013487632880424679899371657478340424846289300899482281766],
    [3911614291391510365939730062541562195989796236524249453913107531576998650702, 4368272601712667180597203645157656800899395581189183478602592306890866235923, 5282883161606546758058890542658263008355414242083215340877516792192312812150, 5516947725939319715199785372915223043029548214771169747713056011124643481937],
    [4793264155345765455157863266165657890670463477725112806185834931274445073433, 1739540620426527023876799326559809467528532396829091440735602884117937142409, 7294527665782959811818257784634056342031172559734184705888738914768455936807, 2927012543329022528130460257331891250398738023231338890681721354013979718460],
    [1722663711501194626846045177459466271597154890224687008225967645421283570864, 7925020108309659753033311531685077865027247572637806119812152485805899907341, 5662291031471380375248496188093884635789549775838972191148863613390678032748, 2225752674424849181767602174892220105132826914440864004392442005041620385273]]

/-- The matrix of attempt 0 for size 5 -/
def starkT5_0 : List (List Nat) := [[1176051956847107240720092743191536744506212303326360080512163156103164149850, 8402878543642667924723401420033811459284838550048699791113189260852042826292, 4811768985211772890695110403603066421529029662509159174865246530735459231858, 3491060443190940448551743563124468580352653886511835586373000083690145634006, 6956147319446992853493460789833177448219120011607332759444698358038891635836],
    [5535935393902879129094190749868598276367224136842358849250625741902371918397, 852045520402960286757476806137003380038111134742018251087010944117170670045, 1975757179445587153504332846839733248013115409591135033263127279549863534348, 4969776798134479195755944320592368060376369976206298444384447628772768875992, 1027708638586191412162120507084906764733375555996260051724423414475677199339],
    [7538581871990313094722169407693099586981512115574584706059794064373804072579, 8068228532188099852215410265440892229890017298378596673075865704251484253563, 4490311258785448094966638742404772135519324058760425359537868315201320249319, 3972627526893529141265572767308938827338210935036416472928422756809189099260, 4389985545309448414190554185994878552886937106151469688646417604259285151485],
    [2475755090116208188350033464654743026594381211312282026581812942238984164656, 6695315029320763806702142768628269856101567640583453279462511620344557143987, 110254655584894384643836735748241854861896392743903946539601281576026246422, 3704194883688904544883107644979215233303334745456272062031135715253097584481, 538873501457949039034245307849891043541043849181893279735616813591458325855],
    [4207863660747664999376464829501323453842191432785905340829872227444902135846, 6785305573281772344442505964326092425041710099482911721113110717912808169520, 6107861358361599254360923767264776692547447073533748082514931090223565974493, 788902895328059093671651768300013166095702874152302084950259901361114157234, 404571005720710758917952542102188141632925492023284634218779532955647621085]]

/-- An eigenvector, its eigenvalue, and the place of an entry 1 -/
def starkV5_0 : List Nat := [2404802843675923600013919909922531209601164600900051278743304182361625150427, 6018330709094767871533359399094056473671973854286583625827948346265830076169, 7521633025306182790861017156214582700479824742134517428501951186629993588706, 3184258291659240569479595362769852656774176237907140185275018924248349087092, 1]
def starkC5_0 : Nat := 3389211816364573130312544696544922008839961729530348339422903257801097677988
def starkO5_0 : Nat := 4

/-- The matrix of attempt 1 for size 5 -/
def starkT5_1 : List (List Nat) := [[6559848426036244266318754037733852411437289925888736621504332524252145359058, 7786630835604991136508253271269363068305280772838293133030931708599899967371, 7428699022136995580231146036379041992602104341879799509088961245826161691158, 3947256154255559126257286466480597797613292023236275549219423063452728509522, 2399773685267295765180680106329380849044669230272582160824372356850842670466],
    [215446169755863817010549660120790827713072416229099176873396793812402925519, 672066471166840632588411510740703526007097043043288776924746811512664490646, 5385927620493705582085278823585867802806998920576396762281958961421319508007, 3166870516933037094709526418876921585128925228864722197703602614347982369201, 5563007254381249144874671496644828623298286219868933533865833143447058544536],
    [8054718379289912215468126315300731290936673044823962700292400034688648279427, 8308373316915523582209156283088641331778038662853007003254477239916183657361, 6626681293579679428240785279553788672028348140048656961122361358271476200667, 7542719281183663764513416673919703523522641297579307958935831505232827825555, 6327791412065253665628625392513309828158657655024031941152528116821268257979],
    [7619281641515767326368641292492345327893431647676517763205359369812655123782, 55794491081052635055923792458143065142699433121911054081592816776269649982, 2025067788465478321435999159099776332761612529526264343030986416200908291564, 3112925236435683242371071258551810715663224704190033055759399561178309878622, 3826712585725033190374017522401217919165733232883853962064117539811460916395],
    [2169334592295554149671817872794358151091573342620612130865918414246649429781, 7825671885206988988950540198300969521586370431289052737602839201624872123928, 2176544332342101821613238372838361814461606188184989528586185293982482025036, 4086587823080459442283808702007339143811405138713778195661968711853549697517, 5631266975502578439352943226310703149319605598890740834809496317979572792100]]

/-- The inverse of `M^q - M` -/
def starkB5 : List (List Nat) := [[3437556000771423524091487873964887940000997316786662857227129208961981666303, 3526241723681232054620849301371940428308788418684507334725483974999095333902, 2536846302341246382636015324487636835102208748921680512487760601478019505876, 4312241470839023913276483276331516875292042686476161986041846407868398006546, 2194681718151608357643492898777989592430246221622880797132850800437705861287],
    [1500468305554496475625765116938237548349927990470230682763188004461393810180, 6735534410918586661665958502340484028145115169551478439181198881797641810031, 6823934162063053066745735440923460785400243436894204199364990471736964297983, 2864619857351044039774379088144443394934996007693534651479276770366342079709, 5170634541996905108527963544068947587190615261272932204335118367247746189900],
    [1577202730198026065671894274595287764466922895312801870199128886452390709364, 6703354568575262728055829549455537166672159626009561546993653208966634984971, 7000583273367337131731328855701630452170199135020234003912776492981751720362, 8096845550675873036601326602475286493434158410675772516204883661586741216007, 1087533136862925419302487168498223192197839880661657306892852864154477493612],
    [2697293411787714765769733435617936216426899804443795117227706478321995092441, 4209670814300079668301741707239797016322916513395863892329916122557835848569, 5036266628164722910610027781978179849122794409236246422569652911999731506502, 2354689874791746721700829891735942870932200079146125093011483027388908934731, 5160215380163708236909882329168213490564483955545075062176397897609175959089],
    [8065224818071108208588362390271863813130384062151866308197134618069886271485, 437652198094687504382211276775099264786884916069152894553232169727972198752, 8294935241821541141592689043482440806280154434139816979847037603997402572693, 1688927566700362039290908509095801649963501289807936795117477185266866834911, 5829840668430520065892556036749077041886646028779283997799613788317615356310]]

/-- The entries of the matrix, row by row -/
def starkM5 : List Nat := [6559848426036244266318754037733852411437289925888736621504332524252145359058, 7786630835604991136508253271269363068305280772838293133030931708599899967371, 7428699022136995580231146036379041992602104341879799509088961245826161691158, 3947256154255559126257286466480597797613292023236275549219423063452728509522, 2399773685267295765180680106329380849044669230272582160824372356850842670466, 215446169755863817010549660120790827713072416229099176873396793812402925519, 672066471166840632588411510740703526007097043043288776924746811512664490646, 5385927620493705582085278823585867802806998920576396762281958961421319508007, 3166870516933037094709526418876921585128925228864722197703602614347982369201, 5563007254381249144874671496644828623298286219868933533865833143447058544536, 8054718379289912215468126315300731290936673044823962700292400034688648279427, 8308373316915523582209156283088641331778038662853007003254477239916183657361, 6626681293579679428240785279553788672028348140048656961122361358271476200667, 7542719281183663764513416673919703523522641297579307958935831505232827825555, 6327791412065253665628625392513309828158657655024031941152528116821268257979, 7619281641515767326368641292492345327893431647676517763205359369812655123782, 55794491081052635055923792458143065142699433121911054081592816776269649982, 2025067788465478321435999159099776332761612529526264343030986416200908291564, 3112925236435683242371071258551810715663224704190033055759399561178309878622, 3826712585725033190374017522401217919165733232883853962064117539811460916395, 2169334592295554149671817872794358151091573342620612130865918414246649429781, 7825671885206988988950540198300969521586370431289052737602839201624872123928, 2176544332342101821613238372838361814461606188184989528586185293982482025036, 4086587823080459442283808702007339143811405138713778195661968711853549697517, 5631266975502578439352943226310703149319605598890740834809496317979572792100]

/-- The inverse of the matrix with the columns `M^j e0` -/
def starkN5 : List (List Nat) := [[1, 5595606786368659015764945048229065299889725464634922790017032003786041352039, 7148331009619862649558594322051121081411358659572718296511636384799522183959, 2461433910168301602626280724691307629246600468410111331383334282757638919141, 8299321952142778755442019048367479134994851981055874206577665711320099162692],
    [0, 7126117566528668613472503052239265185837568390300486268606416700373913571488, 2900834147105120736373780657213436602304354400722824723172501647204210691766, 7414424644545653925450828199141570184821030626392523221094465941880868197648, 3431282250365539884205412366288281678032728538698863536312284556763269546109],
    [0, 7539460679381172202896821210949967113040099948744492647622849319958208723235, 303815855698694030713239843962732990937634883894884465912817902251893084379, 5153359425949692074189746918728729629165239457706361809208737236538172710337, 1793660355390085163113494945525149350197375179360266297109809953176057328019],
    [0, 5520492266739968603873171700205819010615364698818064880225006923753928935100, 6666804683534102025277539219096584883350110749448561451406075870564789698995, 7502396366943784211898299897531643696726099886770298215727467304496528334019, 2545613997189944286603171093102225256690924632435163504559957322533117868002],
    [0, 1527686160054810266519535746947701730891050415516148008591070885005945648533, 2490060915472305308916194961489097074962500843515334010912264539459445646043, 1863079750817273367677979722764000985881636551325973877979476612917638457083, 8440887755209114007966135528801660657690912415628952936867221653247730513826]]

/-- The same for the transpose -/
def starkNT5 : List (List Nat) := [[1, 5452125969377867451716133419756216152791462117083654262274968794018241928076, 4192383347189758892659092397490281917991452562835464577968954706583431422194, 1315096657445754601469799411346229366646338246551344181588325447244687179265, 7462986202846736220866278020776315541970734318007475032688034730616821763156],
    [0, 6061741372146511362226022966070665893740913529465902035878300396584142453327, 5491696486325876072293250878556013386744725422585601562654747727601362257025, 8219972479224070232173778979793023481072938888664244533922272237360306881059, 3352399221952293777777385757471223367306550041412884250368956976136140440829],
    [0, 7308312934084335848383628369113256712075996037996882423995181644751946569921, 4529196065846050316709916882774768483620742406906585831447352056316226984989, 8345985252544023474998755055776339261617427888388135319412172942523749226587, 6050242375069999509731687733389417725227563685729063291464810037633953956535],
    [0, 2732058447373761322999508622774858004393002110106623588879539932614346317150, 4377181240705967600154148275658993113457194042412408523242511257158947108174, 97889929830595697456743562042069936803337134946668059774819231400996725848, 3006991973898929677187068185860068535103439610958787639668245985119862586406],
    [0, 5289410151031746788815997362042868130071400549234760329368903588186359207630, 4822786054667200307709980098597332361354889750486603054191149319354104807831, 8303637386988552553781764390413287698988475250849628357340209377894877751767, 4267074788224468750313220162969555167255066082935366329206621649347669343055]]

/-- The coordinates of `M^5 e0`, the highest first -/
def starkR5 : List Nat := [5713864903864285160374315435327765411703766741753328594249869661359350243011, 5723023422856028657664645485242057876826451776197571785752802454972433534799, 2698875854496641119730367500686787085003590818295638951717055897544278720651, 8238886695842710670341949934662891455456239071733354351733822110210367132846, 7243008953521220161686246566556354977963273798229193904982643009005824014708]

/-- Row `r - 2`: `M e0` in terms of `M^(r j) e0` -/
def starkP5 : List (List Nat) := [[6305007563036246241315182502810939816738873336435934628763153696604036379708, 5621601861732717075653594571656923700259390645961213065062994617964120095513, 6212348677552460459527390543384899822477156645915111780087273438035241277725, 3719766923203624878100775082013541446773259384438568948094639538895520531168, 2906617929780605961357111554320651310807701811116632526997133674050935237625],
    [4874746540939900847193421096836470395005129515046621328949303896876502707623, 8288302093067955923763445643973245016378124254110363714244500514849524588436, 6045922579275836068857284516925580503503675394605962534527311470150726219371, 6239461606134198285473046744304100113986546365159083818119983898824851147587, 6233918678341720519531647807480938283858179587800370699509858570712435730489],
    [818205316372854714512888753378368498607420207633433583708769253483419392518, 3022639435971322942924926721384289260834780872104961949204036891217638525017, 2210665755034642916964171908366274799990417621796226171816318305073914757494, 5703806130700682480785445357749800110360376177682789404443752238070664477054, 2709785293584976822218055057445979451631011999083717511670519252606642188222],
    [1594279463002817301830774887505573542219454607369090034747881887088170785471, 4539808473220795794765918154330738017298493937764110580566381307349555013670, 475560476642367427578745293647190545821701895413438556935981468837500201444, 4520611522137324808516862546823363156534635680232010101639869772751845326914, 3648619085224852316671521355580569975001171317672688153490983584623254495278],
    [4461866993219779779965449800122598300335512894402511206610503992464725365967, 835163971952601977162921087281747139609932011793755814946765618917525432398, 6094702507100571362424200118239480684836260457431802049449860213203931110302, 161809746429932705602960053396864419657829485017080204359597153429192668363, 1096120331302497540804550465801257012378879287977057202014666151166248582260],
    [8432657292151384468612411088802643621592012528567062438023891975558317665041, 4665639557906205339013801165856536368270100852050276996997002035131303420618, 8055385374002415787846847567178666799696408729207361152378077347911936996489, 4332063049143951502614430652332989184693481522212528670810804514384786546178, 2453851617496319161776611535801480336307416720836669388933729768120429866287],
    [6505795634820548570540568559859429724421032028026836415736840410833429193840, 7981820290448379579577367204051214681033410551616248141360743047829296670545, 7687998189298407914338307571843329829986831090428802405820404558149377831381, 849542535078285012071496702447872612164160968837399743834790920493462428895, 5788174655773276174569723944420739761917669671103840354144837139261700180470],
    [6805528118484241677889733107324848857920467026447534322766220221495931333968, 891604484686833142325427402028852782216978520426008186194696191673064523839, 218412051590922345756924833795122212780066045578306663593692229830329646454, 5389407494508945390053776413480213551137058268991981008100644903937595904226, 8175354751952329758894740252764867804945674512078936222369149278147779623432],
    [7823349444952352009988086139628163358872683102748103682019041019211817746096, 2750926103502562722657130767512499573176653219209918407081927468507641429937, 7925867732923388765612345050345512345377669731655528698431081129283791514623, 5521891444792527849497826631720724455369783988439051442193082925935129772257, 3783405423362418664504273801348762023212367289374508574201160989546453191622],
    [8432076723183713568987121609303681133026342176552274314630821203822380999125, 3325313547938121047760284381598849706001673636467307482443464281862193058497, 1419103370543618515892698718227037995208537084554270339560808531029788701377, 1192524874787874854440776714476766854324058316926193998660289803588037020496, 4330249143202935080825847155110163519491783096703001972503698395624473807913],
    [2125027753559825110602178905046885559638085548040999196116371972399220974666, 6425318482544500946912288199176743422787930985930699925892817697442954331788, 5334063035147482146727679702937778281983660866961527150898909537184063998113, 5994736180463412576929479783709921648183605608284590436519463407823124457525, 3174921955208705422292714133358157732735065039786660972670523153996860375403],
    [4583934737438838726981964978854744162431985213483517637354132397100020937836, 7779792184476932606423189140512714396145163428272391411073638027089581441580, 6423784808384036605984461764120234096368702095871228710028767965907169765491, 108702735724149667043270874359620609836541669552858616577512000482788287318, 7423666319716401213018536070571126691936121058928836478937280564453424535655],
    [6868826130023432115805630380158160958670959496737449819679177225268785359326, 8334041233837877069089081464195546530319873079845542192908037912027399842270, 5100283403346268181482948865074873973989405529123090222827473698788173406983, 7701391943089484354852824939248649185549841763453980862911861384880297942854, 1326026676922662339267207213569106542498750473135297238196871393318933357029],
    [8251933497822344419596156764762646504863643707660726302159150523288774436020, 7528195096973730756355396182679986111089358320582527420333373578339054218465, 3242652387683255240331391094038197888108050142554148479377652344430774906232, 6243977475122469903969445813405114352225886542602296442633341088898186219514, 2151577189953772094831299035170491875741885320504370763814796000593626299064],
    [4034532642016602785349503246303996448210510084257237479626234795461079510320, 7209535377254674822799562853318100647039043415627344518307477470729581991828, 7463666100983559065551909720219541675072518539044843713006673725994781435684, 6732309634831638491477339942103996528222338054708185988323514918724453103783, 917985522142689239747535598993088685089443122903695072902892914176183226362],
    [3968828224993476720128245551363459049573514249032629481646359853470800504267, 7865425816768186999963767096502195652948730055260772436492211229463421033125, 1859412785916709876711211620778877535735538711237731756724762001206347852919, 2980501357326857280054441475968165621104778657433646657338825180571849049152, 5149932595947548077533480274030141098607726209357059099974033291910836922637],
    [1865995653532933164732399419889824522338495532323648784088714159458122752555, 203166855531376506927073455555032556082495158529451262887174029832442345116, 4294598542840552521750405972203777461557447770516835823097055954999144167334, 7870071470028990687480679443807881385088518536163043564896109142117404390032, 7679672665144085767757118547366623444839898098386256076062092292790548228323],
    [782970291148203511438658154619489794457227011123405388305693359393483456500, 871009237414775804361632954772886360215421759932110376652479602295391418335, 4401309683934041045289641185938697820275191375433791644483689707456181211355, 6538062927837432355034367446531981293834681303288222466241114664771553861046, 2391932659092970495682287832553057003022757876603487394895141256095918185615],
    [6930166508854678723316731146947745608157797260625566593419205624044426218265, 3279433659173641906312478632634652279718575417517092863892676607526999996311, 4857427820259250905310042290937584499354826536466597432853223762150373535685, 423580479756443076378145702485070520193167732708385676293282923128713625570, 2319285508379879642538912955796985843921748699558377826681500359522891171357]]

/-- The matrix of attempt 0 for size 6 -/
def starkT6_0 : List (List Nat) := [[1176051956847107240720092743191536744506212303326360080512163156103164149850, 8402878543642667924723401420033811459284838550048699791113189260852042826292, 4811768985211772890695110403603066421529029662509159174865246530735459231858, 3491060443190940448551743563124468580352653886511835586373000083690145634006, 6956147319446992853493460789833177448219120011607332759444698358038891635836, 85332366442435850899123351678916031831410276380234375397223990743166038548],
    [5535935393902879129094190749868598276367224136842358849250625741902371918397, 852045520402960286757476806137003380038111134742018251087010944117170670045, 1975757179445587153504332846839733248013115409591135033263127279549863534348, 4969776798134479195755944320592368060376369976206298444384447628772768875992, 1027708638586191412162120507084906764733375555996260051724423414475677199339, 5767846397380134877170904353379848262013889606614138464016022499576791495020],
    [7538581871990313094722169407693099586981512115574584706059794064373804072579, 8068228532188099852215410265440892229890017298378596673075865704251484253563, 4490311258785448094966638742404772135519324058760425359537868315201320249319, 3972627526893529141265572767308938827338210935036416472928422756809189099260, 4389985545309448414190554185994878552886937106151469688646417604259285151485, 2812310147435101726883009870008446417619650703232208562869149598025830417815],
    [2475755090116208188350033464654743026594381211312282026581812942238984164656, 6695315029320763806702142768628269856101567640583453279462511620344557143987, 110254655584894384643836735748241854861896392743903946539601281576026246422, 3704194883688904544883107644979215233303334745456272062031135715253097584481, 538873501457949039034245307849891043541043849181893279735616813591458325855, 2566165789253058571682121429630086914029877705130308911627131861515265539803],
    [4207863660747664999376464829501323453842191432785905340829872227444902135846, 6785305573281772344442505964326092425041710099482911721113110717912808169520, 6107861358361599254360923767264776692547447073533748082514931090223565974493, 788902895328059093671651768300013166095702874152302084950259901361114157234, 404571005720710758917952542102188141632925492023284634218779532955647621085, 2825842983524553620544395431706013320868401364721066623450260313383827487206],
    [2712253743190051813128131753383405975316578214665687768078207758154816672814, 6897831529753663374693413874074122184522312151994575107546504509439874070455, 7775295400343685765333117918770978496619899792653178794095326438858244117321, 314450384480963460470457534083505586926013470274337095777997841684016214705, 4905034045432375612115794395969198942437258653209975773623763330582711240297, 6559848426036244266318754037733852411437289925888736621504332524252145359058]]

/-- An eigenvector, its eigenvalue, and the place of an entry 1 -/
def starkV6_0 : List Nat := [4433279295055936619394483311737697377719752512351032752367840562890696171661, 240864641254505321601584119853784431783312070471381135996397434224033879741, 3952736034596957503353966756122083099074792900275240557283432667596063744383, 1742755026398444578122557882593228776258842206861341601888461014201223053112, 642937472445131909523943784103662560550338367938683470655879592532666363035, 1]
def starkC6_0 : Nat := 6765810859832378438853086338384307955258832837421959583149358291517650400307
def starkO6_0 : Nat := 5

/-- The matrix of attempt 1 for size 6 -/
def starkT6_1 : List (List Nat) := [[672066471166840632588411510740703526007097043043288776924746811512664490646, 5385927620493705582085278823585867802806998920576396762281958961421319508007, 3166870516933037094709526418876921585128925228864722197703602614347982369201, 5563007254381249144874671496644828623298286219868933533865833143447058544536, 8250276181781810512497448772499921769001117628760242968677747310415353890064, 4219947387239501847810648140563749594702436340637056068687968666582677185547],
    [8308373316915523582209156283088641331778038662853007003254477239916183657361, 6626681293579679428240785279553788672028348140048656961122361358271476200667, 7542719281183663764513416673919703523522641297579307958935831505232827825555, 6327791412065253665628625392513309828158657655024031941152528116821268257979, 7769033441512198663746127677920084472643822443411247802125712874964558071629, 566406639784992242780825313033391068948411899063685777194120784399236200066],
    [55794491081052635055923792458143065142699433121911054081592816776269649982, 2025067788465478321435999159099776332761612529526264343030986416200908291564, 3112925236435683242371071258551810715663224704190033055759399561178309878622, 3826712585725033190374017522401217919165733232883853962064117539811460916395, 1174745283730072398173866916818211802957638420795115460173119914193566370641, 7368247161873436113340833597655688624107266779212405285056128277321569066780],
    [7825671885206988988950540198300969521586370431289052737602839201624872123928, 2176544332342101821613238372838361814461606188184989528586185293982482025036, 4086587823080459442283808702007339143811405138713778195661968711853549697517, 5631266975502578439352943226310703149319605598890740834809496317979572792100, 5148902127700344455598821624283173461297454145395320877600333748473975928681, 5947190074850597705038319360845895773165916837886370540852130971120981609956],
    [4816000238296028977422513168756361121003963950491819109613043223654986070024, 3647416183539377793714397132278752185600890904852662101721411992583446793599, 1096848266792923595807440603677577032897070976109009018113358654973242762895, 3551372186382566745742719714779130380743921638774821506588373387735477913121, 5088193278699768009554220523523116435455373304834032974271154172035100570771, 8029456723907600753959820034824168033135665691918170617841090524548989665774],
    [7981003083847745147558531053749359948483548649454311924591718098323338753666, 6695375767862876896778091479001979783361164964663735238614002375394326430496, 8046189751420715145690577052064250944358242635883241130544725394304165446252, 4911753874901799379068183746240894415192736492544975579342251664984005607507, 5984133932876276273633457488809635194916116919604220176186827708493410230038, 4434219415228609726228295043856158344164464387641197015858693192417292612863]]

/-- The inverse of `M^q - M` -/
def starkB6 : List (List Nat) := [[1377780138980759018878177012216885985496925600414993121695400805682433720733, 25288892083921487389805178330830704605174313409423982259580400552218604720, 5517042216858276398655847046675045526491535154014562329710052756094061033651, 4088866121418396882556551800264908908536592369162333305950277837264758603628, 5262113195698084904708491812581098530599070648529369893854451742017410711122, 1250906519043415215306433705452245829786825245651983631562086935196838300652],
    [7706825533847198861705906300397817928038570702508602641518139903461135856535, 4516998695311947635089497915424862828105205935883527396481888402614577972697, 5648004075532912929681507817666415712996843286883957768510601705723659946521, 6858051280300535918933234963157518972195823906403289565110602436877500750448, 7391583005204837919581391229700879161993172509688588272355159958646993943109, 136319775106089619680519115576663093613680714314474071174931511831884527676],
    [174367409494259602829341150875009552890153126017187926068176088819281247817, 6291644582271823124204576366683350951537101838398127214002916527634148299009, 5313563247494196148736401797111786868174993633553971101302489869756128496358, 2953181816575430268967234317344142355149430073671799667000313191374208117805, 4717122856168273303884008391570172989100032828301489169523209255266210637251, 494591292388429618248416822018024693744894608909632368053728823014451278912],
    [6799117948923012436132360239940845269692823766922259130350728720335109368696, 2663292299619044185460676325029774625793189216801837190538091226310711902483, 2836147145427075114861779949281017597511238738870055331898165198612557060871, 4994292505125940400434402544589573460636597782006866721393991036569645632243, 7199276479282375556537266702242287556354835825044511645630160874685818419278, 8155112041157486927784113244590863772674727422264637243628659554889112344675],
    [7897339414357592100567000969088168698718719680949715991739976580856316224313, 2358989206879269899649685258242323279279888111634850250443793353927830641606, 8014042646122183089592421280930748680649111673151012399622331116492363622594, 2968804844097287962092342378122230071304867453700484174013044690845767621631, 3727055304958567373964393399085181796200527752081042246641575689412796835473, 8265466716344317816563327619794597678289631835164749090297021447215627584101],
    [1630818272023504935719010160474709501949949755627896895949867413066117062658, 7686293879067095192783076797296581571052159295910477407610193388561781705789, 508457773377618480646492939303667123584789859310662148436031075530519100187, 8221466859935031770930311710044245545660973151674886008093708761339339338641, 6342175308366646256074066621339488646226486471410189180660394401601657677317, 1449281844227611467584124320710449316573949141849088059575685587791834349365]]

/-- The entries of the matrix, row by row -/
def starkM6 : List Nat := [672066471166840632588411510740703526007097043043288776924746811512664490646, 5385927620493705582085278823585867802806998920576396762281958961421319508007, 3166870516933037094709526418876921585128925228864722197703602614347982369201, 5563007254381249144874671496644828623298286219868933533865833143447058544536, 8250276181781810512497448772499921769001117628760242968677747310415353890064, 4219947387239501847810648140563749594702436340637056068687968666582677185547, 8308373316915523582209156283088641331778038662853007003254477239916183657361, 6626681293579679428240785279553788672028348140048656961122361358271476200667, 7542719281183663764513416673919703523522641297579307958935831505232827825555, 6327791412065253665628625392513309828158657655024031941152528116821268257979, 7769033441512198663746127677920084472643822443411247802125712874964558071629, 566406639784992242780825313033391068948411899063685777194120784399236200066, 55794491081052635055923792458143065142699433121911054081592816776269649982, 2025067788465478321435999159099776332761612529526264343030986416200908291564, 3112925236435683242371071258551810715663224704190033055759399561178309878622, 3826712585725033190374017522401217919165733232883853962064117539811460916395, 1174745283730072398173866916818211802957638420795115460173119914193566370641, 7368247161873436113340833597655688624107266779212405285056128277321569066780, 7825671885206988988950540198300969521586370431289052737602839201624872123928, 2176544332342101821613238372838361814461606188184989528586185293982482025036, 4086587823080459442283808702007339143811405138713778195661968711853549697517, 5631266975502578439352943226310703149319605598890740834809496317979572792100, 5148902127700344455598821624283173461297454145395320877600333748473975928681, 5947190074850597705038319360845895773165916837886370540852130971120981609956, 4816000238296028977422513168756361121003963950491819109613043223654986070024, 3647416183539377793714397132278752185600890904852662101721411992583446793599, 1096848266792923595807440603677577032897070976109009018113358654973242762895, 3551372186382566745742719714779130380743921638774821506588373387735477913121, 5088193278699768009554220523523116435455373304834032974271154172035100570771, 8029456723907600753959820034824168033135665691918170617841090524548989665774, 7981003083847745147558531053749359948483548649454311924591718098323338753666, 6695375767862876896778091479001979783361164964663735238614002375394326430496, 8046189751420715145690577052064250944358242635883241130544725394304165446252, 4911753874901799379068183746240894415192736492544975579342251664984005607507, 5984133932876276273633457488809635194916116919604220176186827708493410230038, 4434219415228609726228295043856158344164464387641197015858693192417292612863]

/-- The inverse of the matrix with the columns `M^j e0` -/
def starkN6 : List (List Nat) := [[1, 2386084027904674909754870657745536445881013339085325023919680353426155336092, 3394044203091703548708366624228516296750056932719215665670631858501985797698, 1053207360990476461131850153068060646934613834529227797804753405686818914098, 1249844766239191768819568174803386318954628313677892308056492690762935446977, 5360566614068075971211326128330396978123883503898731769881339827457087399104],
    [0, 1599008106092139253883527163304691055721144474262520047273218841797669638775, 3443081678599509174305591246825181327126734305437235118144658134154413459211, 3453265747329332589858719451602206383960872051359136057590379036543570967477, 631587596093352427610724106891034339159586917450927505683292930907030571697, 3635514113983863548760915272760913993397513785895922478329070216536017858758],
    [0, 82285157943987224157466419517994653035378958786156125146879319584670928079, 3620356131159551804152349701418629739591053459302814582832189620934821888888, 7001110278256453433251920693202795067881994744931529429948342386764213423648, 8123715289864454224326086768755935800242548883366664694445980086527166265222, 5052474409831982788500806293428939189480238474014890708273146103367015326607],
    [0, 1513663684799979322581277841318696824348979551183633589878499525069669437314, 7957767936512228889558148408450421255252855488310744568024430875888193119310, 1642993937197343681577978151174514825809884730089289939029003897647579715763, 7214217800106877908049632197236501439658767302210845404613319716372100628895, 3716770408264573092502523139812239373567267470424272107277206908884635173837],
    [0, 3677205175365498341327774762549876028378727620608823556369840794142662989201, 7849388078558242628104831258048570254012177314680028324441116483378127147442, 7015448417660658880671749248881260447326690220474493642875805755943637779445, 867284756016617398514337272655446845382959183218337432496318863152490449769, 6845806469208745392300449120571981776072739634705075081166945358654397024485],
    [0, 2233411978689240501262956107897160782738913122307043923042234366350607079883, 7127985091701489547386663499881464985099203245268804618702528049776702628085, 3991535871074018450338594918955129091945096621444076056169771489769278919142, 4456356730550102461598057295520732244291305427367772446613564356212286273392, 5450332585460731301754395033867932723864553864174200720568798703383888639517]]

/-- The same for the transpose -/
def starkNT6 : List (List Nat) := [[1, 6932095415941485131324813115145523203980256586269823061371130166142602241433, 964747264385901857808237845076673451507003420130092472991847006713339671895, 7847049828327528826457752666956342486855740135001131640285008887106376075599, 7593693267953984223886941357681202271080989045171052069134125072674270921501, 1910442594369398427995401248009756495345256357031804276237683209269108477671],
    [0, 5151119445912416907138356632668352611370654251981489376866951644790476509547, 5331095376973483361386876076262751252293280669908045497723725359287661786610, 8071472463468396777378399461805290307412533640855217267278908775938561499683, 1296307393996932009222388081419473968416630680593411402885456601836353564155, 8147722252464874709090119088091802273436876148260745738323607177826393066329],
    [0, 3171739756996775770916930593524688076627581144728635118225291816768721860173, 1725914944373612135147643221226673264772159302783851318296934262507663200876, 6204821470454221698371099556689032161540659979640767505841447282803101346712, 6230588780729119963744533699653055052273202909583921240566191854068785340695, 6081199974285084151060841408219655366949923554778854709292160583829109867365],
    [0, 3953370668419035283338759893216216810234767599272385883199896959687370809004, 795893200771765713606378704349868567182308933826040537461180972893590460385, 5012521005475749289181519619846703317226975341995647883853480558594839092581, 6731060483366614689531840599106968631739554994758863815892344097775292941334, 985914769804444318727167130284641884924343372739320862800799221879713290318],
    [0, 268397816949531991428773461744204450274698960698769751024893623801100879079, 1014870066728143897191957091642440519944165639743440877031507880656564898977, 2891273888881781542548720978316005197600861717219757851251498205276131918088, 3410622662958916127801684968159375666870152486304943480925796478558646081370, 6020068228115351303524209408250633204273064705053444936461538183732999654661],
    [0, 1354377419552872031628596397267934270341860437616330786122078511520162842873, 3647276269211476955513763872649894948335548575148684515912651301943604187447, 3857679527697324653519649012770789702374981754948259452887153383279819867234, 3702414335129376321543043424189841215072642132681568481997423076329743579922, 117680931639011683694865671310469600885293153163835813472127505514653071770]]

/-- The coordinates of `M^6 e0`, the highest first -/
def starkR6 : List Nat := [231967422328048205589252026191641248510415173185758134940151045642188828546, 270931762999222474108229966748006663577752720201464869210941295314561748708, 2279857993093289367487807538381859887727873211175219822863857682187315551323, 1772432747995085035346225403706755640258799288964718054582339230658466352428, 4941658519921664590418082387412695822393190593078524290210915080360134715121, 4391235152416945738040813458591532655672708883941234090013583757526531802824]

/-- Row `r - 2`: `M e0` in terms of `M^(r j) e0` -/
def starkP6 : List (List Nat) := [[4492563027802841355269992536019271943312871593487831315539262188495758669336, 8142885870011414437380744434602903409899363894022335877720468004493917100891, 2366270938701929362378310950476643717929985831838120755705152812932937376710, 6240735825086759489361214983699960116729053775026528429632687367213039658021, 3529722687594972025628078575698763316012158694154752148188126266400058296233, 3760097744599515369258706970866906345177007620689772304096326731556933916127],
    [746985413002381242664418652397550145163101634654285543260232250453731237457, 7606597357921994087318919065950249061945018466421383175863017761559730509087, 3765442874940203623797700612072396318776903464753321988566785782273697542274, 3179040530887643265123839476801908006899998731904153681329962000818084879163, 2798740334599850453251220415436710339792835973081419537309762786502885598701, 1345339871352225895324386674968428113242111840982647424172977022412773031043],
    [3579147362873013338397904194576042168469872819039087766689706486372002119752, 7789875368347118564805572829413750043970699888245750912340567187813207944634, 8213087337477405183607412597944670900998910255615155340339960149748823028323, 5958825478568286363665201131245339470956691405786463419117225836560019639160, 7003998549848417514348816946518067142191729903268330077161957958174949049292, 1650471100040701672459083942081460794426698451697817741891819453461017249443],
    [402579474123580665251796118834807435209031650117273665763792731777905734088, 7169790628207697091088864354875670902291209138860767939387875861112905053423, 2646398837016538407067983794686201020211059421220062977749783766332704150739, 2573764714869671471230240722912393389574704743055611678527273923450879046439, 4211423227713675858565664931787761782333330976283239011043343961408162052073, 1149387547803713057283014718287442800037436378437000832959402414709882368744],
    [6147686214460915523766933791752518832368601281164053303846173970603788567798, 3591424724772199915742149602260984307090440688453073317575100370623314772035, 3643565555316302224311918526409779282166089349175378521757658761671719080317, 5669666327578718121160702631779056990073652224210946939804866428769056342892, 312109458200755199303332312823350507049428215858764951776382522674225002985, 7420610928960201780754331659124473804259706726428150035864120688899315923222],
    [702756511540309641933339599116708696769403460813301615057897603836018703072, 3319613326176250533425601574476993903293584637419153440268949188057762609614, 4275468949818327309740460818351424617661147068882885219624593921763297274676, 2734639166227849461966453837894912872288504451709067348848692728758549138264, 6372086085878881343444209432211164925011542505158055044152051413873811782102, 4758285238580253637695291644340883110363195894004725116848512931091271740423],
    [7897809833598837410024707314495715746635154852428087421906094064556831354784, 7804949519121808292001832367555228770427051758401285052376204572434549375477, 3667653894840699053968123890542649561856669784352996105545463950001698349103, 4899886510641763158530717246277457086812933006495555746528017107098535098167, 3122298818256745186230361268123765989421399940018352643606514989371800800845, 902226233684077413599180699745513012012177953077601658313598495685510542808],
    [6239896542853149072444334468142776097412626647223048695921465811527599669335, 4187884585403926772651482999855792322679481339578654131652896975682629277482, 6779059579798105245117486186112168475084569165946164283097235481485313320212, 6399118062245701047473562390634458699512495252504485333974103996955743780890, 3314988216383481565405141348001404087275372414810692129455741590370633466950, 6289328614314981336888157141367083727770277177367302636291053280501757800988],
    [3200049414877386550160017925177121550440289645294760991943349313169919311672, 4139994309397629770935623198676971794980635920399575543557799186617309115085, 3319309547402461921108928864288893126330083240488498445904085590761497514332, 2101245226088236955619667071426051336320230247863542537675812048798142635672, 2492993267554889561741379123631718445954522251674523386724188745460614372266, 6972670261376632388260329353029131843199664081504095042348445469087077649908],
    [4042940646893101726431184921058176366255717185865612818907406703493451011380, 8275108441800687437536304389306675419718888489791850972291809035956768398453, 1914226298535621771187991059687975222896022972916409663038635990719686777291, 827488416546938982300675501078766510902339318022024956435068655401950834323, 2510260692668379775094625583892034339536956214439723141410881894817224588473, 3266526227517634072373813261044094399492135020260835767044996796668421254246],
    [3338081543318377462147771075074536605977547740957678164001837086974363627359, 2126247445792346294800315144524964465104652778218244204265087408468577091142, 8422514660345867134649710531129714748278464833229336757472677414377622755400, 7244194414860157210174380238732025828544692728616069200271608520268902695455, 3959815985585917881950209967104946194962785304665875728151190775616456184905, 8118465383218647966005145063979974441971784031957882030647515304045615316084],
    [7690599370326543602942739357116156286556383661732243505640168900753062735496, 1599950003413991436699724476297921174291499827607495197266435710154631674246, 1960435649970770424907382642363816635074501284207254931192153392701903309137, 5699099543789788692108203929669098938614555618641806676384446297118659383523, 7769839475252131870840465166214844169367438332906853324692847467311813599622, 4546584376485806248987797043105398720014616678024419094118232400089070047558],
    [3170521630872943285292810812977631226496494588014547045982697862278816109137, 7680582547756556736446417820437727214391084121492672440379364563665349745639, 5049032955023641876583868930631570658359609029885223918210510022174758401038, 1349370185475504221113560351677796919245608806851173451014538582903537097498, 5158529286461960417682686467893241879099564063005090492682758396372708104581, 2580260150458224227328158940578431055411543511158892178274711248813752235698],
    [8049903109498699950701931949799905196441171382265245413055691023890027154282, 2914146780825509474128290727013734882303266142610222455587169667213633811718, 7414362413892406821731143114161830782537749567086340591096501051999303237213, 6702554650458925149453820259275767461453600134590937292132413649172078565045, 2865077180578969832343867601997803193215992737101138115115560635517635966173, 5538838618378535913148348365506623881321718826951905381754118336111101146558],
    [879192627369591305695956852470301590256984299233624161930414063627596237043, 454205561510335259442473704928082644148656542230479631071241847383953769303, 1681573366618224830168447799362952144974952934294979072108201363457601382455, 138441635457890215389812771153675162054420543220086905553400388206852841554, 6283880037896182517646410766316654115830203922921862312316746861437232740603, 4241328932451603584659758130268598692913412329566126701043899171842706470517],
    [4592829506957966134990951988596354871384158662331530292882780283612096204051, 2716300123511279642182500886552709239527476503339897573986137045854603978400, 3109476902960315127763582173442914096891906246587225765280101727429237236555, 4001274695063158897109377248505686532213023646858919576665182313663253589759, 8073023573611998580980606620400335732354892852527526737876676715137003550997, 2525779742820465492304250558930605408962887196928662043958953158771301330506],
    [3742788895257335964815916969423645958026080741393685650944607116039564926836, 1025827573876771295343670468143629341962417681889764681865003115117149371794, 4724223832951106625595480581574782972044502105643980675842080194347944743355, 6394400371718602631189474178451389698397366048537447792494896822397142311358, 6388709914244365563862706171279184897458710249111659038739097160915209339112, 1698057648140697800822396385307669636419893221469665411229076986016059318341],
    [1104500282704157916694409881464358035480090093431441411792454829544396845152, 4366738517354720405414589399331521695670134640207109372173411778556915386127, 8391439643486294064691559677909036705553985980098000247345425418184538191302, 7879358177269603816681357971151192331433372880964117098162208380110839905307, 623759157436918270249995579580196325664550848908083438852683578923692120006, 5372447647604162427626943787568148826388777959206947769190480504780790121423],
    [7111134709883380239404887226128645565697201164020618207664257116107354226312, 3117553687727403292555046890703229003291723821004538009765192740407956682437, 7305606485696211840071588892574724588019064354251152357820040856471994910159, 446678671208758206426620859063604690239187081908395888421962186796675601500, 1648895174538335232228884726553231255755025583004296297363001657377058581782, 3527486815732044115148127602763361139476260590898926505507614000874085968843],
    [688762201151204379577528993800086431841488913190848413420834374400401842182, 6208993181110928164210019013215236622387127896714262041524415366082132423829, 5282164887189202290847440020113970266698968743619352866899318501051102943081, 5614975443920927505228580985011778856730187338104524401974433048906439365893, 8205703328721185282096501001565399581353975487528406768410794745853021985531, 7152249954791613769700097128095073716119854426961399062745653828546682571855],
    [1082565213541213372146886324200537600747097062282363062592178919421129801992, 483395015710873193835242847602808446910579967553602279646559659537534887724, 4821373064805557967461702786428488944985671152145652066582384241733827273078, 8177769109004015020256812372993346684344686462834068535866855291895385767367, 1686617650890538709883939828827887949895935533154765456916422088015282702866, 1529499045192126369953307946512995976345260280113520214682270685142945284158],
    [7896397112843538531327735355896962816490983743881991693189008118475384088240, 5723878205810498908422099375211406907167783058997220461746540361468992207012, 4469030842149879897700232819905547862130553731676290230813437241365890993117, 7480157609848135375425645940471092037413414889501057605513083130072466141200, 2988266194980134763240890288982286507474343343045601832279010051534743407851, 7463933208473272570313533221942515182594485787152225831156291850715400644058],
    [3044184992813124095248953933964417043779150708417369760972848105340380629815, 4642042970752437965211857790863649885595009540224312857908882804294047709972, 6877143659260432929193763695889544517541001835951810916231503036318351755481, 2290319463902056735506936835841072374960347522421193895360323349772881391826, 5813654787200646479445504994244295513817209856258959838554415801203492270617, 7091198494581181090265187707889830004192364267251436406427224966316656112009]]

end Poseidon
