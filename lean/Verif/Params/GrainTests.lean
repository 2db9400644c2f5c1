/-! Generated by `tools/gen_grain.py`: certificates for the tests of the matrices in the authors' scripts. -/

namespace Poseidon.Authors

/-- The inverse of the matrix with the columns `M^j e0`, for the matrix `mds_255_3` -/
def inv_255_3 : List (List Nat) := [
  [1, 34563728435661835248834894270512558689127198752576408435531977278312235870813, 28070985872215936721698738868907936568877465065074612343626834468445264859874],
  [0, 31324426071205316005696977830961106243420191954014513788140938157385128684200, 24955349696015067998195685698473183342153482333839125245092749340818565148210],
  [0, 20563318777623060078095502611259678536198890766878969836290777332594431686791, 29569825372367142407054496266538455315733161058207861644768701018562265715806]]

/-- The same for the transpose of `mds_255_3` -/
def invT_255_3 : List (List Nat) := [
  [1, 16012431547786380160477097022781530493461081566417126501994264945159654387186, 40225134995676730461538410805120609703116944698953607187771426663323199088106],
  [0, 5283676024878152968977700618928793671095488340486965025260415315547691085491, 41809744808344867112667091983197764484836573761774000481251513467024691979707],
  [0, 43735885138278188173426728528072439257663992541366596410277453860990984714905, 41096232276946158352455744079427869966956781430412699336412004962333846447293]]

/-- The coordinates of `M^3 e0`, the highest first -/
def rel_255_3 : List Nat := [27722908906624819717476120667727786096112546185927611452463546100718827948003, 28391633266483237701656447984267554466270398487746931596084689233801537500229, 21684584953571114837369779368733485081910904830880846265297142303555789330801]

/-- Row `r - 2`: `M e0` in terms of `M^(r j) e0` -/
def pow_255_3 : List (List Nat) := [
  [44293850542923561872394314604761490860932919393935852698238434556860694627009, 42367498500203804849422458675475459687851773986416502637466573761195763231678, 29283242307454132671029412197031614590538590418788559328879586667890573684830],
  [32718972040406173767152448373555127095780318153776314218910892508757166373892, 23725083818838834241300205498584754448366368032122840180091401327536272807249, 8313280455872855719974517694889460286478596749203547213189543491541017934659],
  [26477431865105394102243042945770499065669033734770694617528705541855084586655, 27309699806439500186320473597382884424807668055856222493205639192321610451357, 24974552925632525543253218841809869074963974341410811946459411088938153511952],
  [35632209848010600248860301202504869884268103345805937840047491296957592183410, 27937424219164408192372556784210464454759227330431303904629722305162168229399, 15352347990848634362239455680310361747827487703583436442673225412493831573694],
  [49836867201078391373237516857117451710341541903538768359978820103934277580120, 24159644492462916202719543162868922397211207237095118401559125625775338308742, 21689816412762325606703454034556071513224469033710815265225906420686169539721],
  [37753429972271638768443235874836467346837642442523825071758930179431708821218, 27288476403510177845141514561129046223115775124209466674598989307658098023667, 22818586190414983283075709095917334769048812268718996702359909766325755244187],
  [19893537683028088034307405177082415552095874922390178117341220580808449695434, 30619973724937033041376733682008752719622893285022812898500505726395173311758, 42051885088748274544922288733549289927270147845669177465874389773451109034777],
  [38772993860464212821986380901990415279458378149068801075456115010636343169345, 49956226158949163203934693188343778350641345013332068446639383071515276047506, 11060983025922753741073930155842025585007556803459072906510208401849915473164],
  [26942124468770849119168944218600907137323771065448699933271021279860921153421, 41160901931164269924956003013420048304479624563817650612416602059676067886692, 22153549015677616911576189178408149505968669441665723562296507240578769632863],
  [19676421428896211027206753006099422629727087073677402417196803150131722600663, 47778797932570990915644903013392579725613424697253403339954728064127227766365, 11303797568678243102660589882476616166943800806491390492422059736692626782716],
  [27919433992569158776700849258314383021920477678969993914235963360374251790440, 28801351425598099995101162982351644265797597164294205390527467732218227560921, 13603800223415410982018655876741818265653448151672227200301464120088009406504]]

/-- The inverse of the matrix with the columns `M^j e0`, for the matrix `mds_255_5` -/
def inv_255_5 : List (List Nat) := [
  [1, 22620289776763384227913233989422847621114424708717215439821704295436492082983, 5301999762477885365403727691943164262270764098493483867024573618334260952653, 33677531281990461647444212183955605638103408071696513506474465224711075787669, 16066245408726350850478310120692764281542681535408028236927215874378711093979],
  [0, 23688320187492863682343255532980474467725965080688686682767453217372245432852, 49526989842641211933747790368256837315120660178808785323085690109472152065133, 28074453395325391164938306677392298801696651965696757598510171104879115589507, 48171087042998066239488706988667860008113427751411016523917946789549877379032],
  [0, 23498981755669871029979392051966135101945680699004377751039016696848156449512, 13872742142508929862348582588111390924887140857209053609156242672552608338969, 28238023554853122884537699841323779283630374371240719422519487113802546730930, 41399385960635785119468884216100890566541883895069207501725159978126770175588],
  [0, 12978358704213926892999321274877456746734752394124228363693381910136282740874, 14821104998112216161117429624286693409143157315497826422334842336455069995920, 43438617264311964138607431171654715866942771451975417295221861789255105124398, 51381769297972976993062415229515899551431141396860756086285403445422685139858],
  [0, 32697113160801930584351826917103321491530767610669527830964037366093959867158, 10594481186905723077326658898137058506171461704867455035963448089982201227046, 39265916847661490012994320451954982306936081217204307826127379252470974595041, 36959225858156340111939745357900992608039418071108503777993483589363715498176]]

/-- The same for the transpose of `mds_255_5` -/
def invT_255_5 : List (List Nat) := [
  [1, 50883010931267964408565942450464541781071205113626508346429085261227749472269, 42061518094220287753151805295037342517369022489860775543182530729256557272371, 32753406445612939522154879696279108437370122220715021500491721978102489436028, 37581748456451175401049074868097138462258958026582438508833082949018383610296],
  [0, 47194084828592158337348135250885389426012485964781132607312598852201061541957, 33597489894575126481843086340337233481243030875828956531954235607558917905300, 45511734612494758954019327265486125974330215538135751498241613203113976510499, 4782075019210963229291800044626271010824780668738620689388826972843972763373],
  [0, 786428646108935314645964280654519346865432148089810024291010466254688610347, 27656171949871419185272715659657288904947450820855199861467670661608876466856, 38995569755355193537302354239237045474718779079307989179734402444338190793128, 39399522811229904267198222762536933975973199843408960290921619717263335076425],
  [0, 21306940438886306291191120146697175200494799807114743394035724420578003650691, 10183417067107009064222708293906639929281751654436808366194921850338699478563, 21004831193157503366429176449323925861203528436301488343165135312290228767952, 7475096494946704972670768052369263102280775772488994583562541649674805316234],
  [0, 35772790809759693779441759563306392961696962072220769380911206991305430952195, 5885645294378703096916045398452482966121662570137302472236465878728933041522, 8490541394208449303995653852765477189249860364900795584777914277530711633626, 21707147327914420881007630312977400558499864352592749332456986373130918757161]]

/-- The coordinates of `M^5 e0`, the highest first -/
def rel_255_5 : List Nat := [48768906557963937639725657383581131933839470904616353030489130721017016074073, 52021112518778191952671060555263433995341526540602286815461879093768966275699, 6764627391204791722842477006300017939208231059987156942400870508419438417391, 23001127299101626301101144797273090565721196125066098977647296097659290245711, 26607594412471449484064683360882277374386862072090347752681405430505470326742]

/-- Row `r - 2`: `M e0` in terms of `M^(r j) e0` -/
def pow_255_5 : List (List Nat) := [
  [35369002625927497830299180468688020708338686000292594121884754207561628197767, 15050977177289255525905587376594530262520649693507614021474387979276073486874, 37487701017515768576597117967073475065934900126346924654271405526636281807687, 7754768265352526390790544707608374833912910957363364359352050931308396418293, 33066400605510114044522871603488849055768819614826403553940742153387193742348],
  [25482478427409754983241030466480702250583870792442945414605235280590639368413, 11043428587882384514210248203618664788977534061249389609691726019688718121352, 50640243781647974085817221696594337497003385015539407130247928183133186239898, 7083283289140410734563802595411450639303355726324558134271933013812861236844, 11613500657325819222940757969599211518330580103834308021089687838044842129545],
  [22389855128000555308063194756064201219009285283900534984067912726302566840101, 29251719281936245187163431769025221091231415418698909227092222976351230753080, 448932405409631711373161974624792837193857964145722289162145748323305093943, 33916694469455104562199120391970373908032025531883407329501598500012628189663, 5240275783723245111091514827527359526653750592001072192716520244083944522080],
  [38068243480082311717396225374851623325887050392464311137349894631670074193571, 50435770839889572023829177542934008270530352069885690934421362714789324290905, 2097615851703715768899100670795835869352249791706738721445452646257345329889, 25606524701991951529357897773361099300358224960290906409250111715201571593595, 8230118435061280558632389278303830266606722061765297627580698774826255211231],
  [31191649319183223530628441586891916035278754380261884684351412996878616067736, 23332729922095067904871436535253238249166085966084787891071747938870438775251, 37639511075542709799126976173029231666435256799379778292345830695510730058882, 9490789662539903724635625123936127767766625055840680584800790852072016460818, 50118318714042283981550414995088150736825488803187682305015614990133618533059],
  [47934053910488556861095765401836509982804992733086569544974644990974348786107, 37894922469272052296759427121188790338072653539521725498214162962454376392840, 42970961365060853563785954429693486943640086636968124173919739632415158824600, 39033516046894005194222652338156256075019966910162174450143290732749312571219, 25822448520652113200212726821305632077179785093513106810543120451743398382748],
  [47906754806723569535542099404567404672323050021668675617352811476047814114471, 46604482462942437040968740842219393808373297072689760725652466127185028441943, 7265687764614463022780325879356211612134264120941945999880741169871659098327, 8355257364296806187472845903190498054137278097070650623158269478860021926085, 38642159241353747043910661447751879376923630384680841650724951441359959884275],
  [33438006216193097107641143826868559002968506853111628388070186986890159075354, 43428035431858074405876847937996370713381278240723815524450075801177215970050, 18450788461602555622364346622276571708533513677205066446504550718647074863562, 29179439946392785902548271975607806578300656000925035112583625865693598421095, 25971363796703501800786423853126951719928702221962483593353391032358310284797],
  [23944887606956777248730173687761667819638049859937368668964650696169863350260, 28400236482555871778075279525772928255738875242569715767764375002705212835932, 42223132062961210735210173761490173494170102123540394820763973220127472847796, 14504028164902331958622042329681640126741024104867327395794023252131036835536, 25074998892818496739300120321731714165856026342505832096734727378588271134121],
  [27778843626172251186992054974282912810111510415867012500452916211398575268086, 31495859851767055650971162472622459705409045634153905113406401310204943087580, 27105388078412108270639266457354905837986790840271137707206378825655747578118, 10747918750897775170669763281590728688608509254923787563337453427249197859846, 5447991552677945010283743429851623877548860377172910707831758422385473971763],
  [29468808647339932199976187773554811235399174114614729986655072530107923554046, 13006611515060668178159228026768764509345690798128240538111803835983414723698, 33167530166692707553116027793367621186915613410255727044325730883026322247208, 15790838633713299597355407926887092194221192320945341476232781558159007619444, 9431078467043220078854254560234445808230454403259134500821314244199485199017],
  [41777120475382587806891622695505775743132514777446604768795812209113101490269, 10172353966407221229067696717626164094808620975323284845534090189178601807813, 41497023804645448173925522727931769894091748576128198648256400217516445565145, 15711620254375741098351800368345554034787855457388817781194836789767476280521, 4320118375709493114801924155356409545980346231402740060678202202659478981147],
  [1541899514201540913622796201019689082668732300438028169210999391583394617119, 10027760055753645807289136451228752089930354151782926825230147107922848920096, 35885828419769410505916002156935428893048184192145472459400556397492516200378, 27942407229096237350120859615752147748270019093947653144766403344443111213736, 10098891668522198291918591013373464393981373751072791567914006791497884686991],
  [44448930270983080063316231589644708261002037942972570812579108634174424910966, 49267720679688296227439401848396530937792887387726299217361426613498214483138, 37065904641514753643669897584852994428808701955623105516610668379578034284164, 41629218017146129449337161432502163549873666379080153282753695271696163125796, 23808266941779161294064308726206356438940929023588718403103020981638028056533],
  [48896250042221705350289437579906208023570066470675247368419085261947010739729, 40496876591969268244166439919405973105551003767435944147373663668609152596532, 13296560591389196297608738258185682533112067186666699207243220862281826940246, 44982670218854548157140478446836107387021680601604400296771671819954856801910, 116926029515106707800574778342243118627084225969841618732159800739410791746],
  [7694527369371588685310390581044626145901839773107636747434025540203541499911, 52294881246315734230860585909703855858388965037816150763970380791481307456029, 47619794615131708021081208616674139202566655317909198437579454838832388674326, 35621527369692501991269167831222387908010649836135952125694954989455831542889, 22631309081569274700339453515901897833909887908430701904995401152526395047828],
  [34713527230509557685779343462070995306690849749062374540966276010582244595410, 30484294163848633127573014366013685445288178654335470540483598235323196376905, 30218734758690962025508354195106695501612857019307304692858109227507832732877, 12674306856200144964259780801887879633680820385786740910085665564333231253878, 46518159094427306125767963019135753757612742534241687233687770319301091352843],
  [24334035557514070025536931734221981476851855157693791635384539005463174139266, 45202983272819921163399571327935986485083433857844010701556159380041942354088, 31819917814501058507112381637286637469795840401214521203673246112483509758465, 36593858173713540906500701509196489663053193983180929808278001984271808654750, 416493548171439865599773688694260750439421417672544142140849197056328249747],
  [1877328565716421120527659440064849817672258423571596780298944991159272039439, 38683276738021496620257725557005599103144994737730520822279093284111894407843, 49912912715433413057724457266071057588222350613943735335149719645466122370348, 4042526877673725578652321962816778223161978585849253517258586342530269454267, 21884938508899552442747150663004955446287260990068262969752068374333700147621]]

/-- The inverse of the matrix with the columns `M^j e0`, for the matrix `mds_254_3` -/
def inv_254_3 : List (List Nat) := [
  [1, 814270013611055386592827037357280012616315673796142788902687202329863920397, 13996845575706483591822349265851239719283092782115276459453032128163023277562],
  [0, 12535569255289831056935171062732922869111432544511615247891065693124961924458, 18741114029027774547100350875876164270262928504484537359874159294403960533584],
  [0, 11159611313749972338792991528006698582763653668517745424754326951031701864071, 14751049626047258189439005592377419230365775607497788981347972299318572050117]]

/-- The same for the transpose of `mds_254_3` -/
def invT_254_3 : List (List Nat) := [
  [1, 21525937020954388645555697123966689290273201531170835352492669458258516698289, 14217133366709489325709792363793999513714816204143339270537109224270852226159],
  [0, 16621653558523643686258265949036006121648761896423810286048967782267848804496, 9205692791204749621158747778592307070293340943827419945060716306190646953678],
  [0, 9778374057543568615567694430749191024708471068144119222227711295368174419011, 4702038436706856676110781223825161552885108251662579851763635023357770412138]]

/-- The coordinates of `M^3 e0`, the highest first -/
def rel_254_3 : List Nat := [18091235893250796893521189168273895624142756717995392006267601624839315514765, 5423940743943187572584895492433332592819628496452441356756839070090048225951, 15441392320011971132495273237692341923732938150851532359521335058064429944472]

/-- Row `r - 2`: `M e0` in terms of `M^(r j) e0` -/
def pow_254_3 : List (List Nat) := [
  [8711917618132018641197263933570091853184930253031955137424920199464442200551, 16390910672409316826781110854703132210763255983994320640528997957553082497248, 16939690339989085817681123848321372641359533234744760324738382379323919258446],
  [15060386208457549869844063712204054344258538103537661313823197350424590538247, 19295816453140502748323652239112295442181954620495838439156217010090774801452, 19305727109940541229128582547015744688714547534544558731626150408295396036067],
  [20661595571895605480352348167694836539990518386391554120114714696900585415203, 16192599074018427941648540085711143731652388019511406285817993806882621611513, 16405626035549807810141828202562537171186786630416897065033244602502023684387],
  [18950964127936407597134502450498475600629022005566692520849476499413194754864, 2761260764194531567660929338507120903382634403269201597759071191691041419244, 16855584814007691781486195781728509017659321607805923641309049294148107686647],
  [2033472305107697388008421207092451421182457704306680611035342872716293969323, 3029443460509335229778676294619739965373370663413572538509019679913831162450, 19372490660959410636415631537211407557731877390982096838209876373352553864224],
  [9961078383685400104840331205214730215632248188700372050861246092059402839462, 4158838636479107571494569769544197808049936394922540324316388148041511420151, 7946701553693123706994826455821265926136464834837681377480007081083160878044],
  [6900534603761383488623510893361914300353003864942925445822113859966588927152, 17308275310572226587070100032676444972422510654042670729713196384041436760898, 9938973322734199474603200742984515024833743431854972869076888006847603294208],
  [21809774607850984131372422280976594872492735460699366898601719570834296604356, 7901214260710717070877318736847125959679315341316590492835273364786528917370, 18983930799479993218680277340491406100497489388594831053271189730590512674980],
  [14008120914763007281838010197572375377226239928250833901836536681308777333199, 9514673293818696479008970809309730715307077765482499540712433383086539494315, 5735114895330448481294645380681966952732879158559335685053561575006839666002],
  [16347373262283009199150681663400926139973428586231557748482281975696912125030, 2653333746599698164748843069855495530250927612991989223543436671323977712269, 21147947952572078383190646221864561954128240848487969204472906589597043633515],
  [12920125332144558169301874221200378143516702592724914476198177941935626857677, 6753111728662355118368380742307265041798692054707390242172739513511332859047, 8498740150719588763946450164131248550334553583129668316259017299933698467505]]

/-- The inverse of the matrix with the columns `M^j e0`, for the matrix `mds_254_5` -/
def inv_254_5 : List (List Nat) := [
  [1, 21548269997021847729704682970016055255199960513924225829301738080031743560501, 920706180206299627841363210404001262371173278841139776400615135788744120527, 21012345952310172803499504909348606586495024657593465306729289884842203563572, 16977870035123490233429782062577333738635698570464376533970760066060270839434],
  [0, 6261578678750473037593022664030150032368832377571886445203974700550397540197, 8142160312409082440812995440103779620175772374126256045337807896156389697557, 13719275333979309149758557301717817611868987506521289586715512993554337126231, 4768392288019190726556326206291276866556280848653484409166403063232780318669],
  [0, 322666653221065278250395718819563654254394615720344449825502102357050237854, 10477680038067267833667333644932928158550496358502931350424523361648076942205, 20463326555992174618421047293677835275488364539142879423259947638914330588566, 14079090096242228050885385706759528874389916478125802296547373063127353057425],
  [0, 21050318819061086882075380070970623678463846019947608357996509520602741450032, 12363549082323477942303343804228096507890906384095706836169693042144594826955, 15398051297089188090009045825498067612423517274115655520220717026662626928835, 1494411283183594544476312313961498985933011092498141430683951772116924281774],
  [0, 21345561744912899621379507767336252189447977374568102068495584819263108830704, 5364418378522829066964269434278933089039952920219301019332232692700262618335, 4278094482341989118542164207802130457296219128386789279107905805320769273890, 2072682099507731004971082118469927099254398231827570942707088130791664550253]]

/-- The same for the transpose of `mds_254_5` -/
def invT_254_5 : List (List Nat) := [
  [1, 11742679979048555646178276925058444100547140584021448906591039717638580570465, 3005941249902272181684084458560316738271578506945189244031189647912188659133, 3269067946820137442501831481687601553518275691235555609411319367379143355170, 3402059284041322403274216315882697170266726389044732461233405357013085807394],
  [0, 10871586402398650540606820004906149488946902638946482663882136469228817945458, 17099359971635020773040439345419942883326148363453140407849768436558391889972, 11018968816256197785389482660784788058790463051575929032544336666977630312577, 14901291972664077976047026975091904148386842588210716604385453549176080844368],
  [0, 17348057911791975333086258752428561545438996296862577925763103358716886271903, 2475049923577130158921948068104560043815476750067942418442145117260217074506, 18893179085020531065742627675395625824821494068846782191810654372579766765987, 1794790038047221416861533194536354164526947351025162975758106251563683760426],
  [0, 3919554699780724286510995231323584231696379367655718455625420865061346346360, 17467987322125435560779157232581786405568934286492775601562150285740586876751, 6945509317539688171237636933860772957348879343805589809491520074855055176000, 13103080524393329232345301438740980571689299913099128794533729606786462316158],
  [0, 14053834516786542984524343063242525757976441424046290412214028387914571587508, 7131099213941651328277022748388653057513964696923067738985857327542709310856, 19829017992036645825429845554770488035866143452536336638905430682320263147237, 17458339749564169437202767339678596557746152462362082947938492723623290949139]]

/-- The coordinates of `M^5 e0`, the highest first -/
def rel_254_5 : List Nat := [5388109238203268301107961423608949416014667041214084318101436481703278853617, 3951052981551195981451337268986788373584795897118019775895595718565636051880, 17661077826746911776597705833127509000652367907761884643394868841404872375713, 2759729456590341257880049131527541147294943196812320078428109662595696730176, 3279441652726030078568720614988551105824916650863644429097258869655832595052]

/-- Row `r - 2`: `M e0` in terms of `M^(r j) e0` -/
def pow_254_5 : List (List Nat) := [
  [11811697421562255662837867353788532042757238773607489099494432675014694913037, 18670635968926453615360470373278459800963112557118658202252975629595935159245, 17676918752055530385003355496722675814223509389895221839466488715299860995025, 12151416340025063658040998753144631203597403821415466977400991582042683647972, 3305056601792046281984631249478681337887592785698839857426337023393523442079],
  [13335208063213704866310551449242779724576738462994460590522432660592905981801, 19777382073758890215865373197784102609907558496612528896139190487075475409681, 17687078058203725122309448340836268387070444736288227742531174437266973114654, 14514565822600270422371756021710211676125704196740702076317351388051790644911, 3485256284648196316747429652288648610776152635787966565942542079647170880597],
  [2386612236476010467828609936551886030460952034865220739312509192802647413983, 1019855806075172193351851037931772716944814873268636457241470702329235354078, 566922709493696324160088871042183956980815690801931600557744766633896336185, 18741359927054099051056917769691404204476919575625375611432288085817300175337, 7050558228348007477424790755191545115202125662283195748092115410010288627919],
  [3257179775680254671751291693304545437979676446014070498092360211141908092721, 933311372382902393600246956976737600106242633380473450530251164492682751576, 1647852026984736830989872273716880080502468826717749006709487133205886296086, 15362185682926329140661427616739868553549187544378067890531583307360163986185, 5647263890517059123277955271282045636314917856133542748417218038785325867891],
  [3063087446222517824800271437889236747081750978942012613098176706701693418272, 21095315837272842908720792865974167725089877082460388643878229338313464978332, 18622679432438454655076220511664190112167481560224154653789805954947681339217, 5613078299264862444338153231137649861749171480740184283549705396777350904937, 16381177435935404484536427376054372182142225422817328652910392286459568673682],
  [14718882316387126611756137204839492173722282328321854051873504847463011119909, 15618144473547573848504116982024733784310720191382448765972862081615263311053, 12084970841053068019959270768468918447523690088833621514497530539344665343452, 15328469683644533072154044053111127484971637796097250559609403771638285848476, 19600887214996225944424708468458449476540427986085101093440020113435312477362],
  [3576866692207357861859246119939212899075388634150730289418757656523519246487, 19367533450223984831737028355973416235922505285241426113858766273034334529626, 3036149172570370985965303832797966086704088915792206891928471691206628956967, 18170537716673532245242124220413800361872929631078589560432516389773486010515, 4491355974798856674855168508365420447440250627730528374683582792533110969246],
  [21458625824672504093507609895169351002702992627778217947926378584293226402795, 7778528391027612677276675680821719025340400946998412282223677130224034377832, 456789361536208144192265944145938343488853257312050715383543132646749318981, 9020339609202038494203211425045230829959538041782300468417436033845548222564, 4977414580626202859742074417205758842331028904502190894561122921821401611728],
  [11446336495350189298551517582250429709520141188245627096928725155411975126819, 14167138099276569172805769082359601357420096524032871213613733918761829160827, 5760716369498078217714507076793355508045163147659325765329852241042624060115, 17715370846777610666685425780502213082076503784657843258376246210659011361315, 14534554509605930826775754204845466507807461502832394802828096404931898597627],
  [19646472405178532358742757094757056896872001143779725137707668400333321450039, 1636854467575033995910751074189960723736841539421475633329768061393913963158, 10901114304675422676158622563227692802598156308661135999344462897071527950036, 3469571917825041803750065322818691159189148213095704933273510453486696101116, 7350294977975334811229059958989444861128031648171504891118513494186424182884],
  [12477331476727380228699333846896122745582902290952750827591775337760894088260, 973619247688673791970324291547112750132285246460739760957247512032407629888, 5746815146851262257870402748931847608890730292205128991886214680445881528849, 4533272974118484867593984791322320143760922036095187864908340861786112076329, 8993159789539437721134941964388794867671240738270648698931491592026884502086],
  [149967206453445277058210288087296023652236751322860398656954854411355197448, 12163765072874380471414544235965822309979313813601130871610116398230661827896, 3410927200942541875064198319179243832123358065976313046927456799773706308843, 2516451479637152883967705714379775984464905962921699570946296960592572970807, 21054080979699519220152042941363182673690139733253250476066022135792621826092],
  [460120417374771140108028233173783706367357566134331651001435374498283269528, 12185078208695185991208905556447639884591924163956882324648643801563139570315, 16644892696235160427167817022191191994609407726146273632860002130469539079589, 19107399076384800613084202450687511440833019902655414197984680404014523378561, 18577915021726106970677586228701956668051235227697421105667267185679578110349],
  [9496815430490962562555862703294828471393339594648843886306742754700824096257, 2812081762793408318606515390416968367489151207079761959192041166952659097937, 6032484947090849201398164562629998550843320061285104946388231144798611157412, 5372842137929741966999257116789143536397055805496984038973604384016044649040, 3490505812109289289800834619845022689133677213508912267908154712868976052929],
  [3489124399544990520573583628988119042034991248621749831029249118653541181316, 16935736355177749646873534213282636596922245347102054485798838787836673076526, 5577589134100535281115166616878641745453314219455314821787848522695802086452, 17809300539116743465085140579254315012420696833405032092855634213502352422476, 9463496723993070531758928439786963650239092519417143435880892083910098412535],
  [10911892808966693013000015943086563782568373167252617397244650074097302304775, 18801957240414735671388786941775180934627306411232916920294841312803935502932, 18633497858951244237185560214088342699359674514600428467558589368574865169312, 2857230633884655565152652937819977874547663973012761486025683447061706171199, 12893323792775093648119676090653101289843576729097330891883161403995674758063],
  [17612751813365679921738681557639200670870168881553522831085333230988130518380, 5196281199632790693354438831759795130775402886979553931691369761357730928958, 6328113567950482830447388985721451441660916550162109884554321299240692889911, 18081929242723513369668696340414971256928437555928743268627027346563458459741, 7454669375612103433498176312483077876655471560204279526575899843403654292772],
  [13828201369748091064894291513716319576122433234696483081543209603490264601857, 10105836784581315496936113296546487763144167956856476129171281744706235158909, 1217645399940266104498296245379951601426577951958834253429165599978285909707, 12080365909146731321606389175863028388766042320980909774369899564054471062545, 12347677224929372284897418365225209171912447956703646832185867414673443170274],
  [6704197451835842540499000197579298130218630971256804596853844285755839882729, 7509606992001694088617877544775305523784868895805353715388368559574038975328, 7225596035056561546321862393777646085396341933174847027624525996770642379474, 1855198762197265689834168265422501079880943045444707381230957143838523299078, 20986720844436832936179835188580438131150490314141212053222626431179008987480]]

/-- The inverse of the matrix with the columns `M^j e0`, for the matrix `mds_64_24` -/
def inv_64_24 : List (List Nat) := [
  [1, 18399872149930948830, 3524176373861329777, 17008202724802744689, 17105978719784384637, 9527406195111853893, 4004599616253702415, 10867281070283292910, 17697542390218890194, 17209431049927990869, 6065171825245401662, 9356926173475239417, 11218547912738910505, 17773417250613610450, 17800661649094640558, 14058663572295825349, 16523910707483454692, 7447210726529283884, 4866098299082893144, 2411600111531240673, 13719925674095818626, 11996587769808101592, 2961672572254241429, 14173787202965843136],
  [0, 2132934986807465689, 17836175515118998612, 17977535310168819849, 14111101823823620981, 9416245876399053535, 4590852563906014478, 1173673660311131333, 2151177636783348505, 1551883560052615698, 595816219690007620, 4497473743458826879, 10506831769012385775, 10098809028837411672, 11352533211903864074, 495319963742821101, 5646818525985838803, 2125510625462879741, 14559249452651241212, 17699707655472924855, 4054980146822415070, 15579650870161143654, 3490747368250857476, 18117420166571238427],
  [0, 12324958748847153268, 6566521929911724611, 2465709761761278638, 7202156147851750620, 2882614918468776524, 5861344793733757887, 2397956837149469446, 14214642551457326615, 15425874168915678714, 5577647599572422064, 15942313768249904040, 6360694329924146938, 10185001055201824510, 6052285093116319637, 5761483996159397572, 9384491590178136411, 10902313691183118304, 9375396910891720647, 13622416347603810398, 14768668721341741567, 12399271713103236436, 6183850091340912642, 14843765569374256534],
  [0, 18372461104650739922, 9791390740958644532, 14634471781864102177, 9238085645536698029, 16167289632373841524, 2149001260219419251, 10293472599747754398, 7869554200606534110, 15301423566506058513, 5688779411361363962, 10593211999829195223, 3335307768206548089, 14758247875288442919, 10343792565685142970, 12363022822970061804, 18104925413884557011, 18321354576767756871, 3707719010405031291, 181994306052767977, 3971255354672324070, 15055649540829890270, 2581001656377256446, 5910204908274562181],
  [0, 16373806803490919675, 3407578506174192237, 15355116300022211938, 18284827539416249374, 5214320123892095551, 2079090764445044892, 1459468948001837170, 275122865637655907, 10012086881355340190, 1846588322491612946, 11469475397292178003, 11535632845120726530, 3832004009599380210, 6715779237467368529, 1905186755284692930, 14376623650234374872, 2394240788441108410, 17052690879187928155, 8172644997777476315, 6361220507252235801, 8468919456836935977, 1889827031304494049, 5510514892571090808],
  [0, 3310431764834544098, 6383144702615561455, 2390974483556727893, 17835866343866140065, 8216371050534084192, 9358924891950686001, 4899204838881194171, 17406685626709599458, 994926503608227063, 8932121899814881848, 1418365502306533381, 9668013321250361439, 1754703054872535608, 854263942385633312, 14646762698633562927, 17528152826873026195, 3232336120194926905, 13159804216993572260, 18057431141104873932, 2512240429096154967, 14493218233818278816, 4538512715934699158, 16976724915891353199],
  [0, 13109165867387978636, 10064657442747664399, 818146138691266972, 537430966008335351, 14181268635716193219, 16714775467486112136, 10845239752317156977, 15024194379090985104, 11840392419301895337, 3639315911246694288, 2240346850633235461, 4753707888270999944, 6085721451105072437, 10030911804058503978, 16090243491846272058, 4227844066140331965, 16683204855755673839, 3694685048464743461, 1019829742097075688, 2640347001926788538, 16315370348265602971, 6012070212287187966, 6877497071580565738],
  [0, 8947481044323067552, 7353779890624764875, 3431996710304784115, 6122246889545705346, 17562398784689521762, 3983473645885132955, 13882122666835584192, 1026238433503732230, 3043337535603731844, 5747136888276653350, 10719817246132794186, 6066742817562533026, 13749337502207693554, 9431972192891222344, 2852124134399988267, 5955448790349203419, 17238961487646394357, 7716710709721280118, 14940322917892652596, 1431542185483371568, 7077564968342821746, 276032340624892527, 10428916259053929004],
  [0, 10584119285009401275, 1526209040554280451, 17815732720661163016, 3435720853420120736, 9631093352907041070, 7446744585339300312, 8196181183042243259, 1961043885312417620, 14777656015328888050, 1341002161790317992, 324740283509362895, 12829870788400835706, 2767393277257316425, 11676030622541975142, 1376834629579075423, 6978605119809604845, 17594091498050408388, 9559395380858477090, 15059338438585650019, 7764334597698349177, 13051624261537228836, 16836902235371650640, 8225314882511070720],
  [0, 10321077075070679353, 48311141652425046, 11925144870153614169, 16180937664679157153, 18314270558628783458, 15895666230349278100, 11851585581923807180, 16980258597757555549, 16295389548006254680, 5227141593067881352, 5157217497392719433, 10735227280259261347, 14913367824789439470, 15828477133193421684, 700213051887410619, 5307346946292756824, 2477753854804691200, 12418919957460112741, 13219432185260292256, 16656506101989414655, 15436660404298150550, 6890049491605619698, 7026447698777372332],
  [0, 4310403152037584223, 10335244529167468256, 634813585744777380, 4584008122120184080, 17129331040013518960, 18371999985828266802, 17170657919087635066, 2157699437610335229, 7925571537584669065, 18008033431489008927, 11209791797604458226, 14780141571502115470, 1750982200679587273, 8956576707337892208, 14119682070366316672, 2446874473485280396, 11079602960033505619, 3918375680061690882, 7487837250693376603, 11738292345080903347, 1345716771193301934, 5442351124116951028, 9627468767288631898],
  [0, 10339336156564205912, 12847683431663876666, 8098442966509074391, 18341939055897985743, 564390095596025490, 5960004093665887543, 2091765190260214504, 15763343116458901628, 10419552811884786349, 6460717912272341441, 8745338315652700864, 8074644827194493820, 5156227383586945153, 476442899751879584, 15540757607227700508, 17128223804926930757, 232607705332770988, 11647070771683276545, 6741007249880500565, 6919478938367876701, 3530758739916667455, 404158521108517434, 11681512381172114850],
  [0, 17575730626263153174, 12837716644063509245, 13607689129451675289, 17173567029126197550, 10783708441660641389, 7080959640923963855, 10863162770436855067, 6178286893363469047, 5496445822270553107, 15682836256986655895, 14198168803848275445, 5772454235538752481, 6463030909517316067, 7955674657459998750, 7621075848916739921, 1513903372778787534, 17473923831036047538, 14771498204924747796, 7021651954117774573, 6878984598091317653, 2354370513992484627, 12546338763150648515, 1413350153052178014],
  [0, 1206458823054359334, 9280232971749701452, 8973174817270527559, 17760978073367578844, 18290129688434825237, 13841252632931681334, 5041034884028359474, 6401453603793139598, 14591780472040313008, 7419188614193392549, 2541536444869310532, 269853875294651361, 17050800082197637418, 752772224353443598, 15051434053282850322, 16332309056272990433, 8284501813899679296, 12485546210545728070, 10361359845421863558, 10938054685968703797, 6458747188727655376, 7454576160671428717, 8682216246405465628],
  [0, 15404691335744992826, 9433402637313347626, 12863309410935205172, 10593973527366788902, 11518597755354393836, 9102451251464959640, 4461092940522005606, 1909766881648685113, 9963850013142066201, 8678502026257754186, 202771447675721478, 8569266452662437195, 1546071789869752653, 5070202476981914060, 13458882457250733328, 14478662576403521744, 4399747048260587394, 11865522897743112043, 5082729591664756239, 11183316106656043300, 5144638383400464598, 13390930100535610947, 5317076663732403389],
  [0, 9586533480244523041, 16871977546121555842, 11410011361000173883, 6552264168292896730, 16289494351257469071, 13500053864254210103, 8543329136263250928, 12803698935048050559, 17717384085138775988, 12930261528225022044, 3789586885700037277, 6468195140291201024, 5236579788961807669, 6617789734348421751, 672367997869436896, 17935449354463043251, 4788960211827572505, 11651260326675566619, 11058351321824249567, 16463923432106591670, 13374785473759666874, 5815537474178748293, 2729560222372071892],
  [0, 8069978248027380770, 4522216480141331703, 4629617949213031812, 6099428027890502778, 1465541682465744550, 15191308361392186572, 3670221904679482237, 1452202776318301143, 14235367285525735269, 9189774201934162035, 10459252710303854743, 18152528892108616247, 15580033555684970213, 10597861604443353758, 469573727140539053, 6613869840897202574, 10016589005365575347, 14892589494180000837, 5267912550978147122, 18306094439063877603, 14136946177483838420, 8521424722164498489, 4420248319419364839],
  [0, 6958583911491434728, 12920013579863900130, 13938207291211539479, 2092030154427225034, 15419841920099763102, 5085787156325998007, 17896567985830347467, 6627716584450315355, 16694986703517854973, 17407365319542840575, 9906012363274484149, 10915274590872531677, 12843868360137463215, 10020680116582642642, 12505387643909716999, 17481894058611452257, 9266268636264162912, 14425420833153753257, 12473325545235324890, 16622162734714578908, 16080797401918644318, 9425840651516748354, 2206401902606695669],
  [0, 9210203468877556516, 4904944016147925442, 7562004425204451382, 8482689015730973383, 12086754394064612250, 18441393150657853637, 2801955758335981241, 17549559050560790949, 10976476534070165884, 14008500310016544747, 10135055097896249053, 12750258986660811644, 11946345454279859002, 9397772026969775498, 13872944977606852805, 1334466243216981640, 5601737487537950686, 16106456587603284791, 14904718704188958978, 5070837796588210671, 6904717504926552832, 7807272798007647976, 16773596116698704367],
  [0, 5676926507947382766, 17898779699582289706, 13988276069132375342, 16622814936107853721, 12670044759287677514, 4997713530859183669, 504813417700764477, 2671033470225483564, 9041867189981337302, 2008148522939045649, 9152684581145624708, 11699373077259757490, 1862608148126242770, 3499573707336240015, 12387548876801330682, 3735408263095523999, 16438724142800496748, 2354181150064805451, 5118672024450312646, 13324960841642647823, 235028646175904182, 3688214862287379504, 456197249827966978],
  [0, 11071889067070269816, 2255461867348620945, 15663632413477679896, 13698618427635911561, 9023432459440608354, 7689510793313699977, 11035526911368932928, 326923402410931860, 17129713989441465812, 8602627589105396506, 17749175310342222676, 3395490461972298142, 15169836558897152325, 14165607165502006531, 6993723965266865422, 6561179287768901489, 12729738460042115645, 4936313210281856758, 15216049856433823506, 9173420217877044564, 9504248346967283872, 12425700672289530504, 5702572242527121285],
  [0, 951478405744182738, 2758561050888000663, 16910023692610976529, 2305193852419299643, 7733476504627032863, 3063469850244781510, 16939146525592421491, 17422636011643556179, 12850772458702951103, 10891993607857147467, 6882291699269742429, 15516532499501705213, 1318434862810011669, 8880027935597320599, 1495715754316612747, 6344066406461145132, 12591177969439657584, 3507392215776027131, 5574715089411830612, 9733682112849746088, 16795492713293800132, 10612554125841839074, 10723835566696597546],
  [0, 6915039467806203847, 12036138798674047216, 17782245423910202664, 14201246448480023841, 3273616936172788098, 7704711009911882599, 17801843910421376655, 4672674392776251151, 460975930776258964, 7096488631475724626, 5952602464744382251, 17106319812085008895, 788853307590855956, 8329674472738775508, 15920844266101976267, 9218540152466921433, 9834741824427029274, 4313049275901977420, 14415720164137939811, 10424832923649565882, 16841874843455421745, 13741884053923972229, 14999848143205299657],
  [0, 1897760120536572297, 8687194523532209104, 10299292022059514666, 4453097637695186520, 6110706637825709159, 3544718525256242594, 1764278965825309513, 11145706295317969577, 2097296822120917729, 9942449323666878435, 4116255741714904497, 7107847580333188688, 3194137689046660055, 7368650054285580289, 6316353925612052800, 1201170368952032710, 9200751293532645871, 599990587030098898, 1035784678196628652, 13584052933036376438, 8863834120747636996, 9275999962199577024, 17379211167602456575]]

/-- The same for the transpose of `mds_64_24` -/
def invT_64_24 : List (List Nat) := [
  [1, 16309631320847838375, 3877115134165280666, 86150087750113284, 6201933858669490827, 17643367233109609807, 1672904091721392298, 5748378532152634924, 18292403550969435316, 14387532889425407632, 1264011405580405163, 15271896846782013373, 5616482833995650396, 11551163304220805826, 98727961391052075, 2615105161735995611, 11335276983219961473, 15246228633569880081, 3745017578428118612, 13842694378216522967, 1880696625411778009, 6356518695923557956, 9080040559367239211, 9399053090521867368],
  [0, 17372383676733774202, 16165431662495551509, 14905746975250841485, 3454513503923401981, 5985780235317765565, 6288630170803434002, 17523042695854511087, 1871500611735560566, 15192602948603072717, 837502520291713039, 5014375554365019643, 7061675790324824875, 6985574006791675003, 166315930656384191, 8872795599846011203, 5680255463714312680, 11414898192609918330, 6038380081316893558, 11912282369696414613, 11393037158799075560, 418236379866798798, 10811983030084458940, 13043155964466539704],
  [0, 5276144422446313473, 6419636888930299989, 6819829891946682030, 12569017485403535831, 9353866769970506219, 1876511786180487877, 2615526035424474884, 14750745695824416200, 4596589371963023285, 14988928940147942223, 729297221689876953, 4256786038931765904, 8635953452374040818, 3505426773668210916, 84484192200322178, 17965879889463322921, 14814467424573006938, 9082892623024822916, 13207611419029630506, 8580122797677230905, 16527699757752757432, 14282670682348246974, 15898416820216594646],
  [0, 13606719352235104463, 14150232631860153528, 17653672717603872045, 16484863627427652740, 17713188697112807310, 920934293409990152, 17119531831872248672, 11551121553640761609, 13954782371409018853, 6545884439618760833, 10509092403010940061, 14177667955066259173, 12789048757563861695, 18306363117640650245, 5939144814717774395, 8383054778578380194, 17861232782625408026, 12017598380111740372, 14795977342530955611, 15447953492275833224, 4908516921086143401, 15251728586635694132, 477143839686167549],
  [0, 3813974193421221256, 1367130641103734141, 15877304139407996735, 8030078564036345951, 1900796234749152724, 1720208340351129312, 4630379556948223816, 16061311913150154530, 14911524731329745342, 18370210135343534093, 4416365660942292712, 8977305871648300504, 11351940306304088975, 6428320877094794213, 5077815453532346307, 3820779358536568399, 10725128898992302219, 7174372972636184708, 12162672579209714414, 11862709457811073843, 6195216752349841327, 3608323686069462748, 4863355305858632534],
  [0, 18280849111230343335, 5404929483515305044, 358390145688550891, 18190224267689971428, 9895821967970524854, 870540829656579795, 4816934755516361952, 1868313802425760271, 11186073264771948620, 820153108028273151, 9265235633428309030, 14784073215280196802, 9614191928532089762, 18370325539410434956, 9346642029332914689, 8760997713626745498, 14279634134715618183, 12420911265527464958, 4782393927599029281, 17940976815950684769, 17746806111015153304, 7098573923470094784, 1894468747908728756],
  [0, 12344082237569420192, 9704479305193368545, 16817432819770472166, 17576180036605127366, 14542013540323723312, 14031349765615320076, 14860051108190867450, 5696278976355838463, 12163316111688362250, 1194746099032735738, 16330618558088401865, 1607852581040265299, 4191378047960753562, 11142946075289960661, 4475081848847363347, 1416651661477825359, 6545326408436591128, 10305626647561609517, 6598559416379427343, 1485738228386543317, 13354029675694421388, 5171223559352725135, 10879310092956423704],
  [0, 5305416334786992723, 1771538949193492825, 7231130971878129024, 6586778772993430786, 17202948030050617051, 17352191526953325047, 5428351668847319851, 5306572628866106157, 4786422614159809940, 4901262767674808992, 18300194806512103857, 16050716973719548178, 6841479576221507457, 4574569026651822940, 2756490867795218219, 165793218370107746, 11168456539125968208, 2990509778263352100, 15169220406272529480, 2243339854597863149, 10854360682965243918, 8535136074859198412, 6394832977599493032],
  [0, 14116519569975520835, 18356059563417412925, 10041297040221520116, 12196898773804686908, 5811075434905505513, 10049996685500914338, 8731906402889140227, 5995356161333359125, 9255931774723017268, 929418941393527015, 5927082540069417909, 13552538052069136885, 13207505351257228837, 17296619663274115754, 5513230227055873814, 15674705609510775403, 8769670396952688756, 8536154976144846808, 11338458280868458708, 10519575070704142676, 3404069088553962504, 4943774243180130842, 1347544888231895905],
  [0, 4519180373946494394, 10234412182005902593, 12165234998527579813, 3830103309627232167, 657978714527584787, 14150149731418918050, 5512361873863580796, 4972867925253766771, 17805252975330563078, 16622222723385001901, 2165807351094830474, 8896511409862154110, 7604109165492543120, 16678164167109896283, 7278826878801117148, 3228013092044413261, 16810801236167441314, 7325429261992102037, 3611716816566208445, 3287056200238381211, 7632865876606183442, 16691596325127214000, 10301931697809204561],
  [0, 2394286589999319955, 17821027842493608255, 1889687618913043926, 5372493664103975660, 4671348099568310826, 17185411983582957730, 4967024660564055733, 17039594074678806785, 13710681513285440289, 16213846312793293613, 1661673554790630872, 11129957622062274354, 6593377581037563879, 16169970740897668162, 15531573388191518706, 5306953424703180164, 16560234406447400719, 9549506585190692758, 13467855623018198777, 15852737398100529298, 4456551089841405255, 15040202603366478686, 12161664064257151653],
  [0, 6756303683135918424, 10337343695392601870, 3038667614280068875, 15310500780768208073, 2976569983544662514, 1347415540681661366, 5818212300065578376, 9705430326385112775, 18082353187061894598, 16245374465611267, 5749386012867998470, 6310585339860750343, 5330337546327078692, 17049665542695756557, 2899346890388499062, 16792394794533359135, 2724392612500033780, 370527617614660572, 18222477226630837880, 5621765973759802459, 4040435434707865662, 16030579873679266454, 14833831792695589928],
  [0, 16058743039603004207, 4956681455386708867, 17502658202613259535, 18351094199590458647, 7600978746008737454, 7738783702695871220, 1851985690583276164, 15620466290710926754, 8687918912827524815, 4408933621354502471, 8080211854823116288, 17580445670028445416, 15599610641462827308, 17597662316929642365, 1123814122242812456, 16862989882816672198, 2516593251277612, 887115850701164672, 7285079033373705721, 8951158749287250833, 14786296440631640057, 12640570455067002638, 829776085216258181],
  [0, 15920306108076166615, 8766339160828013600, 8049671884506852288, 16842045305407450582, 15226762944170262734, 15979575791409466762, 5706351873955711251, 10933289038656904191, 12802147554934567712, 657299887059553366, 10090820010258100577, 3364042535284180123, 4018117499292342643, 16367777041567737124, 173809048772489814, 14326756651769801454, 13226073962479723549, 18086996581311923899, 4769632117650222618, 190860370755627316, 4744692556995261019, 5985780111526921383, 5535271212620333980],
  [0, 5585701584206532766, 12349381131782483155, 2763425756296523040, 8961496412596892426, 9878344312645502559, 3420445667100065608, 13683111677638497471, 16242452135920114848, 16932636093071725949, 6131603541906610581, 13478646419425776231, 15855575347252941811, 5161703943080589632, 2877401465911030910, 2793621775068118945, 11214305073593612191, 596932793479870606, 12608591594725343881, 8810701600022033510, 958885283367127200, 13760108436014374075, 17105662114776098391, 5792383050050600988],
  [0, 4887882520822114049, 8970032297001505319, 7852556766254279809, 5828912519859267542, 5623713916302147209, 1848657839296599163, 4009357446125703417, 17873452113749850833, 7073844114396507771, 7040500322463971270, 17989301348446634826, 8590934154270434091, 7452741164269650936, 7103611545811877327, 17552411004238618475, 9979004158415830085, 4505390782008885675, 11094874947474448298, 7326141563305094289, 3081786700097849111, 14076406581140980434, 10396073981496604993, 18072761447819215367],
  [0, 8301593204743006861, 16618083601843762787, 8533641582510573186, 1676309731306390296, 17030987073811825844, 9047420928666932529, 16029992931171619503, 13843679567529872183, 3149056997636429294, 17288160714931050317, 11609902886112216898, 4141889917302155215, 4934277338774050286, 11695755973589998393, 7238484376843638527, 8928954789538591499, 7900431204148760126, 4082402617868294680, 15295995405232969892, 3133978950619400018, 17373530273206942519, 17019957091146224252, 8193453381164939250],
  [0, 9520854427475186693, 11975742904774029612, 16444500658099920328, 4552535737721716919, 15708404012351694861, 7338946623176906549, 8595461226268652768, 2147519115334459256, 5051378705251022722, 16372693159677915565, 17900307117954256653, 265504038836696891, 3831028460138512807, 2120795751282367774, 4613206644333064372, 7693760830601065448, 1849247104848004610, 4274896412709973287, 13036137055239797295, 11406810393156251008, 1897266753582493156, 15407637630039677297, 3183277301357888441],
  [0, 15250490052103878804, 9345952788421617118, 8782992989797190796, 8126596452358417779, 9435309983143247426, 12876334343590479528, 9505710051202589818, 11334154117742728599, 11170932357703548151, 9379391895762278895, 8487399728728293215, 16300545728214386380, 3213456349393891388, 2284489862209356687, 14201405693860524907, 10673435892144228512, 17354512541699356957, 1458538869892524637, 17631621333131151999, 15850936139038309909, 15068035657291377979, 16521948460762125768, 5790409243453141376],
  [0, 4155383224297774004, 10706322348159974378, 9323824065034380437, 1266258737228081932, 11701570882137826837, 9236220161881072610, 1797808364252197046, 17137787068421223452, 1502883959683914742, 15162542900619713552, 3169584995675552074, 16165419273954638807, 10096302542183325741, 8146156281058820770, 16804893890905474280, 14721744567501068129, 14449903990734387369, 9110917490495634435, 15672460446076418346, 4296976823634768342, 6547483861886459854, 12129226926151895126, 9689605248389644265],
  [0, 5552192419444266207, 16577639556333345082, 11581992047550950349, 8261722541134937038, 11178071029949535581, 4840339995701206147, 10508572673930450179, 8855190137570192920, 17599238020736019525, 16904675156985277353, 14875963497064295725, 2815288111995942253, 11959547893894895503, 18398651128336873634, 17654182108452524890, 10699080962588009368, 10610873498566632466, 12060796333838383284, 10966036993927017281, 17581129669916657984, 3927701507752738391, 17502299213887800582, 18290638189715071037],
  [0, 5932911309119577015, 11601252147482139739, 685136899593183878, 3028096095136861220, 6944513440315396008, 11862993335654793077, 13820858177297956446, 4141417051986120895, 10281059473745415814, 12348747401560287176, 661693869464699450, 13875622229271875025, 10907645677797488176, 6170084786481175858, 16757229372205478727, 4198015173864659740, 7832640648840983439, 12917042044275908016, 16026691443892478872, 5457521080023428784, 4593773332490587587, 17804908572988373058, 12580503832875643320],
  [0, 12611342460090338259, 18421336200660051967, 6630641457496000172, 4055018806281413893, 1160698872648813897, 5018144190694907537, 10194470347870050736, 7099994123367115801, 9113952301654173399, 6623700208640112662, 10634566631883546526, 551384800748622398, 4974275836150576077, 9979792914943169193, 6696760405764376777, 8223103253833052117, 5262066129503629146, 12735057975647550228, 17878645436649391920, 4808097935996429304, 2614680917500052434, 916737656723031143, 14593545987943016628],
  [0, 267148489502542318, 14839404488690847995, 11702053744180068694, 17629869200462052452, 10466033087623891461, 15251758931752097021, 12656227467859944425, 18158209393867330161, 8915051673068611429, 9660842185178515095, 2586942283139645308, 17016531454610047805, 13105719503558290862, 9869743214515241680, 7155104834797366284, 15750893610745141999, 3171124805429540397, 2641122095134636419, 5630243197470840238, 5061379244986237436, 15699654913753398639, 8053445897527345943, 7179803761792401442]]

/-- The coordinates of `M^24 e0`, the highest first -/
def rel_64_24 : List Nat := [13289966629830613878, 7833340007250289715, 13278476395514065337, 14929045667392952369, 8162619925695886574, 4678419871979005561, 1504655398504563188, 12817962060237878263, 16671102433322218323, 241088375240049012, 13803426429136872531, 2967936298595882792, 4585542025763007343, 3592255337537141050, 14604732334445345122, 16243231583088077228, 596820958791159094, 2782297665564755611, 12462498916687319278, 13330951733827675977, 15664791197338964282, 13630427499313253623, 6415474985096299747, 3838122383755684563]

/-- Part 0 of the next table -/
def pow_64_24_0 : List (List Nat) := [
  [9054302633276403411, 16951202139454945991, 1640183575065333105, 15300182229563574955, 3581163450511236077, 2768201748305534784, 11284893881812406076, 4787790740104316726, 3498674531791845038, 6327058923530559321, 16479181519683110387, 1126087666241261989, 11150581425405094482, 10918414748788751270, 17142220205955047866, 8527692646933862772, 7983307894417173328, 11927815176453414509, 11721537318983681337, 111561900130800265, 16490407980946635935, 15959685850144132814, 10895886488454691580, 15472672954199006439],
  [16844230799682590341, 12452770464240150220, 14732926200080479765, 14085408604218844463, 8685544635854346342, 4605210533191148470, 7996241354883332879, 12859833564029572256, 5352348470032575003, 3793560444498687839, 12735048138826887476, 293029358013623024, 16420132542546854173, 8611870410727045410, 10730895453355081282, 4496033636428369305, 5559550315984790805, 12980382943598176461, 3340528353599559542, 4394127423210500410, 17547042844880282542, 8988107119081641692, 15145488648397805678, 12692740151141826581],
  [3190702991232395726, 7891576268952770922, 15065202266195175073, 4227982515854817665, 6850762096943469168, 6847572879616755076, 726237489260875971, 2483437318456187680, 357629808009465328, 849992141438637529, 11942248335941537521, 6669391959118621910, 6584827326466830228, 3668995823131909230, 3136287130182557116, 4716166305903834684, 13097231639509292714, 12281485150209953654, 2313739728759079829, 6715630046194803450, 4590705090894384280, 7688170883117359892, 1202964522450312243, 6814493986379385341],
  [2019615287163923569, 15640152070829424556, 16598870157481560818, 6189298644666109802, 15486099327016600670, 4920481637076962514, 11156957165601104788, 13624321207542935755, 6283432889370914191, 1390580297082904772, 12902516472412087776, 14312967386990469144, 4912352306260509398, 5283512380033330272, 3642548176323803735, 14271645929179572313, 12015202074700324741, 4598164975130023727, 17007869528160698606, 3798710202514719754, 14339022541189663877, 10119592852626142105, 15613100923545533133, 13826643920223525450],
  [11454108260214066824, 12632859953112047600, 450382760612394992, 10100257647874745113, 17875202011092518344, 1831893875561650442, 6089929745576335852, 7095105107614328024, 6870769974201745192, 16676890226674824465, 13287369567422942899, 1332239877040758121, 12947183460902617418, 13930704694729013870, 4704183410377900355, 15445656335721234891, 17223179150637264380, 9243935090294460918, 7043496768496995820, 6204502831293437338, 1060624703118797375, 14258627229297919291, 18389875666649298458, 14875687865909523964],
  [11275194242972601327, 3392435730696516264, 5594855984069749933, 16540045063558968031, 14817318857232275222, 10932810181473224021, 7442641338797672410, 16940842130268062018, 1839546062413075611, 10072517104702546469, 13011437389820072020, 9859162333698644148, 13552175332245393550, 1835855400076676317, 13193787049695167830, 12348395037637531298, 7889941580192037699, 7347094126820359834, 7331004737828216059, 18423075678486797550, 14319468651266751488, 984123567717107848, 1944980792251480375, 161472619922801830],
  [165585715921649874, 3960918921091340223, 13027819185461423170, 13334471981152622704, 14831104672074191637, 13666310391540432271, 3634892760436583109, 16338362439164179666, 18344751472272956280, 6424369832258976733, 6869524112436977377, 4623628875015641872, 5026192516506135512, 9371188069900370542, 14654254986401685126, 1744901445528557952, 12760005881768459846, 6635013155397709138, 11660374949608245426, 6031601618154636352, 2200216039557845610, 8450775670463850324, 7348228107052698675, 6218853098101881196],
  [14500306461246909135, 6443607709661167560, 15138402864763382963, 1473716082209478765, 4429258551779898295, 6763360971527744288, 17221343074920329977, 3317846265931501832, 12183745084290379139, 7404596754518503061, 10014825348446262275, 13840940544630559847, 6626456202797195432, 4250650168218169959, 6271926523348809210, 15849529394744818545, 11293817114715362782, 4230110100595067355, 3012906867765621378, 15995188678681394639, 1240866965904327056, 6194849314728021714, 12114486351197273507, 16780041754789621041],
  [73464528483691191, 992160370666717623, 17862692911995905141, 9829789957832530170, 10409836619121815217, 11897686674157954895, 17186272410112411350, 5091636485627312329, 17246976417729416670, 13556197950710940161, 14852854942976352726, 12373390066775100072, 14750416999960079505, 16558392434416045508, 12568003973583900363, 10589221757273302226, 25623440155205810, 4326168552721549428, 14753094288386706318, 14035316203413689637, 4133167690356312560, 12965805283849425827, 1412775261196177607, 54780495130151124],
  [4685105447198497072, 9501004694821097849, 13239810732396926999, 17458124221501139389, 5875179831680886333, 12726975381459106643, 14512271171113747807, 4882847917382075885, 6954918291093275014, 12263145028981173051, 9288252297460066791, 15349896562631752935, 18224928204054845089, 2764720160181067333, 5528539280706211590, 8329200602737095346, 3809528426870518471, 12350209070508232877, 12556690959143865594, 2120485628080041410, 5578497923175951000, 12243723597434380987, 9644323652840202515, 2923210743957142868],
  [4466182475039666493, 6004066365180612407, 17970638428458646656, 15281720553286484615, 17156541692330379907, 16334989229486429139, 7082419361956381491, 7997096119893809576, 6283669648698975170, 7886628693916057976, 1437636280485318146, 262393388921444708, 7356484025963325044, 12092747696639379807, 1162943344735490582, 14090095125748149426, 10774550005950191868, 8927535286927316137, 14729259035392305301, 193014278224181308, 8140569853580720011, 757239950583566781, 2006803750277386656, 3598820050151714795],
  [7188357323636256320, 14346361472494485044, 16859227671325949875, 4921973663575537298, 15244109537434208286, 4385955657188428657, 17879545048888064776, 15996708879493251916, 11183152942141883499, 12709686682785368253, 9186840976852683564, 8729087582874484257, 10308695849818038951, 929404159369873442, 411384034743228260, 6040282591426810098, 7079291322150139254, 7939104492629577337, 6606903004442437328, 6703622545531851747, 8202488335505987824, 2018549678984019292, 15745149479254317933, 9710563202037810067],
  [14227672500997396299, 13200210820590804471, 12911794881997977711, 17335907922866831739, 8469001978491430865, 16147233128693207400, 15832118509643701604, 18178034469697135845, 13813027198608686709, 15671760807341844094, 15151307533577552388, 8218213353635407587, 4732213259223976848, 12995657801961226799, 8094720492957196973, 11352271232709546195, 15100833235179280636, 12188004379333758967, 9187968807585660195, 4337494566417747656, 3346850865069858567, 17532836778706888564, 16999652018484253178, 10833088644157361774],
  [2220579468109297237, 10598215842223939908, 15287108684458724319, 15136863229130627955, 12245128779774718622, 16031200154878984563, 6075727724963302291, 515631785886476605, 724640086939723535, 5746595491654027782, 4688827415114732347, 11621743234048311291, 7668076949408303592, 322644451100440779, 408065597040214598, 4722579261722225377, 11314886555533081688, 1314817736554812834, 7513210677646461848, 10066241452187154717, 17709574931058963910, 3860174316524558119, 18380082484563625104, 4326721269037649153],
  [14035759479908097095, 7884319476618531655, 2306251319848807879, 13287202162809113875, 18084976806193583694, 8168963028636940358, 1251435918906513931, 8321563972255609093, 11672939766528833274, 3739422543776777320, 18101337371412735347, 4401117620905034072, 873462207537435100, 4897278519902354306, 5021558033831332991, 7907009414094168591, 15790033810948159083, 2904965788443817862, 4829208159564288112, 17358566224593666052, 1275498813460571714, 3191637881557856768, 7016954592950513312, 2560880226031390160],
  [8422957424798660737, 13576455091782952201, 15581806726075253752, 15594161323304969570, 2262007658132333767, 9788884163688319937, 479427011427948023, 5006454983790714844, 2964319537270198932, 4882567728768328542, 787223901396555647, 405707776620285148, 11845296906124248555, 5884464960995437201, 2128105005405872603, 12214818626716799751, 15144137993519096664, 6005461814866797261, 497281419863685104, 12111028823300067465, 7906860773757280007, 15962803812647573169, 9125667574206530452, 16261536095526783573],
  [543139515708711217, 7735454997830811381, 9683536919041879496, 13190286407993611917, 7140844365330819019, 9106462696417108433, 4676292235590282239, 9167437349768017502, 6561633629838821603, 12120448457526522298, 17711616151176825281, 3566566961241403923, 15655900699656539474, 8013547524184908855, 4272529377986446352, 4583093453074256788, 9922565431879913055, 878851323944019172, 6612813035469406157, 16916738985567268895, 2348082231542667538, 11513321936232828000, 6272736116488736149, 7194379819687413284],
  [7839370599618315006, 14238102754421833913, 7678352298694416370, 17878838579277132176, 14588255755623108733, 10664818822582970137, 13780543018672328463, 7566377066860715916, 14026102568972804599, 2351468798426904689, 2612211391334497371, 193019595711951787, 17493437200769879998, 13021123676821476478, 2375201872191805524, 9705811106017615510, 13840994818806940749, 18057067641820056002, 476667455234956651, 11486948427960028654, 5377334822918489283, 8537591527179017891, 15423525783340333755, 3145354314897204427],
  [1135034927951953046, 2404035006447417450, 8134044385425717601, 3909157320927374788, 1523120232684919646, 12794898644295045761, 57513602775010514, 7084700227063900275, 5513740437183919745, 1894758464831393003, 14325631335107495470, 9869385990391170212, 12895596844698546036, 11804993191336398133, 12242804162878401022, 9892303490773284849, 9864725590348081475, 17289250819905806899, 15556644000312762495, 11699776313059765178, 12823627220572514314, 16874312683640820605, 728762638378984648, 6066938171660526691],
  [11207223341038608446, 9140951170250268645, 12501077995872177366, 14501753550495731672, 3198042957437757740, 6100367986620167152, 12164975299587910481, 6019015034227805461, 6378203241683101963, 3291295614622304180, 4531027937362895239, 14845915473507191227, 10846416577036740706, 11015248748188685093, 15137571160077165308, 83057836168108172, 16205533058165999912, 9866076268175078128, 11206372786467447605, 15772327165808047768, 3892389294394585720, 1580354200532960825, 4894678218301521772, 12694846688352702742],
  [7367638957760706407, 9337216049986540022, 10580018958264782249, 14597383267634066851, 565077086629884424, 8103370960566860328, 16235205800588083078, 14479694646000022393, 13559010104858668776, 15795766729474482226, 2967374864900469992, 13769163034858370688, 9943152503683995838, 5843323967676429532, 6788247550016113722, 6365054250619865087, 7791198635082083577, 5701150124888225500, 15482602476578927710, 15073147510449617040, 5833634919440708754, 15000960187453813074, 6058871580732420955, 925887151223496949],
  [13856211168508652299, 17671654691208104491, 9576950944830358171, 13841723286902860275, 513824400349706565, 17386648223722728318, 16710261014362596961, 6055747172560346230, 7596549744887614011, 17669300254675334398, 1138665245887419713, 2062450834909099080, 9641833520756198622, 9365313250738307825, 2364907788159491559, 2750794863675923933, 5204660072404969906, 14141400897985253537, 237323583005500060, 9763749742055905196, 10702632365070048618, 17520528146777077387, 9711088954364650245, 14998375537650802288],
  [47825828694593735, 4798749229041380714, 8588531253331071628, 591033583366584615, 1246826863237580676, 4876160687691892856, 16380463804220299575, 9661577791399285657, 8380672146009901794, 1137354661777548051, 8293895835538449801, 14988633759500106518, 13570728614618289033, 793270478851748007, 7646991400075086810, 4131352657851773038, 15197872000521266961, 7768447309481590867, 5332895204138602796, 9226578274073797318, 2214778327971990777, 8397267191613511433, 14217001309016404510, 42527541299746851],
  [15566109351739364824, 5272759572166732963, 1408270411713135434, 3203252913006750032, 3611769701875311895, 8152268212250047519, 1342684374074511004, 6812159793670245449, 17672376937926610864, 3532701552288241540, 15100832610381824293, 7972757416085456034, 13671999824816676009, 3812341966944441481, 15159306393540470332, 14582338360222728617, 1863889185141422805, 12384491597342704368, 1717725339554139514, 17332781808154920538, 7871400426824895639, 8098039064911553369, 9300873255093409956, 17332700538056402962]]

/-- Part 1 of the next table -/
def pow_64_24_1 : List (List Nat) := [
  [6120152666385783529, 18266932598393962229, 15269810673937035599, 1985009686374083501, 12024412272274549461, 18108210645842545793, 12178096015328982421, 4137325579432577299, 99640832719322447, 10047448897386732528, 7255499668658487931, 14381244517939208278, 100916847536556840, 6068408358318966610, 11975197589349213751, 4003183367625465179, 17005383103732893956, 5874264899204151026, 1413420988915149065, 12476432480578859010, 15761567676186660519, 103142066474898883, 12186482910702260872, 8561969426899488057],
  [2388577491384228527, 12848939706428311248, 2357221331117822117, 976186841581198264, 6322216604877844747, 5179771750915674607, 3796124991969183321, 13736282049939062874, 11645364688936793546, 5061233833186703942, 11327699545885170525, 12424958839053233916, 4191715262822165916, 18309006707647342648, 4229722218312709346, 17999888744909651033, 5821509545302319648, 292870260264942353, 3667168728253599544, 6700361013828413484, 8180978061572415997, 7896024896682265921, 4140951562379972861, 1507946429754931911],
  [3703280526745034816, 1829108481789482151, 10867319542518936408, 1309120171997697991, 15683683743303136090, 2735179808541579372, 11789443294436248465, 3590486296442306324, 15967678516177348741, 10869699614453381831, 11663142050324092090, 13424901999636913010, 14684341948400358661, 8101371651113940984, 14719271728321570632, 7403561104105614316, 2321031827593057503, 5289751315177608293, 11175784329935657788, 16382725774779724997, 5915392550317108400, 13889251632880220013, 8290094843003671289, 13330334905742825940],
  [5260307165703222354, 4939291555347357522, 8869662160096461184, 17189660932995047347, 711487838762899544, 1084162982047139095, 6598974512189426953, 8470339792662955184, 5039166272740007886, 5447447372161448019, 13256227358520577939, 14686168122722043888, 12721927584374763581, 7459336909874826850, 8515048631037954302, 7121046181815807978, 15861475968538700741, 9120933016082216701, 8846798079833653262, 6715571649509986906, 18187484242887911540, 120620670940306945, 5049151484966251800, 10959706219158225718],
  [16721752713558562822, 14159809861858668114, 18368257521791746376, 4443180213780477856, 17471890117591523849, 18163638099481031683, 14580865706575267504, 15551754408128767703, 2119598403273343986, 16705101540470566999, 65046001801166383, 16359240672990508361, 6573148062008309485, 17224623738151111298, 17804381450653688185, 6372267727337927488, 13821537073945971775, 7705746707773501177, 14770891526242323029, 11099657837014338253, 10410279866601601389, 10517821412635248606, 4892139883271730707, 13866503089645808307],
  [18224169876906042812, 4734235546256689433, 658998645104697625, 10589562820442181032, 3078563787427292252, 14433695045795736809, 979587112897368756, 2344145852251910889, 2468885067937430459, 2467939029440256574, 2734251309606862441, 16725534308508803588, 11520151273522198794, 2695183119956530499, 2356839508745025310, 7599389839964194750, 6263713730417093689, 6287058464152030392, 9365707558015593165, 16219258663396579265, 7533868606656013744, 5632673399815283414, 15949242461714970793, 9135845498540214197],
  [13346213319015767262, 429164140900938523, 4863788663817084222, 12351257871561388658, 5121022539581390298, 15800784020334574524, 11131826297269859936, 11084698191024397542, 1901381683686024475, 6672997030628253565, 6304400509997187122, 6038636347769876697, 14184165809598393104, 2368685569896479594, 6066747879496268116, 12614900504492863683, 12408730285140266252, 7988701496744169154, 3513436997076438640, 7630731827238183715, 606860308332440006, 10898514168361123721, 9628144615511437768, 9781819778117500313],
  [6064250567587619399, 17673708791947541460, 6978359781234120321, 11534402328715232739, 11407315408180437369, 4535653193155957593, 7244518693259125675, 5494422745687234894, 7801839743074100891, 15114991219519465851, 11415485751691978866, 10565606278765958753, 3056620841641720689, 10333779401994889265, 4407722183928194028, 1021582111411477914, 10118912763664159887, 3650017288803671929, 8894157082872653943, 6059539052406675588, 230580714454850273, 16300950456861145571, 3481653128787076460, 15548101705477129530],
  [3493875254919276767, 416662634357218205, 10867392177991208065, 16196961921289154387, 5290713192733496434, 17949706140268833056, 9668153003298161310, 15301143035082921447, 15945506988071705444, 4828201788812827239, 12760933347463736505, 15152567932050331675, 18392980983599508168, 7313915630890186256, 14172443287737238411, 782679912065573581, 4766222869972067270, 13425390573517710139, 16617192162754988071, 3505272071255718126, 4787701507480615413, 6887029346017330814, 14293325175414996655, 1711106079479590558],
  [9458772993628660807, 5094462463327925278, 16189241716488626661, 2910523573491629250, 11080193811129105109, 10312443883049813773, 9619960045902511192, 7505676543628025128, 3458053922772306558, 15368665797356121895, 4256252201010869112, 2840146134825479848, 16769523340773196363, 15764513114408766941, 16456977388399656251, 16711408024734753402, 7318974488564317485, 11187394499841343882, 3480793642120540188, 1523308658735694614, 11732320876188743198, 383291924692467671, 1150900054960965166, 8905506086869176727],
  [17211305381511210549, 2285362789023510893, 14627415827297321039, 11841196467891880880, 14419845264220208722, 3390899242938704757, 976181096921848231, 12677723307864991267, 11485658759452738934, 7069358944126788568, 8634294096164181814, 8437900946924151601, 9165761723475340270, 13684214789829132601, 9794545226873873185, 1833964695656115723, 4363021012334266080, 13235919034741600089, 371442982891612679, 7012747135517683915, 12992999150103717877, 6535764589475040273, 10313649508023766788, 13068746394287850958],
  [6567162895405388376, 17689912580269215902, 6179229334162756808, 7813042496047260316, 947597823581952928, 3916346461043297353, 13331903019009446188, 3840613055445625418, 225323769454518850, 9545086601253481515, 14784699575396636349, 7033755221102546631, 15316433334586770464, 8029967032135647310, 559837264769567593, 15972114452806863999, 18443896173009042589, 5613844784699143560, 7314503240850625938, 13087084512357984570, 4060031797030497183, 5669629349712920584, 13532821476770166853, 3905344050327916211],
  [8085858647605948544, 8585779068411866029, 683699552413494513, 8672792374371865912, 14710513676780909992, 10659558583006216625, 7574394417808598218, 10864669607149766903, 1839499880856688958, 17657816400338823241, 15259243632940997181, 13740065671657219309, 9751165329468816764, 7533226274754308811, 17279500403582377811, 10506040667073695556, 14856039469980499663, 17310742164881962518, 424978442198679843, 15111588519892749221, 10501927391382817972, 17922261300643047991, 17310807989570654727, 16931408618521400061],
  [5445230740351648911, 4942522609310111570, 2942868807466999885, 13077904486800159354, 9922071978872899011, 6898179895738941095, 9886445800972169479, 15322705923033925025, 18393308707697147228, 6230128307248455072, 1240690797653122071, 9703044045481173794, 7100621118424140335, 17572613023694334009, 10836902491209583471, 6823746802837811566, 17917749852716997812, 17292294854701551889, 15085293017829620799, 14027981072940918856, 11602615749181775039, 14413330325604605712, 9789757830523823117, 8459820725315793511],
  [708658390714229785, 15967103217743361183, 4595624999899230884, 10861342294507393530, 2350113125781719960, 8129495239192847212, 18192709766790598633, 5393917293239800060, 8201043993514709101, 7244024851092920479, 10460554404199261215, 10109152333837090109, 8793919246616427179, 4695798706952780063, 5532810686937238708, 8785634145288056525, 1770718040207516118, 12645472924314763976, 5763380503222890119, 15908449967509150402, 17440990709308047859, 5313701310968012048, 6053254555319230160, 3665785550065800202],
  [9450627736866674639, 2085432811068553615, 929391033267007342, 556747448217397901, 13853406440404317692, 14496171496072931693, 3334630130788639216, 7662526547839209620, 12486972888640675921, 6542307725517976714, 10051859615036748858, 3667490774502508251, 2444943521094532417, 15476451799843372247, 1747535720131496601, 3659827385536638611, 10981310066130981511, 9065193184326813226, 4031066154107084318, 1109428943275035320, 1488458199928607254, 7037595065524079293, 3352131166945265726, 5529785775458223116],
  [3858128057301705691, 5915764166012323595, 3360968859918547138, 9801930408166499609, 12381924771228816375, 14277520065475793466, 1829652567078848420, 6280276190701007388, 684040880547361564, 5801392830284476498, 15268763512655862341, 3086090699291840971, 417636027612828412, 1640824218462686464, 13816335987755693728, 2837339763640914337, 944189137128082319, 12946576391263616128, 2303492526954595278, 5607471957891178625, 13244196572773135005, 1386022775366259852, 13741176739554020733, 7563016490645018926],
  [15851019081548613415, 1662485062184143462, 7543549243004196005, 15421053828324938338, 7869632046845740219, 6957343966910977715, 16949021951242347912, 7062179577696044667, 13261459829677692439, 13319984836745830409, 6846093180516157556, 14438220452662874668, 18018603246227626321, 6295109887601859719, 5799188850344318709, 7335110211556808925, 17554834362115629947, 3631904840777949287, 11928225626201463048, 9605477119849878432, 2927337121349133924, 4449007908194589782, 6406042784336632741, 3379560367798012182],
  [7669901929501248297, 12779959346104218751, 17841690183835091573, 1543636807361629124, 5257136466954525517, 10167989307989236074, 12538521977984229437, 7780964042444123440, 2113494637287201996, 2094796948477563198, 13592834662364188139, 2789294764589617028, 3565278492537733503, 3760677601049082778, 9153477888007841500, 8130259356056688815, 15383430466229485906, 1710699812808558008, 6976145054461661536, 5238908153620116347, 8084315008385397637, 17025335764016657689, 16481934747833521926, 10480760805082344009],
  [5930035713038299836, 15483034866555307110, 1513916922153771712, 13776490016574163450, 13863294342309585070, 12880792066757490579, 3700979642710804085, 8142243893914385870, 18090322011776233597, 15422392077288295976, 5466985767241647190, 6235400620591665345, 6640897375760431977, 5992604952122442285, 16732852962747133457, 5824729769059143257, 2659406258681774366, 16577147631967774450, 6599086338429626540, 4974264868956054452, 604010554491886856, 7626119203766307494, 634078878753347424, 7323098193022590209],
  [14442103144241602356, 15911181888178036176, 15217406203493596214, 5714030884965098086, 4587287259280310944, 6142961835441832564, 15474905176016502547, 17219693691493131475, 11454063201714132546, 12663664380290900718, 17006540752519084582, 2642688290662771962, 1274909660251984070, 12485966689519755460, 8781614620157641688, 13402126624376633461, 13094706276629074411, 17332806986545886881, 18216749489621314883, 8500827066488493394, 9278923574494299432, 15249086476260451437, 2024313193018540388, 17798936435140801744],
  [12350694237001465433, 8618386886353995877, 17055125484235836416, 1358458412077126362, 11395534023003981650, 4308691824076107999, 16640405216770105618, 3408581298461667918, 7653397326559501892, 16866020168081213618, 10978271527123849646, 15133466244362500949, 13440874830138387883, 7226827358377144560, 358084915259314929, 5954663760540088903, 17979893027488308939, 10330988651237844263, 5152874964522387484, 14080910301729987665, 17209091174643135682, 14497794465478993987, 15192666173603472562, 17392271514340847658],
  [11820334094034915853, 16490517017638251310, 8061780025436521835, 5320724998848904097, 650638793323139329, 5068646113134452016, 13724330304686754449, 5766448778465747704, 10326910284735927477, 6553007519591763386, 8848704523222958053, 2062657743946806481, 8163366075954764105, 15206431648904900112, 516891615690243849, 15872808224745892165, 10478638957450720247, 12713511319032699221, 9191811600149372445, 15227838453198863221, 4977109355111804654, 1790062447571972047, 7129865542032513160, 14652364123443258454],
  [15802172034558911198, 2723834568913582140, 4287941104529418568, 10302561809510672645, 9976038100216346653, 14343539503139318977, 16957251221297668606, 5774913644048074325, 16147914847724257058, 12093089478544581315, 7505392274545679941, 13749585489776038429, 2370678924063357875, 13443422886941030015, 17004985267669850473, 5600455530952020732, 1878578073582058374, 11452065328651314486, 7740094119321492565, 13641120037783786075, 18301065083641414662, 12181804270820419631, 13018340146762922565, 4060109131760355461]]

/-- Part 2 of the next table -/
def pow_64_24_2 : List (List Nat) := [
  [12646910416481663975, 13568117293541684986, 9172767393043217408, 14581509195772412730, 5254484043774606461, 12086714737942549513, 4771637457568109532, 629832180850108406, 16471282121099745070, 1319232232894480691, 5822852118951878364, 15184286198691830990, 8372927779811859162, 2313926784588192289, 5751290355288310576, 8584770620318356793, 7270695923550746930, 15481601936713551291, 9491593048112925939, 12462429345885187554, 11986472680813739401, 15148766882318425624, 347849362792134978, 8579070277584582288],
  [15871080602994635573, 15111148136700319251, 7654846126500570226, 12135699260748177901, 15545259213503857677, 4571337734908885436, 3688602825338284324, 17856608399439511588, 1854763431715654622, 6077142980380480914, 15346623117403752064, 9108851963188460787, 4798016773978780767, 14947100844767159896, 11642246347485869099, 8377499291276491723, 3468477709486045913, 7144051493688460590, 15219304625398103684, 10572208828351692896, 16951188751674528022, 938422452154408012, 9833769730665566537, 17962047122356162897],
  [14791240013652475905, 5598137635046322859, 13774366590896863850, 11253896830308068145, 184248104418629990, 8892635851542126123, 8373985568919743245, 16403673138621356158, 3871192421252548442, 17711596082734705357, 3166409754475821028, 5392577328989254328, 14923175459188275553, 2390516687855150002, 12272371523037147002, 2540163510921985009, 12376212436023568372, 930663416534744636, 13199728158739070272, 18310118411195042309, 4126781991135530140, 17090335229263282635, 2804401104793572791, 411172243484076051],
  [18037259310792742870, 3241817266584561688, 361705338721529645, 10468635509710576211, 73452135984702529, 4803381976691769610, 1458216628410207018, 4729981552818810593, 5723018246535324744, 15203142030882907152, 7904167729798878147, 11160626427415909717, 14099719150154145321, 257522380667939849, 11710006043560470188, 6309675278781236009, 282538782885782712, 1575346831027535451, 6873132153095229479, 14677324781528828126, 12274241298910759497, 11264573262304160249, 13879088990949521543, 12032897800909915404],
  [6339891703804329877, 4431473641123922084, 4699854602888830932, 16030926202177283610, 109628849355299251, 16056521133147183865, 9584552569641591418, 10212940511065800880, 10170469195393512139, 14888704445213998043, 6548597356447160537, 12695221284821405957, 10853047020290861797, 17884848217007157020, 9869074362320462647, 5226776256624935837, 12467938815754036734, 17032890785354309187, 8902847130444802621, 15643719674760583240, 16458192516975465964, 4976990186359665693, 3902859727987528001, 1773019005110471452],
  [2075068381074233953, 14715700572560557302, 16050859499826127190, 7282247963464308776, 12199735173495885171, 7013477949036067035, 14525045005454180719, 17558545292506912820, 12845418908193199030, 2716481268393271923, 10880163845405524518, 15411123272967409148, 3706424232899115872, 13420927857228980227, 12554499947550695369, 8042641308430090369, 10063902667641242639, 895084877042114876, 15838736018963208395, 11057096380867009979, 710688660377278373, 15844536477705710457, 13728745932018958972, 9616522404740170380],
  [13165864739684019463, 6396712599658767985, 14263647569741394686, 5840442561650501044, 12170166187705217940, 3653732647561091036, 7032811334354714600, 12005028679971528956, 15503381543043755011, 1503358542520097221, 2500915832779547957, 984383268996825902, 14074563681281355784, 11900817881729648102, 8236200589529917084, 1965367032723439827, 15498557628060012973, 16090325782253022558, 12176207713381451175, 1519424367298332757, 15116664579766478527, 5144781440090021925, 17506124288463003001, 4009199066044624421],
  [12635050015459843481, 9507478319143553699, 7729333508262118872, 7466778609228036523, 11809420115725192619, 9581583770146459530, 7766804707318045109, 12555835873019595422, 11154116897035905152, 3694388296489482361, 15436601064718090690, 13418827770593982588, 3291025205671127751, 11429496324043010914, 1989034937723843796, 17492826543877007051, 7408286909970705369, 17404430647017510064, 16593640181043163018, 9980009350087959336, 11527630585522247644, 13012301342582837296, 944158218139446281, 10652202395742150731],
  [13899767203833489309, 18050168982659097301, 6988340308992276879, 7555104304354337160, 16834619495128572885, 823681984183991575, 15433102559076138501, 14569338958179178405, 1855206934067346862, 16919114255070115826, 18072256656105323172, 10202322359809408152, 13694760494266969535, 8740355868864115162, 16755404049067377858, 7474762762803359163, 10438827938256089844, 8385222423654261854, 5521314558542544986, 12542398525179673312, 3260992653000914128, 17849848806167507260, 6650422369106033923, 7768957304860085251],
  [15243164295315896119, 3917436808752832565, 578819392028597875, 18264908748802061181, 2720823111028143567, 8063867830250507761, 12121676371801361699, 15873167209534834356, 2206338914579079333, 5880228771359225243, 16395918664809689255, 16988823396771714092, 2705728784073141037, 13405765125869328422, 4900630512295584132, 10428251400491856162, 5230315932357429344, 2626151632741010032, 7271968775221313951, 15725415796559005356, 15716128659757222307, 7753678696477943275, 12285190848912101829, 15746565406199436836],
  [13012095015507597087, 10568357206999582009, 11469996186392338599, 3116160198633787503, 10804220182627888938, 10119430483050824934, 16496987636911437915, 14717345988724501224, 12277363160676128510, 11447399127874161797, 6726705331847058675, 941485611238488630, 12316708626283269045, 9599686819576701111, 1304413090597280503, 14978925428842306868, 10610420055597295815, 6448273006090931622, 11702146368659460498, 10042310284664390340, 8851662493233437655, 12596994556718780521, 8752677782561031828, 5046196015563209180],
  [18232439218821630354, 318763704145715421, 7197615797445180512, 12384757968199583205, 5139901983432271134, 9432718866240069307, 17108523943117813217, 16749803134091229830, 11182011886228398391, 9183968889514226586, 4566374896268869928, 4182448466387104383, 13013050346593385533, 18236789227479791091, 13419568796213460029, 17183654820715484430, 9614023308204475159, 15445212764359143991, 146703601989777212, 155583460008429983, 5397494931230791943, 12939778684548604300, 7427412260465695128, 530268590494494083],
  [4722158939870701051, 17624022112622324546, 11946482998924391317, 14402323663690906459, 1310349685685924003, 5498913230804602682, 447580111932646529, 18157331508142053767, 1016527599760971787, 13943843645511219039, 18034590930411369355, 9121135699365019263, 10879304837295211677, 8888336456267875778, 5556917729225532818, 16345485310750451402, 17749987398192538517, 18052197839750816152, 12035803362699502284, 10500898705553600358, 8708276100659508254, 6581955564416013764, 16960068172218009444, 7822020535256289077],
  [16609177401709124672, 12084611601901102658, 16341201366323089031, 2780661265298830407, 13140518767448239932, 11725063618218397887, 14595507547432090897, 11837872723851234769, 5375436841361065265, 3965632602382996702, 9930097466610861611, 7240962548810543819, 18401269586770865065, 5963440848210376703, 15008112296632487533, 12205039673156964704, 5700954818023899184, 12306006857206610520, 3669591513997976570, 16178053976639580650, 8403848759704702755, 12754608940163818194, 996421648574949152, 10285262728583100813],
  [424837850589388837, 10371402801856849605, 15165789281321160661, 17777318862894319173, 4500603301358443915, 10084801433163562634, 13535490479195409955, 1377026189518728464, 10738576112144690921, 7075960968962423521, 8703475512356775860, 679341090817548687, 11914605874603988245, 13246498396016751502, 4051845917443360658, 6930856575044246842, 17048181182620889287, 8978990231470339064, 10062631070459027417, 9235536691717693021, 3512165185520638668, 3983860834884763543, 6076650950463687670, 13138146269014340210],
  [10402638393193739894, 18207797040417091668, 11178531111977343776, 9966805426006227353, 13556982618315170785, 14567315823126278699, 9569283560678888595, 17288146216822289690, 5048933893287661406, 2761728513732087754, 898435431184281031, 17334962004514766770, 5928193224598840929, 6981418238059191993, 3656727341605350564, 17963214903062450038, 8700841615888108765, 11781705887970762704, 2889104674132406737, 590212397461442479, 1838613276580771573, 6496495408785634984, 3901475150516927438, 13639329165364005002],
  [5154366169522601185, 2090560681890731274, 4676363493153417183, 11227831202372912998, 3500877876417914620, 3203292208257087853, 4544577322288028499, 15681754038548077341, 7254579587851655073, 16871388765816433859, 172211610552904469, 12431825376544873302, 15927830815570598620, 10782371106776053439, 7595218022673784701, 14635575807813139836, 14141429463902484239, 10833184144096524221, 4095148089547674716, 2528619130219925025, 12939756082045894323, 7679424290114942672, 10016424247358515227, 6728618652458196531],
  [10066344730472940984, 16981467856375749078, 5509608113337439522, 6182496826473968689, 8070557418556129186, 15024734847646660986, 18431609399815862214, 11173640644389918521, 17296689884393998547, 3282436928656199770, 2212302687559110114, 8068017253639515975, 521082302699993706, 11668965203650503779, 1393267613082796890, 1842706043286226631, 10384113472789586450, 9560974631520792459, 3687433462071349313, 17484036014108907265, 12106957371810217461, 1418810834436705108, 4440056691614542862, 889560452610394256],
  [14337245541676687232, 11100694479713987539, 14657348935686001365, 10475482875586388440, 601843584272183125, 17378998982303497923, 15937214952315031566, 16843152599862817740, 7675481811360859353, 16010894019998951281, 15654621524752072639, 8897647455817246291, 11372291349140890588, 10589492618742685324, 4122667084820174311, 7691305978581948121, 7894098670978849223, 6695720102463596211, 9229784136755861379, 7062927208283425640, 7698868700187211869, 10833770465750712525, 13653364563578523070, 17706854122157259945],
  [6370240549579530519, 12205193499181525053, 12372056946332502478, 1449946388183757811, 2929627696944448784, 6344768449113610386, 17537755367249461717, 10267400827610990735, 13286749459542193660, 1369093186747038830, 10991400215531724048, 9961636963517275697, 999438380242521007, 5823259015196567538, 1865912828333936152, 16514606831576489874, 790177887881632615, 7611124311415805900, 7589607146936369450, 816838424816185617, 13994973635706356953, 11382210188986905435, 5266983863568231818, 1718691572150055496],
  [13241001878884866610, 9528797615948275757, 13223936880502629362, 16847398550955916288, 1689318039853267481, 6353624482705367859, 1980786234767454171, 2458402125530977864, 874240912572541397, 1375048373973018105, 9741185712019485101, 10844059586431618524, 7039588642893902349, 12606247377367393121, 5439649572107118478, 8902597894098014215, 16158980233430959618, 6043868910898708887, 752758945059660580, 8425743289478695568, 15515954269326233166, 17601628394156779332, 8409426952425045628, 17201735275334338697],
  [4718687040084452542, 17353770169062607537, 9066654135842625665, 7747013034410364324, 6603860850873764675, 10128826758182437352, 13754815640581957918, 8686090373057110159, 11879708086500839623, 18170705221519952834, 15341256861272455946, 7090412833538348292, 2892362626930204429, 3508620285317385254, 3725187049512182164, 9880117948690112054, 13642993929215559912, 10643463328412353625, 10243466647985717924, 1821372069485282018, 2256234002053515471, 12434385253110403618, 13029470408605781340, 5956151076127951195],
  [5201205874170883981, 12180086046782212777, 1463026811485511564, 7583779089110808789, 7028900940192490122, 13544716986937135700, 16890080935959352678, 16688567524596940798, 4823599157088279765, 11280795060503200256, 5842089242762657522, 8693849596455994548, 15001014981343513136, 3502547393263511383, 11077599698679982986, 16215575513639860302, 3406137495163260781, 286415636313854174, 3471806086239638848, 13942755112771094468, 17261747781555789385, 17468975880383653509, 6619791923250250875, 11350000905093536871],
  [7869235981077919984, 1343835676820842108, 15208939675631317027, 17575451576969563879, 5612962753921851019, 16574209910174697547, 10131710775530459734, 2918491986244423375, 12409460567550924374, 151154604126187194, 375226121062518999, 5201789217751499627, 12835704312211624669, 5670799255453102894, 765598064241386805, 132480552430967103, 260296583496008122, 7209712325436073230, 9885839626332290288, 14394861413155864583, 9621436826380490925, 4276513875731123757, 3381526861224400497, 14814239936395892145]]

/-- Part 3 of the next table -/
def pow_64_24_3 : List (List Nat) := [
  [1256908176278788093, 17234131685201193014, 16483733026645683599, 6155508377237705379, 16024717591298313359, 246835499366785814, 6626545879923799288, 13961024769659356474, 4926876383919250720, 7553995200810907760, 2158068722242023514, 4048820322149610496, 9532306807525795990, 7370235355737893000, 10720753689776029756, 11514299205465724078, 12949356845132695532, 12550022843167555493, 11658534169624973287, 5440795890072997665, 3916645845048765839, 1166965215749830736, 1043395130858979152, 3853646991583562805],
  [18091187515518656493, 2716640613599725051, 2158174101268712421, 17349180862217776740, 17073435506138136506, 3173945803800485633, 16851777456372801563, 14480531537243569135, 8294518354420861199, 2020854165272473247, 16634537566236676291, 6942280963655030210, 14772846676815941893, 15727461489007732557, 15884056164419851100, 3760819572942355204, 2291593771981901825, 14892556358092030281, 9875945978567154014, 15773436790021552907, 9161558319038952587, 5803035665427144405, 13461388448186786463, 8396580420344085491],
  [1833778867892354896, 5475139891438943115, 5027141909834551563, 11395281175052160261, 10892634145440697623, 16427958174394470225, 14759114959197104964, 16140591217986773405, 15002011710046915801, 17461900672702133219, 5401535658033148478, 14888014127926905206, 14449120325125781369, 1533647932667993945, 14885236844559254445, 2167177995011424875, 6065861416956836061, 15095597778710832590, 3039754113468039860, 6278855353215060390, 2853352316771666751, 11162830839271283777, 13099420333505713298, 12867767085906348549],
  [12692641948323176138, 2954920092849516564, 5518646852420698057, 7888653327764656680, 2279663951777157751, 16400404432526240373, 9504788543561733758, 5131650024765844770, 849259025782389270, 6251584214794986293, 4996356152300444139, 8466380139650622878, 12215753195935402157, 1291034606146437438, 12890464218034680950, 6264749786124650174, 12219402841562031283, 2522619014278670919, 1354279181534559377, 8615789157903013209, 7438861034331297251, 13747045064842178098, 8563261950851883084, 11851732014828895491],
  [3919841976202129235, 6066305250149917541, 9252242222834434768, 3036572800799378520, 12858115358690504079, 6208569045786449207, 12419908297103074387, 3400962129483696332, 17713132647070435173, 8837227891229192604, 10294706693635737540, 10553290321646415062, 18044825487987499244, 73547254250564652, 4294045632088578086, 2410287027574297818, 13717621460947245138, 14075218762598977069, 11996616680083698688, 15379847351274220459, 12872745463033346810, 1038150995743035826, 7382180066865024597, 2753915660223619389],
  [7501556787877404241, 11371195071535196590, 11190428451261250740, 10542885572191714294, 10596520812299049637, 16439847275842112533, 17984294329592936160, 17931780512946987389, 9698038285713796915, 11068077285446100676, 16215575012033644213, 12240366423486309589, 4705535611511218100, 4875699333814096952, 7595841935944973002, 10564754153818381158, 7084681833552086491, 5683806647689842104, 13635797453216104940, 6825520022193264171, 636812121238280472, 7019090023828901883, 7166543447132259142, 3503521500831475242],
  [18066574682717997140, 17572535393164326405, 7753926741135189856, 13973422097129044063, 4122606700492895312, 4170266116189872448, 14754010584243229826, 6102234684343577116, 14779860334338430997, 15164333814570471111, 5502078679127018219, 12154946233280290379, 3015547045622680500, 17959735248274370275, 16624394744017345145, 8433855330640944054, 9984503328087789824, 2561576857901673340, 718639796277762483, 5339870003192343338, 14503998609670471091, 8776390184271615586, 17850890390939878678, 1528294259175524096],
  [18362753210135274149, 12431162793802015124, 17186127725914214271, 5728043187535344304, 15075043581715784978, 6082037703984328083, 11284058068181865096, 17027988821529399708, 1949789638649109145, 10902624601279618050, 5566532307367838277, 14817719353382473979, 17194391788205586726, 6976206576870991442, 11986052327834719576, 9614323950420218837, 11664962023948647586, 8761941693816675542, 12668773441784070379, 2064878642408800003, 14682210132299373507, 3937193437089719732, 12318998981744730561, 15652016082446158760],
  [2072193557893572566, 7752417140811033478, 12479026199540182732, 449956934555020670, 16959592180981191459, 9888104295484949080, 1907082888841777653, 16165388511999586333, 17160989805248454961, 17420151949917029919, 5463045314195336297, 11841549681526354335, 13096185242972717734, 9032975732866791756, 9582616783983436081, 13501355053377455817, 18207937875759558584, 9731896988881544809, 9174325895529445321, 1626311302700120492, 15713066036264134171, 17544407935955528601, 840036354162622536, 13391498421607894855],
  [17006007456899758546, 6384978066922540879, 16501774684694026837, 11563148995056942304, 7907430225117403456, 1226788235005078782, 14782210851469581821, 12276430949986859705, 7372663920855467231, 15222719361272992251, 10628519608894584736, 15003501739352696974, 7230213095000188214, 4104981783491831005, 16333750913518103049, 5831905745787849946, 16185546603569344011, 10684257532562971564, 3785712672200178444, 11745579525783588412, 14591469751299708089, 7099686582321824875, 18313996900457332597, 2052335538755578785],
  [14945765806628716625, 8582822491566805311, 12730723368445487732, 5538166269336769702, 1432525208119716923, 444477337093704809, 1710716369321280380, 2649645011970933941, 4399878791935271562, 18243711253506099408, 2027384352051950451, 9933719283154567705, 3234690971089305978, 12087243448947634415, 10041200336848854336, 13665612798925804246, 2432033248857162810, 7717541887028982380, 16639242177777752253, 5508905583403358398, 4229788441417086019, 9759632985091149200, 6659496895085990537, 1523673712161645369],
  [18287106658514643884, 10837876357950181159, 13637202088600970146, 17788983775642644097, 4077523845025633344, 14940871357971080985, 17595004162698144211, 3988079355742386815, 5578410826690816117, 10286738469761176615, 7041535983513123400, 13496659447643533741, 16792971114898116637, 8495531552324388843, 8115387433564914258, 12882550795906796037, 10164038130040593597, 8968463317432541303, 6682109771917706661, 10505905942979843634, 8895541359209426964, 8863553612368677389, 12654822399165255071, 8984363010671346869],
  [1988595519822897329, 2895365816442479377, 4278833410265816237, 13065083944112285905, 16313278567001933964, 6056986710227432254, 12123451784594167352, 93550962295040329, 4019707354553014607, 10604946989807721771, 17102506331872976576, 12007274848957803780, 15514453864693273786, 14594158601688256515, 12584603649504342802, 5322644120940506752, 4327507102793823880, 7473613233361763020, 5149158010534024067, 12092652632377729326, 6724363428120393668, 10423264794344422554, 10742000648029348427, 6220110722153165891],
  [1040299579236179410, 3428007213667822075, 2896926266370619711, 7135026707588307928, 9523223443925629240, 1707068281734436470, 11490007517309746150, 12405244922489824752, 13700477893634577708, 338916661188125492, 4762346601650437252, 1860900366249137152, 13362984803707315049, 14532209140406540287, 13863410649005507856, 9065929567668743195, 2125449689154719105, 13231526795147615543, 17804952630030499597, 2126922774739414919, 5161291145362201362, 4910628467550873142, 12176994832131629759, 1808291897941528584],
  [10830214572172028745, 164283817419485201, 6318313855594076330, 17614526276441179573, 16398872752070948982, 4249859224854026484, 7140520016225031716, 6625445832071635012, 18387063751647394124, 2180131266735035692, 17092570968843916801, 13327694674907151867, 8098432991905299965, 8651404201291901769, 4395686989174112339, 13815582541471588723, 2315356202481499648, 16986488290846231581, 10298705109237026730, 493578388390078317, 16484115128081081519, 16783919667263537052, 4097745448121095759, 14069511675102956010],
  [4614024941259335363, 2423040574917449167, 11592647870057889461, 4688508278620104980, 13738876782758548397, 11794032045606089469, 5544773674199341538, 12690598230759094225, 852643796138601224, 5935382254595936451, 15884221894199588656, 14760826591048331497, 7014387447462758132, 6067151644724198675, 4237380794168450812, 5000145494863932563, 17989433270158319474, 16078363592696941778, 14364149372640394626, 14728355192627860886, 315429195760620869, 10026120910814110286, 8637877771109793762, 602948722128430680],
  [5036102087543694794, 13428229997745223004, 9338401913462382347, 7207043793802162958, 7083878164430206118, 13609377601094960324, 12971500172034982413, 17273418804573464783, 12215999973710868372, 1328316993040873469, 10798190790479560661, 5306837785722272247, 5365461859543069339, 3311051606714675871, 9284051227886268100, 14002342173367398786, 6671672693281633997, 10975663270210304373, 1164002983585254795, 8972375883707070647, 13361365239516512898, 17859757620648229073, 1719431183669550042, 3553571545182756908],
  [5528799439559095661, 72222831726106063, 8610932794973268474, 9742999335248313558, 6862378716811013585, 17336680876138258348, 5858305428486617757, 16483026037893630334, 11873546164818925623, 3979530281824787828, 5895666325205308286, 9994664306897301584, 1472547587102776025, 15819442065267883473, 15817373752384707741, 10953557729944154604, 14073899087053224627, 3982523394771571324, 12373311567417744280, 12443071136328057283, 10239686318765808592, 15621830994509920526, 2607936399545558888, 1371471571888192943],
  [15231781068715456626, 10124264131313370231, 6283661157988323513, 17291540829427865312, 4644330819687711673, 11171889775127258351, 12934441311063547270, 8600357541459561079, 11247275417233582104, 14306752732800627044, 11207461735947611433, 4098175790934517463, 8497452964037738586, 5360581896827248797, 12548560598898072825, 5670213967989993897, 14623239104038684628, 16400731589470375195, 12687472837554944979, 16270204092966864961, 11724939104931003938, 13454569723131637968, 9204257063930914186, 9276635665689539858],
  [5798742229063505430, 3248598416259557847, 10786692798266911638, 570773451513941673, 14052945672598682479, 9577648650398251968, 12037435635108394782, 17319586152786892419, 6003562394109749071, 14707065353664448195, 4304630095586945479, 16065833116066073149, 6765281496450607819, 17434220699646687855, 291912938343482902, 17678199599209260977, 4228960036978246630, 6207530244659246280, 18430298344506884482, 2195120102442733426, 6442673446344892009, 2678123619285885296, 9980265681491722586, 4290607324346466136],
  [3601960116195536898, 11294934487722462087, 9669356666497198361, 57299126796244417, 15911453590625383833, 6983703755539936386, 9662925905967642039, 7402994501950622803, 13298090762762209766, 8126553361880631729, 6945196896592164522, 15614355305938274803, 4828496233539034331, 5222157810828744674, 6814231302085810774, 13637739042319693833, 16981653033273178057, 8684484988824876904, 14176227227242478952, 8534708010880862373, 14028030844450139036, 6412313827341471056, 11503516562834667239, 1165284370029016451],
  [11956892682358043971, 3934844984516847514, 4655108556781622865, 2883352730929935233, 127106158716115098, 2801612501971902796, 14841267437805065437, 17638068378875305126, 12535153537668273919, 15364707349235725654, 14769161503313811085, 14330413581157771450, 10708351981927695217, 11369689080720904840, 9793089121794490507, 1140123896631432575, 14398767023115510767, 3741629578592612511, 15100274970509670677, 5011859029715667726, 2912581061231508175, 8805894345064737217, 16574568324370144646, 3345410461682154937],
  [5996872247052643192, 8636269303231596864, 3918916168210771799, 5995324833557442450, 9954462720127230011, 4989530443182228659, 10293082533821384939, 9118093684567119351, 15582692722692871146, 11923938216406816487, 10468793854909020189, 10248935434805168595, 9998649041431771720, 13910492337937538917, 17478223315804658575, 10393653607060811481, 914133440583564838, 324739429840147747, 5164368942991626929, 8015633751072374867, 2839014938128549795, 12326549675503777745, 2124689132798834570, 1429616047998807313]]

/-- Row `r - 2`: `M e0` in terms of `M^(r j) e0` -/
def pow_64_24 : List (List Nat) := pow_64_24_0 ++ pow_64_24_1 ++ pow_64_24_2 ++ pow_64_24_3

end Poseidon.Authors
