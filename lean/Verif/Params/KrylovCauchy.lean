/-! Certificates for `Proofs/KrylovCauchy.lean`, computed by Gaussian elimination; their correctness is checked there. -/

namespace Poseidon

/-- Width 2: row `n` is row 0 of the `n`-th power of the integer matrix `12 / (i + j + 2)`. -/
def kryK2 : List (List Int) :=
  [[1, 0],
  [6, 4]]

/-- `4` times the inverse of `kryK2`. -/
def kryN2 : List (List Int) :=
  [[4, 0],
  [-6, 1]]

/-- Width 3: row `n` is row 0 of the `n`-th power of the integer matrix `420 / (i + j + 3)`. -/
def kryK3 : List (List Int) :=
  [[1, 0, 0],
  [140, 105, 84],
  [37681, 29400, 24150]]

/-- `3150` times the inverse of `kryK3`. -/
def kryN3 : List (List Int) :=
  [[3150, 0, 0],
  [-10276, 1150, -4],
  [7595, -1400, 5]]

/-- Width 4: row `n` is row 0 of the `n`-th power of the integer matrix `2520 / (i + j + 4)`. -/
def kryK4 : List (List Int) :=
  [[1, 0, 0, 0],
  [630, 504, 420, 360],
  [956916, 793800, 679140, 593880],
  [1501967880, 1247244264, 1067888220, 934353720]]

/-- `564480` times the inverse of `kryK4`. -/
def kryN4 : List (List Int) :=
  [[564480, 0, 0, 0],
  [-2902590, 2547685, -56610, 35],
  [4572288, -6920064, 155232, -96],
  [-2258550, 4508217, -101850, 63]]

/-- Width 5: row `n` is row 0 of the `n`-th power of the integer matrix `360360 / (i + j + 5)`. -/
def kryK5 : List (List Int) :=
  [[1, 0, 0, 0, 0],
  [72072, 60060, 51480, 45045, 40040],
  [15084020809, 12985932960, 11411880480, 10184494320, 9199179990],
  [3281650001878248, 2827799077483380, 2486782009637640, 2220550407059985, 2006620111616120],
  [714741991740293068981, 615909491886659770800, 541644932533179875400, 483664709183459403600, 437073450485135413950]]

/-- `6093243231075000` times the inverse of `kryK5`. -/
def kryN5 : List (List Int) :=
  [[6093243231075000, 0, 0, 0, 0],
  [-43071996845773896, 16432739354568537, -148075494049626, 24298015203, -108438],
  [106115359901655104, -71828936906504778, 650704322901269, -106785460782, 476567],
  [-109849783191884736, 100247186791523772, -911972518731456, 149672806668, -667968],
  [40787129384325324, -45075551685051888, 411462480917124, -67533337872, 301392]]

/-- Width 6: row `n` is row 0 of the `n`-th power of the integer matrix `720720 / (i + j + 6)`. -/
def kryK6 : List (List Int) :=
  [[1, 0, 0, 0, 0, 0],
  [120120, 102960, 90090, 80080, 72072, 65520],
  [49045834084, 43286443200, 38767528800, 35120685600, 32112039960, 29585411856],
  [20906004083284320, 18466037198294400, 16548942573563400, 15000076289598400, 13721075387955936, 12646145692187280],
  [8922073557256741325392, 7880944660935830003520, 7062892659334344792960, 6401948339060114480640, 5856148973176455713760, 5397424748278313678928],
  [3807809198960966543621397120, 3363472873915214811670370880, 3014341645513292331904386720, 2732261163465894024855130240, 2499322542084637293495639168, 2303546108984957394238196880]]

/-- `6005500528547520000` times the inverse of `kryK6`. -/
def kryN6 : List (List Int) :=
  [[6005500528547520000, 0, 0, 0, 0, 0],
  [-54165871712580526080, 745966614097342677312, -234358367115543743800, 1043625962421960008, -88781563513370, 202297186],
  [183239118125580142080, -4564872446019345899712, 1439100344125003464800, -6408793331626202608, 545198402974120, -1242286136],
  [-294424500746827039680, 10044286114662277037352, -3175502342890866540300, 14142129493207989618, -1203077053074645, 2741324931],
  [226803914857683072000, -9491463669066559720800, 3007840256536541370000, -13395890604738022200, 1139594907895500, -2596674900],
  [-67478212083522240000, 3268726794486125544000, -1037940291123415680000, 4622761904820246000, -393260807940000, 896082000]]

/-- Width 7: row `n` is row 0 of the `n`-th power of the integer matrix `232792560 / (i + j + 7)`. -/
def kryK7 : List (List Int) :=
  [[1, 0, 0, 0, 0, 0, 0],
  [33256080, 29099070, 25865840, 23279256, 21162960, 19399380, 17907120],
  [4308559937690836, 3870883999382400, 3516052966105680, 3222152514300720, 2974477079754180, 2762760079903824, 2579600236132920],
  [584617698215914636278720, 525609918658142193755880, 477711390175616277961280, 437996526239882287189512, 404498598121041329571120, 375842428279332178944780, 351035306249593327805520],
  [79427021494574301477655093941472, 71411548685453180771729895532800, 64904905495834526866411857309120, 59509795299435890622677580196080, 54959121782626215225501280911060, 51066117701273795001797197730448, 47695954888306126599000851687640],
  [10791450601077302443473998778682744279680, 9702423710294980333013328962047902552720, 8818394003718921458260988998446831378560, 8085382944539813409263704920924573255624, 7467101556765480366993313361665014129840, 6938174724390633545734554864159244327020, 6480284011197958863713435779810521654480],
  [1466195201971355307671269889744100161743911222544, 1318233092824878061774671176987078975801888121600, 1198123199845651633231856575259672583524828837760, 1098531657728252317868957812935025211324000083440, 1014528016564324357273390990744677022424524432020, 942664652414249915137567211470092174788388817296, 880452706469348134543394559312805264285123304280]]

/-- `47101677127318099719810596130912000` times the inverse of `kryK7`. -/
def kryN7 : List (List Int) :=
  [[47101677127318099719810596130912000, 0, 0, 0, 0, 0, 0],
  [-517352851744981882921997587366848000, 1751125318503421942159424529960004800, -132264464305526002314685088820121600, 116872614528803085198612622542000, -1612797246628314880140042400, 437059307798141542800, -3129510018400],
  [2235902717313459883559192475893256000, -13882800153660316398374082709823971200, 1051143480182599663916541585448795680, -928846003484824293928762887069600, 12817724098884319769953753620, -3473533750990022834400, 24871815979020],
  [-4916617005268695766476363629209848000, 42294490388853003532255807200788327100, -3208935046291913814925119769553605440, 2835651948762507321657013315007925, -39130940505185844416507079060, 10604272839704723182575, -75930606010860],
  [5846111328889324402383087053113132800, -62301970996812199088038476511763828560, 4735231493275234536800241326691955784, -4184485237166895584742853401375580, 57744355646396667126284030966, -15648407579697938436820, 112048519383746],
  [-3584984625983506492114008662294064000, 44598932749649939415462643133765338200, -3394868530383475439437132873611544080, 3000070413426030631998418832288850, -41399878512982773260912646420, 11219142874420829784150, -80333308141020],
  [889881372757597134985261656214464000, -12461390981805253741474049914717803600, 949818521790245977143198957153409860, -839374628900414307714019174182300, 11583066806235181657588417515, -3138948390681068951700, 22476058212465]]

/-- Width 8: row `n` is row 0 of the `n`-th power of the integer matrix `232792560 / (i + j + 8)`. -/
def kryK8 : List (List Int) :=
  [[1, 0, 0, 0, 0, 0, 0, 0],
  [29099070, 25865840, 23279256, 21162960, 19399380, 17907120, 16628040, 15519504],
  [3719939799372052, 3387023499459600, 3110305893294600, 2876387276883120, 2675877787723140, 2501984736787536, 2349663109673880, 2215081834233840],
  [499294447062799897028520, 454904547438175323529040, 417965984290280026056456, 386710418089617524688240, 359896631803550101079820, 336625420186053360164880, 316228078824140283217560, 298196231733662262816816],
  [67105240632584910162656332756000, 61140302023240549608182820536400, 56176491232082741265831821135400, 51976252605402265911009293374320, 48372835683967843554769249726740, 45245432580889702967673131536272, 42504199982033264203388354855160, 40080833275452666405198527260080],
  [9019278241230405283233936031652007710160, 8217564696547141005813463521562064423120, 7550406503646682948046417632938234374088, 6985875397915181311218135270752591965680, 6501559539450524964830510035085079474540, 6081221912051547820138016183578689044880, 5712787238540690166360559960087100761560, 5387075116138022468088034558095573744816],
  [1212237053186407362512084194465677967573371667792, 1104482672879968014874330140155648735869356478800, 1014813214581894520350408692129695152804520261800, 938937357926628363143366722698375229562721955440, 873842838096996897407671570263292007161385805780, 817347317798885838106158618553722739776222214800, 767827818520446795236920391462020475692323751800, 724050447527034583538175166556847982549520602800],
  [162930854603585594953744831423938971475384786397567344240, 148448115305706543890257221539826125626588548518468304080, 136396081925622998875520606645768533651262820431033834952, 126197979082355150132649443559957561790184841261005933040, 117448942994809653797317545498891123055820640440380903020, 109855656380864792142587996096986067451919644317332375440, 103199982636408994497635299493787847313196613691433253080, 97316080273602100312509580875776545363444097202104315568]]

/-- `2726819919647053304738832309760819200` times the inverse of `kryK8`. -/
def kryN8 : List (List Int) :=
  [[2726819919647053304738832309760819200, 0, 0, 0, 0, 0, 0, 0],
  [-35330974032310538961317102438145369498, 10140176050297437692282856431545030021083, -63943912318813048050392237933388805242498, 4020467550140189304086114615100321849183, -3369094185358072648041164710052871726, 46881237034289198235166031737521, -12998094080364104336993718, 94114539956792853],
  [186334376667387558289662740034568210920, -99145002653772738049379295119227493416620, 626344367469391560960483494575263714502920, -39382043892981497231258434883579223202620, 33001596145626449774110713313417130040, -459220066978434626073304491979140, 127321419233726820789525720, -921888757210576020],
  [-522793472098122379667644599013711114950, 388880975104734867245987445324527430265845, -2460579405603446531749468757125242831411870, 154713826423843894053012992347253144872305, -129648026209440163496592490094733528690, 1804063513100878754267177338601535, -500187041917571688618021930, 3621675074172460635],
  [848095746220023793093259257739986566720, -787639313071319669770692358725952975066080, 4990429673920675292169006262496453707805760, -313787399890163792494677162524701830776160, 262949506353137923628630418254345469120, -3658965164885754817344324277909920, 1014469251841697118466265280, -7345408207357504800],
  [-799496896557053437664086801513004517390, 872666221014812773875464515416546429770705, -5535750346688214199804808479925741128191990, 348080087514072333085671567030649324076205, -291686350554682952894953822418763223530, 4058840852457599597427216746870835, -1125337098768780642427663890, 8148162545434488655],
  [407173076240721559441198098559179160968, -503269515768762834001362881447514879739356, 3195855857150856906571230948522693983006568, -200952962260882979402653899951439036366956, 168395856148262275531112597013708120216, -2343242940892338963169341349562772, 649677656451520838963655288, -4704083027834204196],
  [-86709337476700074228837903133156110930, 118368888737913201557522462336294799867135, -752371932651367367928368845089887786853930, 47309011854037778497251333593792394496035, -39644315041874339143123759754039177910, 551654082732288708549587051686845, -152949284686432896751719630, 1107450944432017185]]

end Poseidon
