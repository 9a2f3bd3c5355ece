/-!
# Tables of the ziggurat algorithms

The literals of the code, multiplied by 10 ^ 23.
-/

namespace Boost.Random

/-- `exponential_table::table_x`; exponential_distribution.hpp:43-109. -/
def Exponential.tableX : List Nat := [
  869711747013104971400000, 769711747013104971400000, 694103362937721236020000, 647837849383256985380000, 614416466577247304910000,
  588214431579539979630000, 566641016745403373710000, 548289062752606286940000, 532309050575439861310000, 518148728130150103920000,
  505428848998130471170000, 493877708590125148380000, 483293974102511258810000, 473524299660174125260000, 464449188542008548730000,
  455973706170735155130000, 448021174652842219490000, 440528769347357298050000, 433444368031727301160000, 426724248027736618730000,
  420331371373518438020000, 414234086566405112510000, 408405131040829746380000, 402820854464793651060000, 397460606667378847930000,
  392306250013548959260000, 387341767039950899830000, 382552941852233673720000, 377927099241166789920000, 373452889403979753500000,
  369120109023741894540000, 364919551576085384780000, 360842881312890963390000, 356882526564833740510000, 353031588912934386330000,
  349283765477406018140000, 345633282113276076250000, 342074835725112053230000, 338603544246030178870000, 335214903090011001060000,
  331904747097074871660000, 328669217159906920950000, 325504730857045018130000, 322407956528626452070000, 319375790321224074830000,
  316405335802597345800000, 313493885808444073930000, 310638906233982466600000, 307838021525409051880000, 305089001661545544790000,
  302389750445567677130000, 299738294951613069490000, 297132775992108964720000, 294571439489504563860000, 292052628651274066470000,
  289574776860014168380000, 287136401201553625920000, 284736096563518882660000, 282372530245003549050000, 280044437025073819440000,
  277750614643975720410000, 275489919656234536500000, 273261263619470074110000, 271063609586792936860000, 268895968874180415930000,
  266757398077326708160000, 264646996315180939050000, 262563902679778861230000, 260507293874083553730000, 258476382021414069110000,
  256470412631690536870000, 254488662711187009280000, 252530439003782794270000, 250595076352859396480000, 248681936174020968070000,
  246790405029736498460000, 244919893297824989080000, 243069833926441990880000, 241239681268887083360000, 239428909992145832880000,
  237637014053614081940000, 235863505740933746010000, 234107914770303468750000, 232369787439019645590000, 230648685828357986920000,
  228944187053226942650000, 227255882555315469520000, 225583377436721904410000, 223926289831290871110000, 222284250311103640130000,
  220656901325766357550000, 219043896672321992350000, 217444900993777446730000, 215859589304388567810000, 214287646539984164250000,
  212728767131736797370000, 211182654601904181080000, 209649021180171476370000, 208127587439322486960000, 206618081949057550360000,
  205120240946858486410000, 203633808024876959160000, 202158533831892607700000, 200694175789451831440000, 199240497821357649920000,
  197797270095736022950000, 196364268778954804010000, 194941275800718456590000, 193528078629705111350000, 192124470059152767670000,
  190730248001838711960000, 189345215293930773320000, 187969179507221084620000, 186601952769282759620000, 185243351591117516610000,
  183893196701887939800000, 182551312890351922120000, 181217528852639014130000, 179891677046029039340000, 178573593548412540470000,
  177263117923130499590000, 175960093088907423690000, 174664365194607393520000, 173375783498557119260000, 172094200252193504280000,
  170819470587805756830000, 169551452410153770610000, 168290006291755375440000, 167034995371645191630000, 165786285257417253250000,
  164543743930372340570000, 163307241653599120480000, 162076650882825772160000, 160851846179885807690000, 159632704128648313490000,
  158419103253268866950000, 157210923938622948100000, 156008048352788791610000, 154810360371451330700000, 153617745504103189430000,
  152430090821922600500000, 151247284887211675730000, 150069217684281649360000, 148895780551674560030000, 147726866115613345790000,
  146562368224574504110000, 145402181884879322640000, 144246203197201218760000, 143094329293887941040000, 141946458276998282540000,
  140802489156953535090000, 139662321791704171100000, 138525856826312171890000, 137392995632849021760000, 136263640250508647420000,
  135137693325833491760000, 134015058052950458430000, 132895638113711632200000, 131779337617632454800000, 130666061041517394820000,
  129555713168660072100000, 128448199027501254500000, 127343423829624109940000, 126241292906961534340000, 125141711648085250980000,
  124044585433440645440000, 122949819569384915990000, 121857319220879030710000, 120766989342676128300000, 119678734608840316650000,
  118592459340420235570000, 117508067431091176870000, 116425462270567903970000, 115344546665577480560000, 114265222758167289280000,
  113187391941107867330000, 112110954770133060830000, 111035810872741142810000, 109961858853259765750000, 108888996193854725980000,
  107817119151137270240000, 106746122647996815300000, 105675900160255184140000, 104606343597704455030000, 103537343179052894960000,
  102468787300261780520000, 101400562395709710740000, 100332552791569737170000, 99264640550727647009000, 98196705308506317914000,
  97128624098390397896000, 96060271166866709917000, 94991517776407659940000, 93922231995526297952000, 92852278474721113999000,
  91781518207004493915000, 90709808271569100600000, 89637001558989069006000, 88562946476175228052000, 87487486629102585352000,
  86410460481100519511000, 85331700984237406386000, 84251035181036928333000, 83168283773427388393000, 82083260655441252290000,
  80995772405741906620000, 79905617735548788109000, 78812586886949324977000, 77716460975913043936000, 76617011273543541328000,
  75513998418198289808000, 74407171550050873971000, 73296267358436604916000, 72181009030875689912000, 71061105090965570413000,
  69936248110323266174000, 68806113277374858613000, 67670356802952337911000, 66528614139267855405000, 65380497984766565353000,
  64225596042453703448000, 63063468493349100113000, 61893645139487678178000, 60715622162030085137000, 59528858429150359384000,
  58332771274877027785000, 57126731653258903915000, 55910058551154127652000, 54682012516331112550000, 53441788123716615385000,
  52188505159213564105000, 50921198244365495319000, 49638804551867159754000, 48340149165346224782000, 47023927508216945338000,
  45688684093142071279000, 44332786607355296305000, 42954394022541129589000, 41551416960035700100000, 40121467889627836229000,
  38661797794112021568000, 37169214532991786118000, 35639976025839443721000, 34069648106484979674000, 32452911701691008547000,
  30783295467493287307000, 29052795549123115167000, 27251318547846547924000, 25365836338591284433000, 23379048305967553619000,
  21267151063096745264000, 18995868962243277774000, 16512762256418831796000, 13730498094001380420000, 10483850756582017915000,
  6385216381500348017300, 0]

/-- `exponential_table::table_y`; exponential_distribution.hpp:112-178. -/
def Exponential.tableY : List Nat := [
  0, 45413435384149675545, 96726928232717452884, 153629978030157238240, 214596774371890617930,
  278879879357407596400, 346026477783690398550, 415729512083379525320, 487765598354239258040, 561964220720548317100,
  638190593731917944220, 716335318363498414250, 796307743801703923960, 878031498580897523470, 961441364250220941010,
  1046481018102997948800, 1133101359783459748800, 1221259242625538066100, 1310916493125499107000, 1402039140318193733400,
  1494596801169114807900, 1588562183997316249000, 1683910682603994635900, 1780620041091136056300, 1878670074469602949700,
  1978042433800974173700, 2078720407257811760300, 2180688750428358212500, 2283933540638523882900, 2388442051155817034800,
  2494202641973178297100, 2601204664513421807600, 2709438378095579842400, 2818894876397863442100, 2929566022463739401500,
  3041444391046660549200, 3154523217289360549900, 3268796350895953331700, 3384258215087432903100, 3500903769739741106700,
  3618728478193141975400, 3737728277295936012800, 3857899550307485962600, 3979239102337412267000, 4101744138041482081600,
  4225412241331623141300, 4350241356888818330100, 4476229773294328069400, 4603376107617516676200, 4731679291318154870300,
  4861138557337949440100, 4991753428270637494400, 5123523705512627983000, 5256449459307168959500, 5390531019604608510400,
  5525768967669703832200, 5662164128374287443800, 5799717563120065909800, 5938430563342026448700, 6078304644547963605100,
  6219341540854099615000, 6361543199980733107600, 6504911778675375503600, 6649449638533977904300, 6795159342193660777000,
  6942043649872875167500, 7090105516237182842600, 7239348087570874302300, 7389774699236474630800, 7541388873405840845300,
  7694194317048051010000, 7848194920160642604200, 8003394754231991002300, 8159798070923742093000, 8317409300963238035400,
  8476233053236812538600, 8636274114075691227700, 8797537446727021930000, 8960028191003286453400, 9123751663104016205700,
  9288713355604354652300, 9454918937605585371800, 9622374255043280010300, 9791085331149219961800, 9961058367063712882600,
  10132299742595363588000, 10304816017125771553000, 10478613930657016928000, 10653700405000166218000, 10830082545103379867000,
  11007767640518539026000, 11186763167005629731000, 11367076788274431301000, 11548716357863353664000, 11731689921155557057000,
  11916005717532768467000, 12101672182667483729000, 12288697950954513498000, 12477091858083096578000, 12666862943751066518000,
  12858020454522817870000, 13050573846833078225000, 13244532790138752023000, 13439907170221363078000, 13636707092642885841000,
  13834942886358021406000, 14034625107486244210000, 14235764543247220043000, 14438372216063476473000, 14642459387834493787000,
  14848037564386679222000, 15055118500103990354000, 15263714202744286154000, 15473836938446807312000, 15685499236936522013000,
  15898713896931420572000, 16113493991759203183000, 16329852875190180795000, 16547804187493600915000, 16767361861725019322000,
  16988540130252766513000, 17211353531532005700000, 17435816917135348788000, 17661945459049489581000, 17889754657247831241000,
  18119260347549629488000, 18350478709776746150000, 18583426276219711495000, 18818119940425430485000, 19054576966319540013000,
  19292814997677133873000, 19532852067956322315000, 19774706610509886464000, 20018397469191127727000, 20263943909370901930000,
  20511365629383770880000, 20760682772422204205000, 21011915938898825914000, 21265086199297827522000, 21520215107537867786000,
  21777324714870053264000, 22036437584335949720000, 22297576805812018050000, 22560766011668406495000, 22826029393071670664000,
  23093391716962742173000, 23362878343743333945000, 23634515245705964715000, 23908329026244917002000, 24184346939887722761000,
  24462596913189210901000, 24743107566532763894000, 25025908236886230967000, 25311029001562948171000, 25598500703041538015000,
  25888354974901621678000, 26180624268936295243000, 26475341883506220209000, 26772541993204481808000, 27072259679906003167000,
  27374530965280298302000, 27679392844851734458000, 27986883323697289920000, 28297041453878076010000, 28609907373707684673000,
  28925522348967773308000, 29243928816189258772000, 29565170428126120948000, 29889292101558177099000, 30216340067569352897000,
  30546361924459023541000, 30879406693456016794000, 31215524877417956945000, 31554768522712893632000, 31897191284495723773000,
  32242848495608914289000, 32591797239355619822000, 32944096426413633091000, 33299806876180896713000, 33658991402867758144000,
  34021714906678004560000, 34388044470450243010000, 34758049462163698567000, 35131801643748334681000, 35509375286678745925000,
  35890847294874976196000, 36276297335481777335000, 36665807978151414890000, 37059464843514599421000, 37457356761590215193000,
  37859575940958081092000, 38266218149600982112000, 38677382908413768115000, 39093173698479710717000, 39513698183329015336000,
  39939068447523107877000, 40369401253053026739000, 40804818315203238238000, 41245446599716116772000, 41691418643300289465000,
  42142872899761659635000, 42599954114303435739000, 43062813728845883923000, 43531610321563659758000, 44006510084235387501000,
  44487687341454851593000, 44975325116275498919000, 45469615747461548049000, 45970761564213768669000, 46478975625042618067000,
  46994482528395999841000, 47517519303737738299000, 48048336393045423016000, 48587198734188493564000, 49134386959403255500000,
  49690198724154955294000, 50254950184134769289000, 50828977641064283495000, 51412639381474855788000, 52006317736823356823000,
  52610421398361972602000, 53225388026304326945000, 53851687200286186590000, 54489823767243963663000, 55140341654064131685000,
  55803828226258748140000, 56480919291240022434000, 57172304866482579008000, 57878735860284503057000, 58601031847726802755000,
  59340090169173341521000, 60096896636523224742000, 60872538207962206507000, 61668218091520762326000, 62485273870366592605000,
  63325199421436607968000, 64189671642726607018000, 65080583341457104881000, 66000084107899974178000, 66950631673192477684000,
  67935057226476538741000, 68956649611707798890000, 70019265508278816709000, 71127476080507597882000, 72286765959357200702000,
  73503809243142351530000, 74786862198519510742000, 76146338884989624862000, 77595685204011559675000, 79152763697249565519000,
  80842165152300838005000, 82699329664305033399000, 84778550062398962096000, 87170433238120363669000, 90046992992574643800000,
  93814368086217467916000, 100000000000000000000000]

/-- `normal_table::table_x`; normal_distribution.hpp:45-79. -/
def Normal.tableX : List Nat := [
  371308624674036326090000, 344261985589665212140000, 322308498457861854460000, 308322885821421370090000, 297869625264501696060000,
  289434400701867062100000, 282312535054596643790000, 276116937238415385140000, 270611357311872233710000, 265640641125819249990000,
  261097224842861320350000, 256903362592163913280000, 253000967238546661700000, 249345452209195076090000, 245901817740835009430000,
  242642064553021159300000, 239543427800746734250000, 236587137011398754350000, 233757524133553073540000, 231041368369500215580000,
  228427405967365680560000, 225905957386532952510000, 223468639558705698030000, 221108140887472781060000, 218818043207202060930000,
  216592679374484073770000, 214427018235626135180000, 212316570866978995950000, 210257313518499888380000, 208245623798772464410000,
  206278227450396335750000, 204352153665066949760000, 202464697337293387820000, 200613386995896684030000, 198795957412306072430000,
  197010326084971322420000, 195254572954888890580000, 193526922829190020110000, 191825730085973203030000, 190149465310031761400000,
  188496703570286923800000, 186866114098954200850000, 185256451172308706170000, 183666546025338404470000, 182095299659100507400000,
  180541676421404874200000, 179004698259461898620000, 177483439558076924570000, 175977022489423187490000, 174484612810837650850000,
  173005416055824353500000, 171538674070811654820000, 170083661856430094370000, 168639684677348632580000, 167206075409185220720000,
  165782192094820754620000, 164367415685698264890000, 162961147946467839620000, 161562809503713296440000, 160171838021527705870000,
  158787686488440070190000, 157409821601674972190000, 156037722235984068700000, 154670877985350346080000, 153308787766755607870000,
  151950958475937078060000, 150596903685655026020000, 149246142377461540810000, 147898197698309785460000, 146552595733579462760000,
  145208864288221649260000, 143866531667746131380000, 142525125450686157340000, 141184171243976025090000, 139843191412360635170000,
  138501703772514864490000, 137159220241973226980000, 135815245432242287390000, 134469275174571304320000, 133120794965767650170000,
  131769278320134299100000, 130414185012042153900000, 129054959191787315080000, 127691027355169971750000, 126321796144602823100000,
  124946649956433374800000, 123564948325448117490000, 122176023053096256780000, 120779175040675760280000, 119373670782377219940000,
  117958738465446070350000, 116533563615504690830000, 115097284213897606510000, 113648985200307553520000, 112187692257225406610000,
  110712364752353539800000, 109221887689655376140000, 107715062488193765730000, 106190596368361939980000, 104647090075258026290000,
  103083023605645559070000, 101496739523929947160000, 99886423348064351303000, 98250080350276038481000, 96585507938813059489000,
  94890262549791195381000, 93161619660135381056000, 91396525100880177644000, 89591535256623852894000, 87742742909771569142000,
  85845684317805086354000, 83895221428120745572000, 81885390668331772331000, 79809206062627480454000, 77658398787614838598000,
  75423066443451007146000, 73091191062188128150000, 70647961131360803456000, 68074791864590421664000, 65347863871504238702000,
  62435859730908822111000, 59296294244197797913000, 55869217837551797140000, 52065603872514491759000, 47743783725378787681000,
  42654798630330512490000, 36287143102841830424000, 27232086470466385065000, 0]

/-- `normal_table::table_y`; normal_distribution.hpp:82-116. -/
def Normal.tableY : List Nat := [
  0, 266962908390250350920, 554899522081647053920, 862448441293047096820, 1183947865798231371500,
  1516729801067204246800, 1859210273716581265000, 2210330461611159261500, 2569329193614961657200, 2935631744025382961800,
  3308788614650515556600, 3688438878696877412800, 4074286807479060463200, 4466086220087242980000, 4863629586028405187800,
  5266740190350316979300, 5675266348153858418800, 6089077034856637597200, 6508058521363187375300, 6932111739418025260100,
  7361150188475489338900, 7795098251465471418800, 8233889824295740824300, 8677467189554296899800, 9125780082763471020100,
  9578784912257815216000, 10036444102954554013000, 10498725541035453978000, 10965602101581776100000, 11437051244988827452000,
  11913054670871858767000, 12393598020398174246000, 12878670619710396109000, 13368265258464764118000, 13862377998585103702000,
  14361008009193299469000, 14864157424369696566000, 15371831220958657066000, 15884037114093507813000, 16400785468492774791000,
  16922089223892475176000, 17447963833240232295000, 17978427212496211424000, 18513499701071343216000, 19053204032091372112000,
  19597565311811041399000, 20146611007620324118000, 20700370944187380064000, 21258877307373610060000, 21822164655637059599000,
  22390269938713388747000, 22963232523430270355000, 23541094226572765600000, 24123899354775131610000, 24711694751469673582000,
  25304529850976585934000, 25902456739871074263000, 26505530225816194029000, 27113807914102527343000, 27727350292189771153000,
  28346220822601251779000, 28970486044581049771000, 29600215684985583659000, 30235482778947976274000, 30876363800925192282000,
  31522938806815752222000, 32175291587920862031000, 32833509837615239609000, 33497685331697116147000, 34167914123501368412000,
  34844296754987246935000, 35526938485154714435000, 36215949537303321162000, 36911445366827513952000, 37613546951445442947000,
  38322381105988364587000, 39038080824138948916000, 39760785649804255208000, 40490642081148835099000, 41227804010702462062000,
  41972433205403823467000, 42724699830956239880000, 43484783025466189638000, 44252871528024661483000, 45029164368692696086000,
  45813871627287196483000, 46607215269457097924000, 47409430069824960453000, 48220764633483869062000, 49041482528932163741000,
  49871863547658432422000, 50712205108130458951000, 51562823824987205196000, 52424057267899279809000, 53296265938998758838000,
  54179835503172412311000, 55075179312105527738000, 55982741271069481791000, 56902999107472161225000, 57836468112670231279000,
  58783705444182052571000, 59745315095181228217000, 60721953663260488551000, 61714337082656248870000, 62723248525781456578000,
  63749547734314487428000, 64794182111855080873000, 65858200005865368016000, 66942766735770616891000, 68049184100641433355000,
  69178914344603585279000, 70333609902581741633000, 71515150742047704368000, 72725691835450587793000, 73967724368333814856000,
  75244155918570380145000, 76558417390923599480000, 77914608594170316563000, 79317701178385921053000, 80773829469612111340000,
  82290721139526200050000, 83878360531064722379000, 85550060788506428418000, 87324304892685358879000, 89228165080230272301000,
  91304364799203805999000, 93628268170837107547000, 96359969315576759960000, 100000000000000000000000]

end Boost.Random
