import Verif.Proofs.MixmaxPacked

/-!
# Check of the skip table of `mixmax`

Written by `tools/gen_mixmax_check.py`. The whole table is checked by evaluation in the kernel: row `r` is
`X^(2^(512 + r))` modulo a polynomial that annihilates the matrix.
-/

namespace Boost.Random.Mixmax
open Spec Packed

set_option maxRecDepth 100000

/-- The matrix of `mixmax`. -/
abbrev matA : Matrix (Fin 17) (Fin 17) (ZMod mixP) := mixMatrix 17 (2 ^ 36 + 1)

/-- `X^17 = Σ f_i X^i` for the matrix. -/
def annih : List Nat := [1, 4503599627370479, 30786327543944, 892887193627352, 1873501967702139622, 2087296542617711506, 17068987919027324, 977970204115795190, 525233809686485664, 656026026309359501, 1435151878482748018, 1460607413749648671, 1282327581443261682, 177960904953406311, 850472261637048, 46729244180904, 33]

/-- `X^17, ..., X^33`. -/
def redTable : List Nat := [
  1066461200353263240923590935164038247987835337172794005167172180013797070827890774425499245885192396741016594871701787771875165942350229593278909875941455471085498947590074556052841280613918789675762049690743358276868855399438813549157168858422788025846583419219279081311843386369525988272721694916135875151375301441569028720780241455714338859060166375122607991326582571908694708682411763714990870045366626380488128549303300665561677339373352724171649051334864245977020330987818955189668249479980902887710482530176029579672767627437755613280723737691352755387705860996987168626653820939018766959380782339526087141228545,
  1510149267937242345976990998893772774056203398282130952354924910504981489762692595345019269146698737919872350807007331664512618733942385457709530393765375104472969537197554246395571976124948158351050015784256596834036066808404441205572003218625124061591357543366426987464854473920208371338679342660925289168147635209944206315093843140965078373966887110398000483010473976183056139385002683951444816622204933284370908424016067050009174593348316413796826968378895796983801848104555979225657632313276113026309975804794164065786787562417321261921005226717922169587769235576707584998776053982030561121614925453089441840559510464107642913,
  127154568925502702284239724930278350468638975569213795020020391153762780049882514593041730074697474873124829908719952143187058131281441847963592265775711555815037996216114460053891176331306376270560095593005592785807013414509102858098114911791987412332873238604889361635675440546744701578606779630021650429035705449822822932128354215066450605902072625515200714960890208982193987070556059933963100543259675099310806703510111514361692346686279561773010054201006776494917483787508291298279417616620593120148998306207903385285121486329535046972357861455369327518828693371167814628575668668664182576382340348591070731415784556609308460521,
  13779419251913931766366636615457287052166785702557067810216425998604593318588399390507871468185047327717528251445680244710433452680272586216553894369559916284952414568552056169981685128321866268450917714563949617700303509205670828906733304870187196444417065393361399034762448567190198565792275631740671444795420950588836594646448893938066896223732280556081515900915604117877068460147980997401182497540081410456356652218383344981846405269158864245891163731276785314802510922777209466696636124477374118279245968255345966778893766169021891779319224747830674248530051268465131771445865786885527094591522969576175532100646018999962376654185,
  14728177931623732025972109556917576725163226523921418264321273050379669444104256551132375972155204462409354983992478992466852775506548582668280241048701934042852003342212407090280456805658129168690980225309482177340321433790747456671731310634177812399618926032491644188734846492059024498366298551378096197585797923748111409007123931887778186173716042224787524071981759067646006414952846201078536094449225300633717762020425437458175937530256942817455394034388656268511208328477098308098939380060686166974497270230916978751844424444030364245852109671214527987010950780060032562337045860125772841430491373303075633089345113369727986578064,
  66385531871538949502551185960681250562809855797649243712938281857081786710726903231900212272509405893444841681735456535649407218576140061702548562735917634937208693479962523575683105386856107061817781829877037810282169994681848098155330344142846967285441670918810722411347113124304494465315454658732533338179766803075982271521299772007327933902025892859643497407265147817339996811506427896475087635471052815537589354233278232715941643669374085658882460004794553562534198115997784551768390211759941543124891251521180966038217864307892139872336981296119259152564467057627800886603482874813713734011869236242617095833702692912112058604796,
  40619976206824237474415576550965178857226892240321470514211995638803414233381392368663645881607936009647259981405026577979228489398996174127121493952368449279789866328964325826331283466076855940607493637467421028668940899582772447097330885772438668162677378093015413560031047780458791018461925514262204794937796697744025299947519353423010843360370357415865770678604264532232948602988826740969119177525008287643641917943773030127998597971108379926318738231549038867223322668993152760813455243879066830402075157167935552386553474151610521679122470291038544272754235910014109712628940675266895882055137942300587655198850031006999409715865,
  5958858520673450936539792421207151211760452873281140426332296204721444345866017482586257549742663962945568893219021141583834846628341008861806757723657549486257010529493201802981593175841997004298741995802710432770165013726212089387521609626554324149775449629872330904007803041700992121073770795857043193114867202207599432394945816381661671615518941304508749915792806842141981880774039916290373331588374726130819088928111848103827938047922054319138818910666911118701905917806362629890560404400573251496609209950262535336632000627246409017319903071317762753070814073418451366040923336574327735467928720901673800530500539468948147142085,
  58277153859470505490154204935834776125807761391842547097587540502167674183251715406805239522461773774100211067503955249888624469964342076171676480432628197039201910879401614484096247014988259524277702237579886160544341412693569592250018913866630587112198808619153774139315522517833046121744285732639559792000736313132982961948943623956798287814248186047357712508815947073917076536260286557619807993251460046043755996347936873031660226233690249363510965362876574751192729573092530297922773239250101526836622873142439806333087858378432881290019640401781622827573492431978062937222080215068456122009770341610912902644640084716678590522137,
  65770486620389540404651094892206654700817999903729997573576906580087647599496043172158671857331864676687910904619851604251627434313727459454983035940488083794726985301276073238481031049100422824694024915128686061717056272978458951713978461568336515887348542640882744268040708768746761526449181105730898730487066842355740544396922572365841073668239918958924723310957779325971430639993352503523567099050957210320013341883780342410087476472520896868606777147896419897005408427791822359816838816614010980973198353493953172076047741660043854787615299552985482690157363597122745558544003228733208111429306471942429852173963392677882091196420,
  47925108132616216817854301414351669059529186289206352313106165228922158372829650428107390138917089685136884516857589136514572162259637879642613269339077509259843360041026655727370124211172048653645320734323461220827026617037205689209392666504469728397118415463701815843113060658876365539753979860752130257568299822355216244677910497702680876352099617861138744726975207519237802280643897710829452376265191189019844959353451288643472474737365746774149866108408363537026072466424057612343479720992297697906575512336837814800253427419343485230575309158516087189527809965037560941127549521337450831495082930474449271557352476930214537153089,
  42645307652043622172539541846096973462209999093957695492865478920260580444062833334763451930965199419938583714064298071646029881704523549756669921730783559600902052503492552485675650492491807760350807832541467441038748325571371393843128370114832248445525151300188163306227848028454358832215024286472528857873896596330469325196927928320199365570792588812704367698330899256818855285611151323730126665385550289433153710631674988690177840195031248226370921181482455936707522702197624052415279414061234833442505107809764323797983947703433250306012303138530941323222676520554172568490058389452824373129190433452971753176973526810589432504379,
  18860929540605541653694004157089614265881477019632060452312692254031562196472719379120591934546374931934724325047615537737062394511241550317020566124879104761479220982635375153346600721807273372631562288861316698199160586824967617309165694255264456848037708821937545299876322886874612145763257341802578544014842148902451776618589394077337065176393441627275919569646773305739704044603020843943145330304016162144936252670234728728115605315267431106298974553178069633139811912006215351626808779204373622601445326460133393530502424708533904925141119282419689288135877351073334199105512422060130386297548283037436720569198982325379060664084,
  52964015989037323368380602530032224245608236979091693520160505429964895188157025045079570147565803267113076145354771008151029263952948701862115247801698290606490977207966360559552292750738072336320709357493081628855060578540872114141223433481366497017914489504631977353093599799486328680094089926468284157933670415806377302044796024484939541353168651463491659584340526739147919790700383359839747469460883362899016122466459438188454698206930940075055071072022484199042377843897106502743571040840890885439724813476769594670321881768415808746512733387487111891251863687041790794847940949112296224592864901109050158819728682109630571790193,
  63732412806080619501073702091577524298751544204673316607636341312015333644127338221084473758373471991445427656488963084943026967156263612304037413165194473494896028873220890219721153812395168437231938188318379315818413039163915167209185301823035566367437223475026870971235033504749218444720533726318888866267712615862329933437119036341128038191223154282908041199978685822802897478765657950502216138849360893198393768608629380937295592816443468931367048911774184816662033173221210900321079071899312404826587564132240735916321542832411502901455079982727437719799284267427776587876707067739309181994420387185042937344541607445831866689924,
  43120108023423894688233383611663080506807612706849848357476225615728642819854365595379135979882047900886643635782301232425772155725914177872801539888418535375883807959677824610293120452840320986889476743208191317546230759303038464538794320978840804414797284556456644690284202389736039545296811076167092323955682181759055114899184068971127176560629022789852818090519502389938573850000734448485763242927756301301296706566521047697157507640773593642379001312231868354358964097670252636735396714689080508594497205417452614272315826040729452325569850510779656725857997489430355239491792515931307008717036135111354333835137750142155103793519,
  18979463038966719762294327531828955323347977823902390308491047857855016911468596516948300364316714789770649217804031941504473102004655098361808273182999081939800127702519919698106595143638183047218193431057858218421250685714832444853590586632178866083680379447181928088307237708532352824904544429998653771517022511546346421685490921370061792471721995440841662497132891730434415352205163906847025303037595911212602268063532262590584026103910809128873203405681078049721838463547024781781168901075924389502251122932583776503881843605528758675778287714543015839033050610915422594391994211313650773311559152153085171240906132857098845664149]

/-- The number for `X^(2^512)`. -/
def mixSkip0 : Nat := 59999337650481641548517309870272525376073257671421218038054963338153960390595799160000755890755702544591519100721656994814429957271692303304315127833620128716548960287976339431901415836176549889113401147217893017317163383477894667699563834128579384824506974525983589438930102241447844003281313994049152056074883803513727258015590561679111264789240672968531886515564071042415732543857581851205250809646565052873491300565313196272473610316106690812967028352658796473721777996336192380995667172470612449039484518913533397941994999283900375423010516267942828901095779267057316833136426633373702806374412492283986407295916106608390784863068

/-- Unit vectors. -/
def unitL (i : Nat) : List Nat := (List.replicate 17 0).set i 1

/-- One application of a polynomial to a unit vector. -/
def actUnit (row : List Nat) (i : Nat) : List Nat :=
  (skipRow 36 row (List.replicate 17 0) (unitL i) 1).map (· % mixP)

theorem annih_units : ((List.range 17).all fun i => actUnit annih i == actUnit (List.replicate 17 0 ++ [1]) i) = true := by
  decide +kernel

theorem redTable_eq : redTable = mkT (pack annih) 17 (pack annih) := by decide +kernel

theorem mixSkip0_eq : powK redTable (2 ^ 128) (List.replicate 512 false) (2 ^ 128) = mixSkip0 := by decide +kernel

theorem mixSkip0_row : skipMat17 = canonL 17 mixSkip0 :: skipMat17.tail := by decide +kernel

theorem mixRows_sq : chkRows redTable mixSkip0 skipMat17.tail = true := by decide +kernel

end Boost.Random.Mixmax
