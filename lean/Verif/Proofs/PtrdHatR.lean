import Verif.Proofs.PtrdBox

/-!
# The hat of PTRD to the right of the centre

Generated: the rectangles that cover the parameters, each of them tested by the kernel.
-/

namespace Boost.Random.PtrdBox

open Boost.Random.Affine

set_option maxRecDepth 100000

theorem hatR_0 : Cov hatRBox 84662395338752 2199023255552 330108502016 347707801600 :=
  Cov.of_strip (l := [(3276539953152, 3), (5431573348352, 3), (9741656915968, 3), (12698372800512, 3), (15595948998656, 3), (16987367407616, 3), (17941873557504, 3), (18400227098624, 3), (18849403502592, 3), (19289604096000, 3), (19720996651008, 3), (20324959649792, 3), (20916843053056, 3), (22100609859584, 3), (23757880033280, 3), (27072420380672, 3), (33701517852672, 3), (46959712796672, 3), (73476119461888, 3), (84662395338752, 3)]) (by decide +kernel)

theorem hatR_1 : Cov hatRBox 84662395338752 2199023255552 312509202432 330108502016 :=
  Cov.of_strip (l := [(2953276555264, 3), (4461799931904, 3), (7478846685184, 3), (11702728916992, 3), (14600305115136, 3), (15991723524096, 3), (16946229673984, 3), (17601010860032, 3), (18050187264000, 3), (18358317613056, 3), (18569693757440, 3), (18776842043392, 3), (19066852999168, 3), (19472878403584, 3), (19870783635456, 3), (20427854315520, 3), (21207759978496, 3), (22767571304448, 3), (25887193956352, 3), (32126439260160, 3), (44604946644992, 3), (69561978191872, 3), (84662395338752, 3)]) (by decide +kernel)

theorem hatR_2 : Cov hatRBox 84662395338752 2199023255552 294909902848 312509202432 :=
  Cov.of_strip (l := [(2953276555264, 3), (4461799931904, 3), (7478846685184, 3), (11702728916992, 3), (14600305115136, 3), (15991723524096, 3), (16946229673984, 3), (17404583215104, 3), (17719005020160, 3), (17934692909056, 3), (18082651176960, 3), (18184153333760, 3), (18283625447424, 3), (18381101072384, 3), (18476630540288, 3), (18610378506240, 3), (18797629014016, 3), (18981138202624, 3), (19238047711232, 3), (19597717667840, 3), (20101269028864, 3), (21108371750912, 3), (23122577195008, 3), (27150988083200, 3), (35207826636800, 3), (51321520521216, 3), (83548925067264, 3), (84662395338752, 3)]) (by decide +kernel)

theorem hatR_3 : Cov hatRBox 84662395338752 2199023255552 282578649088 294909902848 :=
  Cov.of_strip (l := [(2953276555264, 3), (4461799931904, 3), (7478846685184, 3), (11702728916992, 3), (13731027222528, 3), (15122445631488, 3), (16076951781376, 3), (16731732967424, 3), (17180909371392, 3), (17489039720448, 3), (17700415864832, 3), (17845421342720, 3), (17987524362240, 3), (18084999987200, 3), (18221482639360, 3), (18412558352384, 3), (18599808860160, 3), (18861952860160, 3), (19228971237376, 3), (19742790254592, 3), (20770445066240, 3), (22825754689536, 3), (26936390713344, 3), (35157662760960, 3), (51600206856192, 3), (84485311823872, 3), (84662395338752, 3)]) (by decide +kernel)

theorem hatR_4 : Cov hatRBox 84662395338752 2199023255552 273938382848 282578649088 :=
  Cov.of_strip (l := [(2953276555264, 3), (4461799931904, 3), (7478846685184, 3), (10435562569728, 3), (13333138767872, 3), (15320869765120, 3), (16275375915008, 3), (16930157101056, 3), (17244578906112, 3), (17460266795008, 3), (17671642939392, 3), (17816648417280, 3), (17958751436800, 3), (18157695664128, 3), (18352663691264, 3), (18625628995584, 3), (19007780421632, 3), (19772083273728, 3), (21300688977920, 3), (24357917163520, 3), (30472390311936, 3), (42701336608768, 3), (67159229202432, 3), (84662395338752, 3)]) (by decide +kernel)

theorem hatR_5 : Cov hatRBox 84662395338752 2199023255552 265298116608 273938382848 :=
  Cov.of_strip (l := [(2953276555264, 3), (4461799931904, 3), (7478846685184, 3), (10435562569728, 3), (13333138767872, 3), (15320869765120, 3), (16275375915008, 3), (16733729456128, 3), (17048151261184, 3), (17263839150080, 3), (17411797417984, 3), (17513299574784, 3), (17612771688448, 3), (17681004625920, 3), (17776534093824, 3), (17910282059776, 3), (18041345671168, 3), (18169792036864, 3), (18349627015168, 3), (18709296971776, 3), (19212848332800, 3), (20219951054848, 3), (22234156498944, 3), (26262567387136, 3), (34319405940736, 3), (50433099825152, 3), (82660504371200, 3), (84662395338752, 3)]) (by decide +kernel)

theorem hatR_6 : Cov hatRBox 84662395338752 2199023255552 259241541632 265298116608 :=
  Cov.of_strip (l := [(2953276555264, 3), (4461799931904, 3), (7478846685184, 3), (10435562569728, 3), (13333138767872, 3), (14724557176832, 3), (15679063326720, 3), (16333844512768, 3), (16783020916736, 3), (17091151265792, 3), (17302527410176, 3), (17404029566976, 3), (17503501680640, 3), (17600977305600, 3), (17737459957760, 3), (17871207923712, 3), (18058458431488, 3), (18320602431488, 3), (18844907208704, 3), (19893533540352, 3), (21990786203648, 3), (26185308307456, 3), (34574352515072, 3), (51352457707520, 3), (84662395338752, 3)]) (by decide +kernel)

theorem hatR_7 : Cov hatRBox 84662395338752 2199023255552 253184966656 259241541632 :=
  Cov.of_strip (l := [(2953276555264, 3), (4461799931904, 3), (7478846685184, 3), (10435562569728, 3), (13333138767872, 3), (14724557176832, 3), (15679063326720, 3), (16333844512768, 3), (16783020916736, 3), (16998708805632, 3), (17146667073536, 3), (17248169230336, 3), (17317794676736, 3), (17365559410688, 3), (17412367843328, 3), (17477899649024, 3), (17569654243328, 3), (17659563343872, 3), (17747677282304, 3), (17871040151552, 3), (18117765890048, 3), (18463191990272, 3), (19154060967936, 3), (20535798923264, 3), (23299291611136, 3), (28826276986880, 3), (39880264515584, 3), (61988256350208, 3), (84662395338752, 3)]) (by decide +kernel)

theorem hatR_8 : Cov hatRBox 84662395338752 2199023255552 247128391680 253184966656 :=
  Cov.of_strip (l := [(2953276555264, 3), (4461799931904, 3), (7478846685184, 3), (10435562569728, 3), (13333138767872, 3), (14724557176832, 3), (15679063326720, 3), (16333844512768, 3), (16648266317824, 3), (16863954206720, 3), (17011912474624, 3), (17082963984384, 3), (17152589430784, 3), (17186026422272, 3), (17218792325120, 3), (17241257017344, 3), (17263285501952, 3), (17284861001728, 3), (17306017071104, 3), (17326736932864, 3), (17355761516544, 3), (17396395933696, 3), (17453287473152, 3), (17509038161920, 3), (17563681554432, 3), (17640168882176, 3), (17747257851904, 3), (17961452568576, 3), (18389842001920, 3), (19246637645824, 3), (20960245710848, 3), (24387478618112, 3), (31241944432640, 3), (44950876061696, 3), (72368756097024, 3), (84662395338752, 3)]) (by decide +kernel)

theorem hatR_9 : Cov hatRBox 84662395338752 2199023255552 242883756032 247128391680 :=
  Cov.of_strip (l := [(2953276555264, 3), (4461799931904, 3), (7478846685184, 3), (10435562569728, 3), (13333138767872, 3), (14724557176832, 3), (15679063326720, 3), (16333844512768, 3), (16648266317824, 3), (16863954206720, 3), (16967519961088, 3), (17038571470848, 3), (17087309283328, 3), (17135074017280, 3), (17167839920128, 3), (17199951511552, 3), (17231408791552, 3), (17275465760768, 3), (17337138806784, 3), (17397587116032, 3), (17482211393536, 3), (17600692092928, 3), (17837653491712, 3), (18311593066496, 3), (19259472216064, 3), (21155230515200, 3), (24946747113472, 3), (32529780310016, 3), (47695863480320, 3), (78028029820928, 3), (84662395338752, 3)]) (by decide +kernel)

theorem hatR_10 : Cov hatRBox 84662395338752 2199023255552 239897411584 242883756032 :=
  Cov.of_strip (l := [(2953276555264, 3), (4461799931904, 3), (7478846685184, 3), (10435562569728, 3), (13333138767872, 3), (14724557176832, 3), (15679063326720, 3), (16333844512768, 3), (16648266317824, 3), (16863954206720, 3), (16967519961088, 3), (17038571470848, 3), (17087309283328, 3), (17120746274816, 3), (17167554707456, 3), (17233086513152, 3), (17297309696000, 3), (17387218796544, 3), (17513098248192, 3), (17764873928704, 3), (18268425289728, 3), (19275528011776, 3), (21289733455872, 3), (25318144344064, 3), (33374982897664, 3), (49488676782080, 3), (81716081328128, 3), (84662395338752, 3)]) (by decide +kernel)

theorem hatR_11 : Cov hatRBox 84662395338752 2199023255552 236911067136 239897411584 :=
  Cov.of_strip (l := [(2953276555264, 3), (4461799931904, 3), (7478846685184, 3), (10435562569728, 3), (13333138767872, 3), (14724557176832, 3), (15679063326720, 3), (16333844512768, 3), (16648266317824, 3), (16799244484608, 3), (16902810238976, 3), (16952537907200, 3), (16986645987328, 3), (17020082978816, 3), (17043017433088, 3), (17065482125312, 3), (17096939405312, 3), (17140996374528, 3), (17184164151296, 3), (17226476290048, 3), (17285716639744, 3), (17404197339136, 3), (17570073673728, 3), (17901826342912, 3), (18565331681280, 3), (19892359135232, 3), (22546414043136, 3), (27854540636160, 3), (38470793822208, 3), (59703316971520, 3), (84662395338752, 3)]) (by decide +kernel)

theorem hatR_12 : Cov hatRBox 84662395338752 2199023255552 233924722688 236911067136 :=
  Cov.of_strip (l := [(2953276555264, 3), (4461799931904, 3), (7478846685184, 3), (10435562569728, 3), (13333138767872, 3), (14724557176832, 3), (15679063326720, 3), (16137416867840, 3), (16451838672896, 3), (16667526561792, 3), (16771092316160, 3), (16842143825920, 3), (16890881638400, 3), (16924318629888, 3), (16947253084160, 3), (16962973335552, 3), (16973761085440, 3), (16984330731520, 3), (16994682273792, 3), (17004832489472, 3), (17014781378560, 3), (17028706467840, 3), (17048218370048, 3), (17075531677696, 3), (17102291337216, 3), (17128530903040, 3), (17165256228864, 3), (17216678395904, 3), (17319522729984, 3), (17463521574912, 3), (17751519264768, 3), (18327531421696, 3), (19479555735552, 3), (21783604363264, 3), (26391718395904, 3), (35607963238400, 3), (54040452923392, 3), (84662395338752, 3)]) (by decide +kernel)

theorem hatR_13 : Cov hatRBox 84662395338752 2199023255552 231827570688 233924722688 :=
  Cov.of_strip (l := [(2953276555264, 3), (4461799931904, 3), (7478846685184, 3), (10435562569728, 3), (13333138767872, 3), (14724557176832, 3), (15679063326720, 3), (16137416867840, 3), (16451838672896, 3), (16667526561792, 3), (16771092316160, 3), (16842143825920, 3), (16876251906048, 3), (16909688897536, 3), (16932623351808, 3), (16948343603200, 3), (16963761864704, 3), (16985337364480, 3), (17015553130496, 3), (17045164916736, 3), (17086621417472, 6), (17144670584832, 3), (17225939419136, 3), (17388493864960, 3), (17713602756608, 3), (18363837317120, 3), (19664323215360, 3), (22265295011840, 3), (27467255382016, 3), (37871192899584, 3), (58679067934720, 3), (84662395338752, 3)]) (by decide +kernel)

theorem hatR_14 : Cov hatRBox 84662395338752 2199023255552 229730418688 231827570688 :=
  Cov.of_strip (l := [(2953276555264, 3), (4461799931904, 3), (7478846685184, 3), (10435562569728, 3), (13333138767872, 3), (14724557176832, 3), (15679063326720, 3), (16137416867840, 3), (16451838672896, 3), (16602816839680, 3), (16706382594048, 3), (16777434103808, 3), (16826171916288, 3), (16849576132608, 3), (16865631928320, 3), (16881352179712, 3), (16892139929600, 3), (16899538681856, 3), (16906786439168, 3), (16913883201536, 3), (16923832090624, 3), (16937757179904, 3), (16957269082112, 3), (16976378331136, 3), (16995118481408, 3), (17021358047232, 3), (17058083373056, 3), (17109505540096, 3), (17212349874176, 3), (17418055319552, 3), (17829482987520, 3), (18652355100672, 3), (20298099326976, 3), (23589604556800, 3), (30172631793664, 3), (43338686267392, 3), (69670811992064, 3), (84662395338752, 3)]) (by decide +kernel)

theorem hatR_15 : Cov hatRBox 84662395338752 2199023255552 228254023680 229730418688 :=
  Cov.of_strip (l := [(2953276555264, 3), (4461799931904, 3), (7478846685184, 3), (10435562569728, 3), (13333138767872, 3), (14724557176832, 3), (15679063326720, 3), (16137416867840, 3), (16451838672896, 3), (16602816839680, 3), (16706382594048, 3), (16777434103808, 3), (16811542183936, 3), (16834946400256, 3), (16851002195968, 3), (16866722447360, 3), (16882140708864, 3), (16903716208640, 3), (16924872278016, 3), (16945592139776, 3), (16974616723456, 3), (17015251140608, 3), (17096519974912, 3), (17210303053824, 3), (17437885988864, 3), (17893051858944, 3), (18803383599104, 3), (20624063856640, 3), (24265441148928, 3), (31548195733504, 3), (46113704902656, 3), (75244723240960, 3), (84662395338752, 3)]) (by decide +kernel)

theorem hatR_16 : Cov hatRBox 84662395338752 2199023255552 226777628672 228254023680 :=
  Cov.of_strip (l := [(2953276555264, 3), (4461799931904, 3), (7478846685184, 3), (10435562569728, 3), (13333138767872, 3), (14724557176832, 3), (15679063326720, 3), (16137416867840, 3), (16451838672896, 3), (16602816839680, 3), (16706382594048, 3), (16756110262272, 3), (16790218342400, 3), (16806592905216, 3), (16822648700928, 3), (16833654554624, 3), (16844442304512, 3), (16855011950592, 3), (16869809455104, 3), (16884321746944, 3), (16898532048896, 3), (16918429827072, 3), (16946296782848, 3), (16985320587264, 3), (17063368196096, 3), (17219480190976, 3), (17531720957952, 3), (18156202491904, 3), (19405182337024, 3), (21903158804480, 3), (26899128516608, 3), (36891067940864, 3), (56874946789376, 3), (84662395338752, 3)]) (by decide +kernel)

theorem hatR_17 : Cov hatRBox 84662395338752 2199023255552 225301233664 226777628672 :=
  Cov.of_strip (l := [(2953276555264, 3), (4461799931904, 3), (7478846685184, 3), (10435562569728, 3), (12463860875264, 3), (14451591872512, 3), (15406098022400, 3), (16060879208448, 3), (16375301013504, 3), (16526279180288, 3), (16629844934656, 3), (16700896444416, 3), (16735004524544, 3), (16758408740864, 3), (16774464536576, 3), (16785470390272, 3), (16796258140160, 3), (16803656892416, 3), (16810904649728, 3), (16818001412096, 3), (16824963956736, 3), (16834711519232, 3), (16844257755136, 3), (16853619441664, 3), (16862796578816, 3), (16875647926272, 3), (16893633101824, 3), (16918832480256, 3), (16954098188288, 3), (17024646381568, 3), (17165759545344, 3), (17448002650112, 3), (18012488859648, 3), (19141478055936, 3), (21399456448512, 3), (25915413233664, 3), (34947326803968, 3), (53011170721792, 3), (84662395338752, 3)]) (by decide +kernel)

theorem hatR_18 : Cov hatRBox 84662395338752 2199023255552 223824838656 225301233664 :=
  Cov.of_strip (l := [(2953276555264, 3), (4461799931904, 3), (7478846685184, 3), (10435562569728, 3), (12463860875264, 3), (14451591872512, 3), (15406098022400, 3), (16060879208448, 3), (16375301013504, 3), (16526279180288, 3), (16629844934656, 3), (16679572602880, 3), (16713680683008, 3), (16737084899328, 3), (16748308856832, 3), (16759314710528, 3), (16766864457728, 3), (16772031840256, 3), (16777098559488, 3), (16782064615424, 6), (16786930008064, 3), (16791694737408, 3), (16798372069376, 3), (16807733755904, 3), (16814159429632, 3), (16820450885632, 3), (16826624901120, 3), (16835265167360, 6), (16843720884224, 3), (16855565598720, 3), (16872158265344, 3), (16905360375808, 3), (16951833264128, 3), (17044795817984, 3), (17230737702912, 3), (17602638249984, 3), (18346439344128, 3), (19834058309632, 3), (22809313017856, 3), (28759839211520, 3), (40660908376064, 3), (64463063482368, 3), (84662395338752, 3)]) (by decide +kernel)

theorem hatR_19 : Cov hatRBox 84662395338752 2199023255552 222348443648 223824838656 :=
  Cov.of_strip (l := [(2953276555264, 3), (4461799931904, 3), (7478846685184, 3), (10435562569728, 3), (12463860875264, 3), (14451591872512, 3), (15406098022400, 3), (16060879208448, 3), (16375301013504, 3), (16526279180288, 3), (16598773530624, 3), (16648501198848, 3), (16682609278976, 3), (16706013495296, 3), (16717237452800, 3), (16724938194944, 3), (16732487942144, 3), (16737655324672, 3), (16742722043904, 3), (16747688099840, 6), (16752553492480, 6), (16757318221824, 3), (16761999065088, 3), (16768558956544, 3), (16774984630272, 3), (16779380260864, 3), (16783692005376, 3), (16787919863808, 3), (16792063836160, 3), (16797868752896, 6), (16803556229120, 3), (16811525406720, 3), (16822682255360, 3), (16838301843456, 3), (16869541019648, 3), (16913279221760, 3), (17000772403200, 3), (17175775543296, 3), (17525798600704, 3), (18225861492736, 3), (19626004054016, 3), (22426289176576, 3), (28026876198912, 3), (39228067020800, 3), (61630465441792, 3), (84662395338752, 3)]) (by decide +kernel)

theorem hatR_20 : Cov hatRBox 84662395338752 2199023255552 220872048640 222348443648 :=
  Cov.of_strip (l := [(2953276555264, 3), (4461799931904, 3), (7478846685184, 3), (10435562569728, 3), (12463860875264, 3), (14451591872512, 3), (15406098022400, 3), (15864451563520, 3), (16178873368576, 3), (16394561257472, 3), (16542519525376, 3), (16613571035136, 3), (16647679115264, 3), (16671083331584, 3), (16687139127296, 3), (16698144980992, 3), (16705694728192, 3), (16710862110720, 3), (16715928829952, 3), (16720894885888, 3), (16727857430528, 6), (16737604993024, 6), (16744282324992, 3), (16748862504960, 3), (16753358798848, 3), (16757754429440, 3), (16762066173952, 3), (16768105971712, 6), (16774028328960, 3), (16782316273664, 3), (16793926107136, 3), (16810183229440, 3), (16842714251264, 3), (16888264392704, 3), (16979381452800, 3), (17161615572992, 3), (17526083813376, 3), (18255020294144, 3), (19712893255680, 3), (22628655955968, 3), (28460181356544, 3), (40123232157696, 3), (63449350537216, 3), (84662395338752, 3)]) (by decide +kernel)

theorem hatR_21 : Cov hatRBox 84662395338752 2199023255552 219395653632 220872048640 :=
  Cov.of_strip (l := [(2953276555264, 3), (4461799931904, 3), (7478846685184, 3), (10435562569728, 3), (12463860875264, 3), (14451591872512, 3), (15406098022400, 3), (15864451563520, 3), (16178873368576, 3), (16394561257472, 3), (16498127011840, 3), (16569178521600, 3), (16603286601728, 3), (16626690818048, 3), (16649625272320, 3), (16660631126016, 3), (16671418875904, 3), (16678817628160, 3), (16686065385472, 3), (16696215601152, 3), (16706164490240, 3), (16712992817152, 3), (16719670149120, 3), (16726230040576, 6), (16732655714304, 3), (16738947170304, 3), (16747755208704, 3), (16760103239680, 3), (16777383772160, 3), (16811944837120, 3), (16860347105280, 3), (16957151641600, 3), (17150760714240, 3), (17537995636736, 3), (18312482258944, 3), (19861455503360, 3), (22959401992192, 3), (29155294969856, 3), (41547080925184, 3), (66330669613056, 3), (84662395338752, 3)]) (by decide +kernel)

theorem hatR_22 : Cov hatRBox 84662395338752 2199023255552 217919258624 219395653632 :=
  Cov.of_strip (l := [(2953276555264, 3), (4461799931904, 3), (7478846685184, 3), (10435562569728, 3), (12463860875264, 3), (13855279284224, 3), (14809785434112, 3), (15464566620160, 3), (15913743024128, 3), (16221873373184, 3), (16369831641088, 3), (16471333797888, 3), (16540959244288, 3), (16588723978240, 3), (16611658432512, 3), (16627378683904, 3), (16642796945408, 3), (16653366591488, 3), (16668164096000, 3), (16678314311680, 3), (16688263200768, 3), (16698010763264, 6), (16707556999168, 3), (16720928440320, 3), (16739668590592, 3), (16765908156416, 3), (16818387288064, 3), (16891854716928, 3), (17038789574656, 3), (17332659290112, 3), (17920415498240, 3), (19095944691712, 3), (21447019855872, 3), (26149186961408, 3), (35553521172480, 3), (54362189594624, 3), (84662395338752, 3)]) (by decide +kernel)

theorem hatR_23 : Cov hatRBox 84662395338752 2199023255552 216442863616 217919258624 :=
  Cov.of_strip (l := [(2953276555264, 3), (4461799931904, 3), (7478846685184, 3), (10435562569728, 3), (12463860875264, 3), (13855279284224, 3), (14809785434112, 3), (15464566620160, 3), (15913743024128, 3), (16221873373184, 3), (16369831641088, 3), (16471333797888, 3), (16520071610368, 3), (16553508601856, 3), (16576443056128, 3), (16598907748352, 3), (16614326009856, 3), (16635901509632, 3), (16650699014144, 3), (16665211305984, 3), (16679421607936, 3), (16693346697216, 3), (16712858599424, 3), (16751882403840, 3), (16806525796352, 3), (16915812581376, 3), (17134386151424, 3), (17571533291520, 3), (18445827571712, 3), (20194416132096, 3), (23691593252864, 3), (30685947494400, 3), (44674655977472, 3), (72652089720832, 3), (84662395338752, 3)]) (by decide +kernel)

theorem hatR_24 : Cov hatRBox 84662395338752 2199023255552 214362488832 216442863616 :=
  Cov.of_strip (l := [(2953276555264, 3), (4461799931904, 3), (7478846685184, 3), (10435562569728, 3), (12463860875264, 3), (13855279284224, 3), (14809785434112, 3), (15464566620160, 3), (15913743024128, 3), (16221873373184, 3), (16369831641088, 3), (16440883150848, 3), (16489620963328, 3), (16523057954816, 3), (16545992409088, 3), (16561712660480, 3), (16577130921984, 3), (16592230416384, 3), (16602581958656, 3), (16612732174336, 3), (16619694718976, 3), (16626523045888, 3), (16633200377856, 3), (16639760269312, 3), (16646185943040, 3), (16655178530816, 3), (16667778220032, 3), (16685411074048, 3), (16710107136000, 3), (16759499259904, 3), (16828638167040, 3), (16966932758528, 3), (17243521941504, 3), (17796717084672, 3), (18903124148224, 3), (21115938275328, 3), (25541566529536, 3), (34392839815168, 3), (52095403163648, 3), (84662395338752, 3)]) (by decide +kernel)

theorem hatR_25 : Cov hatRBox 84662395338752 2199023255552 212282114048 214362488832 :=
  Cov.of_strip (l := [(2953276555264, 3), (4461799931904, 3), (7478846685184, 3), (10435562569728, 3), (12463860875264, 3), (13855279284224, 3), (14809785434112, 3), (15464566620160, 3), (15913743024128, 3), (16129430913024, 3), (16277389180928, 3), (16378891337728, 3), (16427629150208, 3), (16461066141696, 3), (16493832044544, 3), (16516296736768, 3), (16538325221376, 3), (16559900721152, 3), (16574698225664, 3), (16589210517504, 3), (16603420819456, 3), (16617345908736, 3), (16636857810944, 3), (16664171118592, 3), (16718814511104, 3), (16795301838848, 3), (16948293271552, 3), (17254292914176, 3), (17866292199424, 3), (19090290769920, 3), (21538304688128, 3), (26434349301760, 3), (36226438529024, 3), (55810633760768, 3), (84662395338752, 3)]) (by decide +kernel)

theorem hatR_26 : Cov hatRBox 84662395338752 2199023255552 209362878464 212282114048 :=
  Cov.of_strip (l := [(2953276555264, 3), (4461799931904, 3), (7478846685184, 3), (10435562569728, 3), (12463860875264, 3), (13855279284224, 3), (14809785434112, 3), (15464566620160, 3), (15913743024128, 3), (16129430913024, 3), (16232996667392, 3), (16304048177152, 3), (16352785989632, 3), (16386222981120, 3), (16418988883968, 3), (16441453576192, 3), (16463482060800, 3), (16485057560576, 3), (16499855065088, 3), (16514367356928, 3), (16524316246016, 6), (16531144572928, 3), (16537821904896, 3), (16544381796352, 3), (16550807470080, 3), (16557098926080, 3), (16565906964480, 3), (16578254995456, 3), (16595535527936, 3), (16619728273408, 3), (16653601472512, 3), (16721364647936, 3), (16816223027200, 3), (17005956562944, 3), (17385440411648, 3), (18144424886272, 3), (19662410612736, 3), (22698398842880, 3), (28770375303168, 3), (40914328223744, 3), (65202250842112, 3), (84662395338752, 3)]) (by decide +kernel)

theorem hatR_27 : Cov hatRBox 84662395338752 2199023255552 206443642880 209362878464 :=
  Cov.of_strip (l := [(2953276555264, 3), (4461799931904, 3), (7478846685184, 3), (10435562569728, 3), (12463860875264, 3), (13855279284224, 3), (14809785434112, 3), (15464566620160, 3), (15778988425216, 3), (15994676314112, 3), (16142634582016, 3), (16244136738816, 3), (16313762185216, 3), (16361526919168, 3), (16394292822016, 3), (16426404413440, 3), (16457861693440, 3), (16479437193216, 3), (16500593262592, 3), (16521313124352, 3), (16550337708032, 3), (16590972125184, 3), (16647863664640, 3), (16761646743552, 3), (16989229678592, 3), (17444395548672, 3), (18354727288832, 3), (20175407546368, 3), (23816784838656, 3), (31099539423232, 3), (45665048592384, 3), (74796066930688, 3), (84662395338752, 3)]) (by decide +kernel)

theorem hatR_28 : Cov hatRBox 84662395338752 2199023255552 202350002176 206443642880 :=
  Cov.of_strip (l := [(2953276555264, 3), (4461799931904, 3), (7478846685184, 3), (10435562569728, 3), (12463860875264, 3), (13855279284224, 3), (14809785434112, 3), (15464566620160, 3), (15778988425216, 3), (15994676314112, 3), (16098242068480, 3), (16169293578240, 3), (16218031390720, 3), (16251468382208, 3), (16284234285056, 3), (16306698977280, 3), (16338156257280, 3), (16359731757056, 3), (16380887826432, 3), (16395400118272, 6), (16405349007360, 3), (16415096569856, 3), (16424642805760, 3), (16434004492288, 3), (16443181629440, 3), (16456032976896, 3), (16474018152448, 3), (16499217530880, 3), (16534483238912, 3), (16583875362816, 3), (16682659610624, 3), (16820954202112, 3), (17097543385088, 3), (17650738528256, 3), (18757145591808, 3), (20969959718912, 3), (25395587973120, 3), (34246861258752, 3), (51949424607232, 3), (84662395338752, 3)]) (by decide +kernel)

theorem hatR_29 : Cov hatRBox 84662395338752 2199023255552 198256361472 202350002176 :=
  Cov.of_strip (l := [(2953276555264, 3), (4461799931904, 3), (7478846685184, 3), (10435562569728, 3), (12463860875264, 3), (13855279284224, 3), (14809785434112, 3), (15464566620160, 3), (15778988425216, 3), (15929966592000, 3), (16033532346368, 3), (16104583856128, 3), (16153321668608, 3), (16201086402560, 3), (16247894835200, 3), (16293763743744, 3), (16325221023744, 3), (16356057546752, 3), (16386273312768, 3), (16428585451520, 3), (16487825801216, 3), (16570755579904, 3), (16736631914496, 3), (17068384583680, 3), (17731889922048, 3), (19058917376000, 3), (21712972283904, 3), (27021098876928, 3), (37637352062976, 3), (58869875212288, 3), (84662395338752, 3)]) (by decide +kernel)

theorem hatR_30 : Cov hatRBox 84662395338752 2199023255552 192518553600 198256361472 :=
  Cov.of_strip (l := [(2953276555264, 3), (4009234530304, 3), (6121167257600, 3), (9077883142144, 3), (11975459340288, 3), (13366877749248, 3), (14321383899136, 3), (14976165085184, 3), (15425341489152, 3), (15641029378048, 3), (15788987645952, 3), (15890489802752, 3), (15960115249152, 3), (16007879983104, 3), (16054688415744, 3), (16100557324288, 3), (16145503485952, 3), (16176340008960, 3), (16197496078336, 3), (16218215940096, 3), (16232426242048, 3), (16246351331328, 3), (16260007985152, 3), (16273379426304, 3), (16292119576576, 3), (16310473850880, 3), (16336176545792, 3), (16372163674112, 3), (16422562430976, 3), (16493110624256, 3), (16634223788032, 3), (16916466892800, 3), (17480953102336, 3), (18609942298624, 3), (20867920691200, 3), (25383877476352, 3), (34415791046656, 3), (52479634964480, 3), (84662395338752, 3)]) (by decide +kernel)

theorem hatR_31 : Cov hatRBox 84662395338752 2199023255552 186780745728 192518553600 :=
  Cov.of_strip (l := [(2953276555264, 3), (4009234530304, 3), (6121167257600, 3), (9077883142144, 3), (11975459340288, 3), (13366877749248, 3), (14321383899136, 3), (14976165085184, 3), (15425341489152, 3), (15641029378048, 3), (15788987645952, 3), (15860039155712, 3), (15929664602112, 3), (15997897539584, 3), (16064771522560, 3), (16110640431104, 3), (16155586592768, 3), (16199643561984, 3), (16242811338752, 3), (16303259648000, 3), (16424156266496, 3), (16593404821504, 3), (16931918708736, 3), (17608963260416, 3), (18963069140992, 3), (21671297679360, 3), (27087754756096, 3), (37920668909568, 3), (59586497216512, 3), (84662395338752, 3)]) (by decide +kernel)

theorem hatR_32 : Cov hatRBox 84662395338752 2199023255552 178744459264 186780745728 :=
  Cov.of_strip (l := [(2727002243072, 3), (3466172825600, 3), (4944530767872, 3), (7901246652416, 3), (10798822850560, 3), (12786553847808, 3), (14150138855424, 3), (14804920041472, 3), (15119341846528, 3), (15335029735424, 3), (15482988003328, 3), (15584490160128, 3), (15683962273792, 3), (15752195211264, 3), (15799003643904, 3), (15844872552448, 3), (15889818714112, 3), (15933875683328, 3), (15964091449344, 3), (15984811311104, 3), (16005128519680, 3), (16025026297856, 3), (16044538200064, 3), (16063647449088, 3), (16090407108608, 3), (16127887409152, 3), (16180366540800, 3), (16253833969664, 3), (16356678303744, 3), (16562383749120, 3), (16973811417088, 3), (17796683530240, 3), (19442427756544, 3), (22733932986368, 3), (29316960223232, 3), (42483014696960, 3), (68815140421632, 3), (84662395338752, 3)]) (by decide +kernel)

theorem hatR_33 : Cov hatRBox 84662395338752 2199023255552 170708172800 178744459264 :=
  Cov.of_strip (l := [(2727002243072, 3), (3466172825600, 3), (4944530767872, 3), (7901246652416, 3), (10798822850560, 3), (12786553847808, 3), (13741059997696, 3), (14395841183744, 3), (14845017587712, 3), (15153147936768, 3), (15364524081152, 3), (15466026237952, 3), (15565498351616, 3), (15633731289088, 3), (15729260756992, 3), (15794792562688, 3), (15839738724352, 3), (15883795693568, 3), (15945468739584, 3), (16005917048832, 3), (16090541326336, 3), (16209022025728, 3), (16445983424512, 3), (16919922999296, 3), (17867802148864, 3), (19763560448000, 3), (23555077046272, 3), (31138110242816, 3), (46304193413120, 3), (76636359753728, 3), (84662395338752, 3)]) (by decide +kernel)

theorem hatR_34 : Cov hatRBox 84662395338752 2199023255552 162671886336 170708172800 :=
  Cov.of_strip (l := [(2727002243072, 3), (3466172825600, 3), (4944530767872, 3), (7901246652416, 3), (10798822850560, 3), (12786553847808, 3), (13741059997696, 3), (14395841183744, 3), (14845017587712, 3), (15060705476608, 3), (15208663744512, 3), (15353669222400, 3), (15453141336064, 3), (15592409006080, 3), (15687938473984, 3), (15781555339264, 3), (15873309933568, 3), (16001756299264, 3), (16181591277568, 3), (16541261234176, 3), (17260617924608, 3), (18699331305472, 3), (21576774844416, 3), (27331661922304, 3), (38841436078080, 3), (61861001166848, 3), (84662395338752, 3)]) (by decide +kernel)

theorem hatR_35 : Cov hatRBox 84662395338752 2199023255552 151414374400 162671886336 :=
  Cov.of_strip (l := [(2727002243072, 3), (3466172825600, 3), (4944530767872, 3), (7901246652416, 3), (10798822850560, 3), (12190241259520, 3), (13553826267136, 3), (14208607453184, 3), (14657783857152, 3), (14873471746048, 3), (15021430013952, 3), (15122932170752, 3), (15222404284416, 3), (15319879909376, 3), (15415409377280, 3), (15480941182976, 3), (15525887344640, 3), (15569944313856, 3), (15631617359872, 3), (15692065669120, 3), (15776689946624, 3), (15895170646016, 3), (16132132044800, 3), (16463884713984, 3), (17127390052352, 3), (18454417506304, 3), (21108472414208, 3), (26416599007232, 3), (37032852193280, 3), (58265375342592, 3), (84662395338752, 3)]) (by decide +kernel)

theorem hatR_36 : Cov hatRBox 84662395338752 2199023255552 140156862464 151414374400 :=
  Cov.of_strip (l := [(2727002243072, 3), (3466172825600, 3), (4944530767872, 3), (7901246652416, 3), (10798822850560, 3), (12190241259520, 3), (13144747409408, 3), (13799528595456, 3), (14248704999424, 3), (14556835348480, 3), (14768211492864, 3), (14913216970752, 3), (15055319990272, 3), (15194587660288, 3), (15290117128192, 3), (15383733993472, 3), (15475488587776, 3), (15603934953472, 3), (15783769931776, 3), (16143439888384, 3), (16646991249408, 3), (17654093971456, 3), (19668299415552, 3), (23696710303744, 3), (31753548857344, 3), (47867242741760, 3), (80094647287808, 3), (84662395338752, 3)]) (by decide +kernel)

theorem hatR_37 : Cov hatRBox 84662395338752 2199023255552 124386279424 140156862464 :=
  Cov.of_strip (l := [(2727002243072, 3), (3466172825600, 3), (4944530767872, 3), (7901246652416, 3), (9929544957952, 3), (11917275955200, 3), (12871782105088, 3), (13526563291136, 3), (13975739695104, 3), (14191427584000, 3), (14402803728384, 3), (14504305885184, 3), (14603777998848, 3), (14701253623808, 3), (14796783091712, 3), (14890399956992, 3), (14954623139840, 3), (14998680109056, 3), (15041847885824, 3), (15084160024576, 3), (15125616525312, 3), (15166250942464, 3), (15223142481920, 3), (15278893170688, 3), (15356940779520, 3), (15466227564544, 3), (15619218997248, 3), (15925218639872, 3), (16353608073216, 3), (17210403717120, 3), (18924011782144, 3), (22351244689408, 3), (29205710503936, 3), (42914642132992, 3), (70332522168320, 3), (84662395338752, 3)]) (by decide +kernel)

theorem hatR_38 : Cov hatRBox 84662395338752 2199023255552 108615696384 124386279424 :=
  Cov.of_strip (l := [(2568608546816, 3), (3086017888256, 3), (4120853348352, 3), (6190541045760, 3), (9088117243904, 3), (11075848241152, 3), (12439433248768, 3), (13094214434816, 3), (13543390838784, 3), (13851521187840, 3), (14062897332224, 3), (14207902810112, 3), (14350005829632, 3), (14447481454592, 3), (14583964106752, 3), (14677580972032, 3), (14769335566336, 3), (14859244666880, 3), (14947358605312, 3), (15070721474560, 3), (15243426136064, 3), (15485219373056, 3), (15968822624256, 3), (16645867175936, 3), (17999973056512, 3), (20708201594880, 3), (26124658671616, 3), (36957572825088, 3), (58623401132032, 3), (84662395338752, 3)]) (by decide +kernel)

theorem hatR_39 : Cov hatRBox 84662395338752 2199023255552 92845113344 108615696384 :=
  Cov.of_strip (l := [(2568608546816, 3), (3086017888256, 3), (4120853348352, 3), (6190541045760, 3), (9088117243904, 3), (11075848241152, 3), (12030354391040, 3), (12685135577088, 3), (13134311981056, 3), (13442442330112, 3), (13653818474496, 3), (13860966760448, 3), (14003069779968, 3), (14142337449984, 3), (14337305477120, 3), (14471053443072, 3), (14602117054464, 3), (14730563420160, 3), (14910398398464, 3), (15162174078976, 3), (15665725440000, 3), (16370687279104, 3), (17780627734528, 3), (20600525422592, 3), (26240320798720, 3), (37519911550976, 3), (60079093055488, 3), (84662395338752, 3)]) (by decide +kernel)

theorem hatR_40 : Cov hatRBox 84662395338752 2199023255552 77074530304 92845113344 :=
  Cov.of_strip (l := [(2568608546816, 3), (2930795085824, 3), (3655184941056, 3), (5103964651520, 3), (8001540849664, 3), (9989271846912, 3), (11352856854528, 3), (12288270532608, 3), (12929965490176, 3), (13238095839232, 3), (13449471983616, 3), (13656620269568, 3), (13798723289088, 3), (13997667516416, 3), (14134150168576, 3), (14267898134528, 3), (14398961745920, 3), (14582470934528, 3), (14839380443136, 3), (15199050399744, 3), (15918407090176, 3), (17357120471040, 3), (20234564009984, 3), (25989451087872, 3), (37499225243648, 3), (60518790332416, 3), (84662395338752, 3)]) (by decide +kernel)

theorem hatR_41 : Cov hatRBox 84662395338752 2199023255552 61303947264 77074530304 :=
  Cov.of_strip (l := [(2457727926272, 3), (2819914465280, 3), (3326989041664, 3), (4341138194432, 3), (6369436499968, 3), (8357167497216, 3), (10305153269760, 3), (11641458524160, 3), (12283153481728, 3), (12723354075136, 3), (13025327185920, 3), (13232475471872, 3), (13374578491392, 3), (13513846161408, 3), (13708814188544, 3), (13899889901568, 3), (14030953512960, 3), (14214462701568, 3), (14471372210176, 3), (14831042166784, 3), (15550398857216, 3), (16989112238080, 3), (19866555777024, 3), (25621442854912, 3), (37131217010688, 3), (60150782099456, 3), (84662395338752, 3)]) (by decide +kernel)

theorem hatR_42 : Cov hatRBox 84662395338752 2199023255552 45533364224 61303947264 :=
  Cov.of_strip (l := [(2457727926272, 3), (2711265214464, 3), (3066203996160, 3), (3776098336768, 3), (5195903795200, 3), (7183634792448, 3), (9131620564992, 3), (10467925819392, 3), (11384632901632, 3), (12013493288960, 3), (12444885843968, 3), (12740819156992, 3), (12943823470592, 3), (13083091140608, 3), (13219573792768, 3), (13410649505792, 3), (13597900013568, 3), (13726346379264, 3), (13906181357568, 3), (14157957038080, 3), (14510429569024, 3), (15215391408128, 3), (16625331863552, 3), (19445229551616, 3), (25085024927744, 3), (36364615680000, 3), (58923797184512, 3), (84662395338752, 3)]) (by decide +kernel)

theorem hatR_43 : Cov hatRBox 84662395338752 2199023255552 29762781184 45533364224 :=
  Cov.of_strip (l := [(2380116525056, 3), (2633653813248, 3), (2882107604992, 3), (3379031965696, 3), (4372897464320, 3), (6360628461568, 3), (8308614234112, 3), (10217626533888, 3), (11134333616128, 3), (11763194003456, 3), (12194586558464, 3), (12490519871488, 3), (12693524185088, 3), (12832791855104, 3), (12969274507264, 3), (13103022473216, 3), (13290272980992, 3), (13418719346688, 3), (13598554324992, 3), (13850330005504, 3), (14202802536448, 3), (14907764375552, 3), (16317704830976, 3), (19137602519040, 3), (24777397895168, 3), (36056988647424, 3), (58616170151936, 3), (84662395338752, 3)]) (by decide +kernel)

theorem hatR_44 : Cov hatRBox 84662395338752 2199023255552 13992198144 29762781184 :=
  Cov.of_strip (l := [(2380116525056, 3), (2557585915904, 3), (2731498536960, 3), (2974986272768, 3), (3461978521600, 3), (4435963019264, 3), (6383948791808, 3), (8292961091584, 3), (9602540240896, 3), (10885930156032, 3), (11502207631360, 3), (11924976697344, 3), (12214987653120, 3), (12354255323136, 3), (12490737975296, 3), (12584354840576, 3), (12676109434880, 3), (12766018535424, 3), (12891897987072, 3), (13015260856320, 3), (13136157474816, 3), (13254638174208, 3), (13420514508800, 3), (13652744732672, 3), (14117205180416, 3), (14767439740928, 3), (16067925639168, 3), (18668897435648, 3), (23870857805824, 3), (34274795323392, 3), (55082670358528, 3), (84662395338752, 3)]) (by decide +kernel)

theorem hatR_45 : Cov hatRBox 84662395338752 2199023255552 0 13992198144 :=
  Cov.of_strip (l := [(2325791899648, 3), (2450010406912, 3), (2535221886976, 3), (2618738868224, 3), (2735659286528, 3), (2969500123136, 3), (3437198573568, 3), (4372612251648, 3), (6243456385024, 3), (8076870549504, 3), (9873626497024, 3), (10736428384256, 3), (11328311787520, 3), (11734337191936, 3), (11929305219072, 3), (12120380932096, 3), (12212135526400, 3), (12302044626944, 3), (12363717672960, 3), (12424165982208, 3), (12483406331904, 3), (12541455499264, 3), (12622724333568, 3), (12736507412480, 3), (12848008790016, 3), (12957295575040, 3), (13110287007744, 3), (13324481724416, 3), (13752871157760, 3), (14352623075328, 3), (15552143687680, 3), (17951201689600, 3), (22749317693440, 3), (32345566478336, 3), (51538080825344, 3), (84662395338752, 3)]) (by decide +kernel)

/-- The whole range of `δ`. -/
theorem hatR_cov : Cov hatRBox 84662395338752 2199023255552 0 347707801600 :=
  (((((((((((((((((((((((((((((((((((((((((((((hatR_0).join hatR_1).join hatR_2).join hatR_3).join hatR_4).join hatR_5).join hatR_6).join hatR_7).join hatR_8).join hatR_9).join hatR_10).join hatR_11).join hatR_12).join hatR_13).join hatR_14).join hatR_15).join hatR_16).join hatR_17).join hatR_18).join hatR_19).join hatR_20).join hatR_21).join hatR_22).join hatR_23).join hatR_24).join hatR_25).join hatR_26).join hatR_27).join hatR_28).join hatR_29).join hatR_30).join hatR_31).join hatR_32).join hatR_33).join hatR_34).join hatR_35).join hatR_36).join hatR_37).join hatR_38).join hatR_39).join hatR_40).join hatR_41).join hatR_42).join hatR_43).join hatR_44).join hatR_45

end Boost.Random.PtrdBox
