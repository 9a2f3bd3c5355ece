import Verif.Model.Niederreiter

/-!
# The table of the Niederreiter base 2 engine

Transcription of `include/boost/random/detail/niederreiter_base2_table.hpp`, written by `tools/gen_nb_table.py`. A chunk holds 80 polynomials of
16 bits each, the first one lowest.
-/

namespace Boost.Random.Qrng

/-- Polynomials 0 to 79; detail/niederreiter_base2_table.hpp:41-502. -/
def nbChunk0 : Nat := 0x259024b0233022d0221021b02170211020301f901f501f301e701dd01d701cf01c301bd01b101a901a3019f018d018b0187017b01770171016901650163015f014d013f0139012d012b011d011b00fd00f700f100ef00e500d500d300cb00c100bf00b900ab00a7009d0091008f0089008300750073006d00670061005b005700490043003d003b0037002f00290025001f00190013000d000b000700030002

/-- Polynomials 80 to 159; detail/niederreiter_base2_table.hpp:41-502. -/
def nbChunk1 : Nat := 0x5570543053d05310523051f0519050d050b04ff04f304ed04e704d704c904c504af04a90499048b0481046f04650463045304470435042d0427041d041b040f040903fb03e903e303d903d503cd03cb03c703b903b503a1038f0385037f0373036d036b0361035b034f0349033b03310323031f03150313030102f902f502db02d102cf02bd02b702af02a502a3029902950287027d0277026f02690265025f

/-- Polynomials 160 to 239; detail/niederreiter_base2_table.hpp:41-502. -/
def nbChunk2 : Nat := 0x8b108a9089f0895088d087b0871086508630847082d082b0817080507ff07f907f307eb07db07c507b107a90793078d07870781077d077b076307590755074d074707390735072b0721071d07170711070f06fd06f706df06d306cd06c106bf06b506ad06a706890685067f0679065b0651064f064306370631062506230615061305fb05f705e505c705c105b905ab05a1059b0597058f0585056b05670561

/-- Polynomials 240 to 319; detail/niederreiter_base2_table.hpp:41-502. -/
def nbChunk3 : Nat := 0xc0b0bed0be70bdd0bdb0bc90bbd0bb70baf0b950b930b8b0b870b7d0b6f0b650b5f0b590b4b0b410b3f0b330b110b090b030afb0af10aef0ae90ae30adf0ad50ab50ab30aab0aa70a9d0a910a850a7f0a790a6d0a610a490a290a150a130a070a0109f709ef09e509d909c709b909ad09ab098f0983097f09750973095b095109490945093d093b0937092909250913090d08f508eb08e708e108d108cf08c3

/-- Polynomials 320 to 399; detail/niederreiter_base2_table.hpp:41-502. -/
def nbChunk4 : Nat := 0xf790f750f6d0f6b0f5d0f370f310f190f0b0ef90ef30edd0ecf0ec90ebb0ea30e9f0e930e810e7d0e7b0e710e5f0e550e4b0e470e390e330e2b0e270e210e1d0e050dff0df50de70de10ddb0dd70dc90dbd0dbb0da90d9f0d930d710d6f0d630d590d550d470d410d2d0d270d1d0d0f0d030cf70ce90ce30cd50cd30ccd0cc70cbf0cb30c9d0c9b0c970c890c850c750c730c6b0c610c570c310c1f0c190c0d

/-- Polynomials 400 to 479; detail/niederreiter_base2_table.hpp:41-502. -/
def nbChunk5 : Nat := 0x13331321131d131b130f130912cb12c112b912b5127f1273126d126712451243123d123b1237122512191213120d120111f111ef11e311df11d911b311ab1191118511831179116d116b11611157114f113b113711311123111f110710ff10ed10eb10d110cf10a510a31099108b1081107d107b107710691053104d103f103510331021101710090ffb0fe90fe50fd30fcd0fb50fad0fa70f9b0f970f910f83

/-- Polynomials 480 to 559; detail/niederreiter_base2_table.hpp:41-502. -/
def nbChunk6 : Nat := 0x1743173d17191715170b16ff16f316e716e116d116c916c316bd16a51693166f1665166316591655164b16471641163f161b1609160315f915eb15dd15d715c515bb15a915a515931581154d154b151d150f14e514df14d914d314cd14b514ad14a714a11489147f1475146b1467145d145b144f1449143714311413140713f513f313dd13d713d113c313bb13af13a913a3139f139913711365134d133f1339

/-- Polynomials 560 to 639; detail/niederreiter_base2_table.hpp:41-502. -/
def nbChunk7 : Nat := 0x1ae71ae11ad11ac51ab11a8b1a7b1a691a631a5f1a551a531a4d1a331a2b1a211a1d1a1b19f919ed19e719dd19cf19c919bd19b719b11999198b1981197b196f1965195f194b19411935192d191b1909190518fb18f118ef18cd18cb18b918a1189718911883187f1879186d185d18571849183718311823181f180d180717fb17df17c117bf17b317ad179d1797178f1789177917751773175d1757174f1745

/-- Polynomials 640 to 719; detail/niederreiter_base2_table.hpp:41-502. -/
def nbChunk8 : Nat := 0x1ecd1ebf1eb91e9b1e971e8f1e731e671e611e5d1e511e451e3d1e3b1e2f1e191e151e071def1dc11db31da71d911d891d851d831d791d751d671d5d1d5b1d511d431d3d1d2f1d231d071d011cf31ced1ceb1cd71ccf1cc91cc51cbb1cb71ca51c9f1c871c5f1c4d1c271c171c111c0f1c051c031bfd1be31bd31bcb1bc11bbf1bb91bb51ba71b911b8f1b891b571b451b2f1b1f1b191b131b0d1b0b1af51aeb

/-- Polynomials 720 to 799; detail/niederreiter_base2_table.hpp:41-502. -/
def nbChunk9 : Nat := 0x22ef22cd22bf22b3229b22972289227f2279225d225b2243223d22372225221921fb21f121e321df21cd21c721c121bf219d219721892179216b21672143213b212f21292115210d20f320e120c920c320bd20bb20af20a5209f208d208b206f2065205320352027201b1fff1fed1fe11fc91fc51fc31fbd1fbb1faf1f991f8d1f811f7d1f711f651f531f4b1f471f391f271f1b1f111f031ef71ef11ee31ed3

/-- Polynomials 800 to 879; detail/niederreiter_base2_table.hpp:41-502. -/
def nbChunk10 : Nat := 0x26b726b1269926932687267b2677266926592653264b263f262d26112605260325eb25d725cf25c525bd25af259f25992595258b2587257725712563255525532539252d2521251d2517250924e324cb24c724c124bf24b5249d249b2483247f246d246124572451243d24292425241f2413240b23f923ed23e123bb23b723b123a923a32395238d2387237d2371236f235923552347232b2327230522fb22f7

/-- Polynomials 880 to 959; detail/niederreiter_base2_table.hpp:41-502. -/
def nbChunk11 : Nat := 0x2ac52ab12aa92aa52a7d2a7b2a712a6f2a692a4d2a352a332a212a1d2a0f2a0329f529f329d729c329bd29b729af299f29932981297d29772955294b2941293f2935292b291b2911290f290928fb28e928e328df28d528cd28bf28ad28ab2885287528672845283d283b28312823281f2819280727f127ef27df27cb27c727b927a12791278327792773276b275d2757274f273b2729271326f526eb26c326bd

/-- Polynomials 960 to 1039; detail/niederreiter_base2_table.hpp:41-502. -/
def nbChunk12 : Nat := 0x2efd2efb2edf2eb92eb32eab2e9d2e972e912e8f2e6b2e612e5d2e5b2e4f2e492e292e152e132e072dfd2df12de32db52dab2da72d8f2d892d752d672d5b2d452d3b2d372d2f2d292d192d0d2ceb2ce72ce12cd72cd12cc52cbd2caf2ca32c952c8d2c8b2c712c4d2c412c3f2c2d2c2b2c212c0f2bfd2be52bd92bb32bad2b9b2b972b852b7f2b6d2b492b432b372b2f2b252b232b152b012af32aeb2adb2ad7

/-- Polynomials 1040 to 1119; detail/niederreiter_base2_table.hpp:41-502. -/
def nbChunk13 : Nat := 0x32e732db32d732c332bb32b732a9329f329932933281326532593253324b32393227321d320f320931ff31f331ed31eb31e131db31c931c531b731a931a3317b31713163315f314d31473135310f310530ef30e530d930d330c130bf30b530a13091307f30793067304f3049302f3019301530072fff2ff52fed2fe72fdd2fcf2fb12faf2fa52f952f692f652f5f2f592f4d2f4b2f412f3f2f172f112f092f05

/-- Polynomials 1120 to 1199; detail/niederreiter_base2_table.hpp:41-502. -/
def nbChunk14 : Nat := 0x372d3721371b370f370536ef36e336d536d336cb36ad369d369b369136753673365b36513649363b362f3625361f360b360135ef35e935e335d935d535cd35b935a1359d357f3573356d355d354f3545353735313525351f350d34f934e734db34c934bd34a5349934933487347b34773469345f344d34413427341b340933fb33f733e533e333d533c733c133b933ab339b33973375335d3351332f33153307

/-- Polynomials 1200 to 1279; detail/niederreiter_base2_table.hpp:41-502. -/
def nbChunk15 : Nat := 0x3b3f3b353b2d3b2b3b113afb3ae93ae53adf3ad53ad33acd3abf3ab93a893a753a733a673a613a5d3a513a3d3a2f3a293a0739fd39f739ef39d339cd39cb39ad39a739a1399739853983396d3967394f39313913390b3907390138f938f338e138cf38c938bb38b138a3387138693859384b38333827381d38173805380337f337e137dd37d737d137cf37c537a337993795378b377737713753374737413739

/-- Polynomials 1280 to 1359; detail/niederreiter_base2_table.hpp:41-502. -/
def nbChunk16 : Nat := 0x3f1f3f193f0d3ef93ee13edd3ed73ec53ebd3ea33e8b3e693e653e533e413e3f3e2b3e1b3e0f3e093e053df93deb3de73ddb3dd13dc33db73db13d953d813d7d3d693d653d4d3d413d353d333d2d3d213d1b3d173d033cfd3cfb3ce93cc73cb93cab3ca73c9d3c8f3c833c6d3c5d3c4f3c3b3c253c233c1f3c153c133c0d3bff3bf33be73bd13bbb3bb73ba93ba53b993b8b3b773b713b6f3b653b633b593b53

/-- Polynomials 1360 to 1439; detail/niederreiter_base2_table.hpp:41-502. -/
def nbChunk17 : Nat := 0x433f43274321431b4309430342ef42e942e342cd42cb42c742a1429d42854283427f427942734261425742494245420d420141f141d941d541b541ad41ab41a7419d419b4191416d4167415741494143413b4113410d410b40f940f340eb40d740cf40bd40bb40af40a94087407b4065405f4053403f40394033402b40213ffd3ff73fe33fb53fab3f913f893f833f613f573f513f493f453f433f3d3f373f25

/-- Polynomials 1440 to 1519; detail/niederreiter_base2_table.hpp:41-502. -/
def nbChunk18 : Nat := 0x47ef47e947e547d947d347c147b547a7479b47914789477f474f47434731472546ff46eb46db46cf46c546a546a346954693468d467b467146634659464746354627461d460f45ff45f345e745d745d145c945c545b745a5459f4599458d457d4577456f45594539452b450f4509450344fb44f144e344df44d544d344c144894473445d4443440d440b43ff43ed43eb43dd43c943af43954387437d437b4369

/-- Polynomials 1520 to 1599; detail/niederreiter_base2_table.hpp:41-502. -/
def nbChunk19 : Nat := 0x4c2b4c274c1d4c1b4c094bfb4bf14bdf4bd54bcd4bcb4bb94bb34bab4ba14b974b8f4b854b794b734b6d4b6b4b614b5b4b494b374b1f4af94aed4add4ac94abd4aaf4aa34a934a8b4a874a814a7b4a654a594a354a1749e749e149dd49d149cf49a9498b4987497749694965495f495349414939492d4921491d48fd48f748f148e348c748bf48914883487f48674861485b48514843483b481f4819481347fd

/-- Polynomials 1600 to 1679; detail/niederreiter_base2_table.hpp:41-502. -/
def nbChunk20 : Nat := 0x5121511b50fb50ef50e950e350d950d550cb50a1505d505b5025501f50074ff94fed4feb4fd74fbb4fb74fa94fa54f9f4f8d4f814f6f4f694f5f4f554f4b4f214f1d4eef4ee94ee54ed34eb34e9b4e834e6d4e6b4e514e494e434e374e234e154e014dfb4df14dd34dc14db34dad4d8f4d854d754d514d4f4d454d314d294d1f4d154cff4ced4cd74cd14cc54cbd4ca54c8d4c7d4c654c554c534c4b4c474c3f

/-- Polynomials 1680 to 1759; detail/niederreiter_base2_table.hpp:41-502. -/
def nbChunk21 : Nat := 0x556b55675537552f5519551354eb54e154dd54bb54b754b1549f54955493548d547b545f54595447543954355417540f540353fd53f153e553d353c753bf53b953a7539d539b53755367535b53495337532953255319530152f952eb52e752d152cf52c552c352bd52b152a35299528b52715265522d520f520551ff51f551ed51eb51db51d151cf51b751b151a55199518b517d516f515f51595153513f512d

/-- Polynomials 1760 to 1839; detail/niederreiter_base2_table.hpp:41-502. -/
def nbChunk22 : Nat := 0x59a1599d5997598f597f594f593b5923591358ff58f958eb58e758dd58d158b158af58a358995895588b5887587d5841583f58355833582d58215811580357f357e757d757c557c357bd57af5793577d5765576357595755574b573f572d572b56fb56f756f156cd56c756c156b356ad56ab569b565d56575631562f562956235615560d560755f755e955df55d355c155ad5597559155855583557f55795575

/-- Polynomials 1840 to 1919; detail/niederreiter_base2_table.hpp:41-502. -/
def nbChunk23 : Nat := 0x5e1b5e0f5e035de15ddb5dcf5dc95dbb5da95da35d9f5d955d8d5d875d6f5d475d355d335d1d5d115d055ce55ccd5ccb5cc15cbf5ca15c835c795c6d5c5d5c495c375c315c195c0b5c075bf95beb5be15bc55bc35ba95ba35b995b775b695b635b415b395b335b2b5b1d5b175b0f5af75ad95ad55ad35ac15ab55aa75a8f5a755a495a455a435a3d5a3b5a255a1f5a135a0d59fd59e959df59cb59b559ab59a7

/-- Polynomials 1920 to 1999; detail/niederreiter_base2_table.hpp:41-502. -/
def nbChunk24 : Nat := 0x629f628d627d626f6263624d6247623962356233622b61ff61f561ed61db61bb61af61a5619f617d6171615361416139612d6111610960f760d560d360b960b360ab60a1609d60976089606b606760616051604f603d602f6015600d600b5ff15fe55fe35fdf5fcd5fab5f975f895f755f6b5f615f515f455f435f3d5f235f1f5f195f0d5f075ef55ee75edb5ed75ea95ea55e995e815e7d5e635e4b5e475e2d

/-- Polynomials 2000 to 2079; detail/niederreiter_base2_table.hpp:41-502. -/
def nbChunk25 : Nat := 0x66df66d966b966b566ab66a76697668f66836673666d666b665d664f663b6623660d6607660165f765f165ef65e565d965d565d365bf65b965ad65a765916583655b654965456543653b65376519650b650164f564e764b164a9649f6495648b6455644d64476441642d6417640963fd63ef63bf63a16391638963856375636d635b633d63376331632362ff62f362ed62eb62dd62db62d762b762b162a962a5

/-- Polynomials 2080 to 2159; detail/niederreiter_base2_table.hpp:41-502. -/
def nbChunk26 : Nat := 0x6b2b6b176b036afd6afb6aef6ae96acd6acb6ac16abf6ab56ab36a976a836a756a6d6a6b6a676a5b6a516a2f6a236a196a0b6a076a0169e969cd69c769ab69a1699d699b698f6985697969756973696b6957693d692f6919690768ff68c968c568a968a5689f6893688d688b6877686f68536841682b681d681b6811680367f567eb67e767d167b767af67a3678167776769675f674b67336721671b671166e9

/-- Polynomials 2160 to 2239; detail/niederreiter_base2_table.hpp:41-502. -/
def nbChunk27 : Nat := 0x6f5b6f576f4f6f3b6f316f296f156f016ef96edd6edb6ec36eb76eaf6e956e876e816e7b6e6f6e536e4d6e416e336e2d6e276e096ddd6dc56dc36dbd6dbb6db16da36d7b6d696d656d636d536d2b6d176d0f6d096d056cf16ce56ccb6cc76cc16cbf6cb96cb56c736c616c576c456c3d6c2f6c196c0b6bf96bf36bed6be16bd76bc56bb76bb16ba56ba36b9f6b956b8d6b816b7d6b696b556b4b6b476b396b33

/-- Polynomials 2240 to 2319; detail/niederreiter_base2_table.hpp:41-502. -/
def nbChunk28 : Nat := 0x73f373e773d173c973bd73a57393738d736f736573557341732b73277309730372f772f172e572df72d372cd72c172b372ad728f72677261724f723b7231722f721f721971fb71f771e571df71cb71bf71b571a1719b71977189716b715d713d71377131712371197115711370e170dd70cf70c970bb70b770a9708d7081707d704b70357033702b701d70056fe96fdf6fd96fc76fb56fab6f976f916f856f61

/-- Polynomials 2320 to 2399; detail/niederreiter_base2_table.hpp:41-502. -/
def nbChunk29 : Nat := 0x7851784f783d78317825781577ef77d577d377c777b577ad77a7778977837773776d775777517749772f770b76f976f376eb76d176c576bb76af76a3769f76957687766976657663765f7655765376477639761d75ff75f975f575eb75d175cf75bd75a375997581757b7577754b754175357521751b751774fd74fb74e974df74d574cd74c774b374ab7483746d746b745b7457744f74297415741373ff73f5

/-- Polynomials 2400 to 2479; detail/niederreiter_base2_table.hpp:41-502. -/
def nbChunk30 : Nat := 0x7cd17cc37cb77ca37c957c937c8b7c7d7c697c597c2d7c277c097c057bf77bf17be37bd37bb97bab7ba17b8f7b857b797b677b5d7b517b4f7b457b3b7b237b0b7af57af37ae17ac37abb7ab77aa97a8d7a817a777a557a4b7a3f7a357a2b7a277a1b7a0379dd79d779c979c579b179a579877981797b7971796f7959794d793379277917790f790378ef78e978df78d978cd78cb78bf78b378ad78a7786d785b

/-- Polynomials 2480 to 2559; detail/niederreiter_base2_table.hpp:41-502. -/
def nbChunk31 : Nat := 0x8115810180ff80f580e780dd80cf80c380bd80b180a58093808780818077806f805f8035802d8017801180037fe77fe17fd77fd17fc57fc37fb17fa37f9f7f997f8d7f8b7f717f557f4d7f3f7f217f097ee57ee37ed37ec77ebf7eab7e9d7e9b7e8f7e897e7f7e757e617e457e2f7e197e0d7e017dfd7dfb7de97dd57dcd7dc77db37da77d977d917d8f7d797d737d497d457d377d157d017cff7cf97ceb7cdd

/-- Polynomials 2560 to 2639; detail/niederreiter_base2_table.hpp:41-502. -/
def nbChunk32 : Nat := 0x85c985c585b785b185a3858d8581857b8571855f854b8547853385278521851d84fd84fb84f784ef84df84b584a18497848584838479846d8467844984378431842f8423841983f583d183c583bd83bb83af83998395838b837183698363835f834d83478333832b831b831782f182e382d982cb829b828f8289827f8245823b821381fd81df81d581cd81cb81b981a781a181858179816d8161815d81578125

/-- Polynomials 2640 to 2719; detail/niederreiter_base2_table.hpp:41-502. -/
def nbChunk33 : Nat := 0x8a7b8a718a658a638a558a398a1789ff89ed89dd89db89d189cf89af89998995897d896589278917891189098905890388d988c788b588b38891888f8883887988738861885d8849883b883788258807880187f787f187e987df87bf87b387ad87ab879d878f87898785876b87318729871f8715870d870b86ff86f386db86c386b786af86a986938681867d866586598655862b861d8611860985f385ed85db

/-- Polynomials 2720 to 2799; detail/niederreiter_base2_table.hpp:41-502. -/
def nbChunk34 : Nat := 0x8f538f418f398f2b8f278f0f8efb8ee58edf8ed38ec18ebf8ea18e9b8e978e8f8e758e738e578e518e3b8e1f8e0b8df78def8de98de58dcd8dcb8dbf8da18d9b8d898d858d7f8d6d8d5b8d518d438d2f8d258d0b8d078d018ceb8ce18cc98cbb8ca98ca38c938c878c698c638c598c558c478c278c218bf18be58bd98bd58bcb8bc18b9d8b918b738b6d8b438b3d8b3b8b0d8b0b8add8ab18aaf8a9f8a8b8a87

/-- Polynomials 2800 to 2879; detail/niederreiter_base2_table.hpp:41-502. -/
def nbChunk35 : Nat := 0x93f193ef93df93cb93b593a1939d9383937f937393579349934593379331931392f992f592dd92c992b792a392959287927b925f9253924d923f923392279221921b9211920391e191cf91bd91b191a991a39199917b9177914d9141911d911b9117910f9109910590e390ad909d909b909190899075906d906190579043903d90379025901f9019900b8fe78fe18fd18fc98fbd8fb78fa58f7d8f778f658f55

/-- Polynomials 2880 to 2959; detail/niederreiter_base2_table.hpp:41-502. -/
def nbChunk36 : Nat := 0x98bb98af989998959847982d9821980997ff97f397e197dd97db97b197a997a597a3979f97959763974d97399735972b970596fb96ef96df96d396cb96c196ad969796799667965d9643963d96379631962f9615961395e995e395df95cd95ad959b9589956b95619545953d953195299515950794ff94f594e794e194db94d794c594bb94a994a594999493948b947d94779453944b9435942d942b940f93fb

/-- Polynomials 2960 to 3039; detail/niederreiter_base2_table.hpp:41-502. -/
def nbChunk37 : Nat := 0x9cc79cbf9c859c799c759c739c679c5d9c519c3d9c3b9c2f9c1f9c159bff9bf99beb9bd19bbd9bb79b939b8b9b879b7d9b779b6f9b5f9b539b419b339b2d9b1b9b119afb9ae39acb9ac79ab99aab9a9d9a979a859a7f9a799a6d9a619a5d9a5b9a579a4f9a319a2599e599e399d599cb99c199bf99b9999b99919989997f996d995b994599439937992f992999259919990b98f998f398e798dd98d798c598c3

/-- Polynomials 3040 to 3119; detail/niederreiter_base2_table.hpp:41-502. -/
def nbChunk38 : Nat := 0xa17ba16fa159a147a139a135a133a127a121a11da10fa103a0fba0e9a0dfa0cda0b5a0a7a091a089a07fa06da06ba067a05da05ba043a02fa025a023a015a00b9ff79fd99fcd9fb59fb39fad9f9b9f679f4f9f499f2f9f239f199f139f0b9ef39eed9ea39e9f9e819e699e639e5f9e599e559e479e399e279e219e179e119e039dbd9da59d9f9d999d8b9d819d779d639d599d559d039cf79cf19ce99ce59cd5

/-- Polynomials 3120 to 3199; detail/niederreiter_base2_table.hpp:41-502. -/
def nbChunk39 : Nat := 0xa637a62fa625a613a5fba5f1a5e9a5cda5c7a5b9a5a7a583a573a54fa529a525a523a501a4eda4eba4dba4c3a4bda4b1a4afa4a5a499a495a48ba487a481a465a459a453a411a409a405a403a3d5a3cda3c1a3b3a3a1a397a38fa385a373a36ba345a329a323a31fa319a30da30ba307a2eda2dba2d7a2c9a2c5a2bda2bba2a9a299a26fa263a255a247a241a235a22da21da20fa1e1a1cfa1c5a1b1a19fa181

/-- Polynomials 3200 to 3279; detail/niederreiter_base2_table.hpp:41-502. -/
def nbChunk40 : Nat := 0xab35ab1dab0fab03aaf1aadfaad3aab9aab3aaadaaabaa9daa79aa61aa51aa4faa45aa43aa31aa2faa15aa0da9f7a9efa9e9a9c1a9bfa9ada9a7a991a975a949a925a919a913a90ba8eba8e1a8dda8cfa8b7a8a9a8a3a89fa893a881a87da86fa869a855a84da84ba839a833a82ba805a7e7a7dda7d1a7cfa7bda7bba7b1a799a78da771a75fa739a72ba71ba6fda6f1a6c7a69da69ba691a673a661a651a63d

/-- Polynomials 3280 to 3359; detail/niederreiter_base2_table.hpp:41-502. -/
def nbChunk41 : Nat := 0xafabaf9daf8faf75af67af49af43af3baf2faf29af1faf13af01aef5aee7aeddaed7aebbaea3ae95ae8dae7bae77ae71ae63ae5fae4dae3fae39ae2dae1dae09adf9adebade7adddadc9adafada3ad6fad4dad4bad21ad1bad11ad05acfdace9acdfacd5acc7ac97ac8fac85ac7fac73ac6dac5bac45ac3bac37ac29ac13ac0dac07ac01abf3abe7abdbabd7abd1abc5abbbab99ab8bab81ab7dab63ab47ab39

/-- Polynomials 3360 to 3439; detail/niederreiter_base2_table.hpp:41-502. -/
def nbChunk42 : Nat := 0xb4d9b4bfb4a7b47fb475b46db457b445b443b429b41fb419b40db401b3f9b3ddb3dbb3d7b3c5b3b7b3b1b3a9b3a5b393b381b37bb363b327b317b305b2f7b2efb2e9b2dfb2c1b2b5b29bb289b27fb275b24fb249b243b215b213b20bb1e5b1dfb1c7b1a1b19db197b18fb175b15db157b13db10db10bb107b0f3b0e1b0d1b0c5b0c3b0afb093b08db077b055b03fb035b02db01bb00faffdaff7afe3afd3afc1

/-- Polynomials 3440 to 3519; detail/niederreiter_base2_table.hpp:41-502. -/
def nbChunk43 : Nat := 0xb965b959b955b947b92bb927b91db909b903b8fbb8d5b8d3b8bfb8adb8a1b89db889b885b875b861b84fb845b81fb7fdb7cbb7b3b7a1b79db797b791b783b779b76bb75bb757b745b725b71fb707b6ebb6e7b6d1b6b1b6afb699b68bb681b67bb659b64bb635b633b62db627b621b61bb617b609b605b5f9b5ebb5e7b5e1b5d7b5c3b5bbb5a9b595b57bb577b569b555b553b547b53fb533b51db509b4f7b4ef

/-- Polynomials 3520 to 3599; detail/niederreiter_base2_table.hpp:41-502. -/
def nbChunk44 : Nat := 0xbe23be15be07bdf1bde5bdd9bdd3bdc1bdb9bd89bd83bd7fbd67bd45bd37bd2fbd25bd13bd01bcddbcd1bcc3bca9bc9fbc8dbc8bbc7bbc69bc65bc63bc39bc33bc09bbe9bbe5bbcdbbcbbbbfbbb5bb91bb75bb67bb5bbb51bb4fbb49bb43bb3dbb23bb19bb15bb07bb01baffbaf3bad7bab7ba93ba8dba87ba81ba6fba69ba59ba39ba2bba11ba0fba05b9f5b9f3b9edb9e1b9d1b9c9b9c3b9bbb9afb98db977

/-- Polynomials 3600 to 3679; detail/niederreiter_base2_table.hpp:41-502. -/
def nbChunk45 : Nat := 0xc301c2f5c2ddc2d1c2cfc2b1c299c269c255c253c24dc22dc217c209c205c1edc1e7c1dbc1c9c1c3c1bdc1a5c193c17dc17bc177c16fc15fc14bc13fc133c121c111c0fbc0e3c0d5c0cbc0b9c0a7c09dc097c091c085c079c073c049c025c01fc013c007c001bfffbff5bfedbfdbbfc3bfb7bfa3bf8bbf81bf65bf53bf35bf33bf27bf21bf17bef1bed9bed5beabbe91be83be7fbe6bbe61be5bbe57be37be29

/-- Polynomials 3680 to 3759; detail/niederreiter_base2_table.hpp:41-502. -/
def nbChunk46 : Nat := 0xc753c741c709c703c6fbc6e9c6e3c6d5c6cdc6c7c6c1c6b9c6b3c6abc697c68fc679c675c66bc651c645c63dc631c62fc5fdc5efc5e9c5dfc5cbc5bfc5b5c5b3c5a1c59bc589c579c575c55bc549c531c52fc515c50bc4ffc4f9c4ebc4ddc4d7c4c5c4b7c4a5c49fc493c47dc46fc45fc44bc447c433c421c405c3fdc3efc3e3c3c7c3bfc3adc3abc39dc39bc383c373c361c35bc357c33dc32fc325c319c30d

/-- Polynomials 3760 to 3839; detail/niederreiter_base2_table.hpp:41-502. -/
def nbChunk47 : Nat := 0xcc7fcc6dcc5bcc49cc3dcc23cc15cc07cbf5cbe7cbd7cbbdcb87cb7bcb71cb69cb55cb3fcb2bcb1dcb1bcb17cafdcaf1caefcae3cad9cabfcaadca8fca67ca49ca43ca2fca29ca25c9d9c9cdc9cbc9c7c9abc98fc983c97fc961c95dc95bc93bc937c931c929c923c91fc915c90dc901c8ffc8f9c8f5c8c9c8bdc895c869c865c85fc84dc841c835c81bc803c7f5c7dbc7d7c7c3c7a9c79fc799c777c763c759

/-- Polynomials 3840 to 3919; detail/niederreiter_base2_table.hpp:41-502. -/
def nbChunk48 : Nat := 0xd0b1d0a3d099d095d08dd08bd087d077d071d04dd047d03fd009d005cff7cfe9cfd5cfc7cfabcfa1cf9dcf9bcf8fcf79cf73cf6bcf61cf5dcf2fcf1fcf19cf0dceffcef3ced7ced1cec9cec5cec3cebbcea5ce9fce71ce6fce65ce39ce35ce27ce11ce03cdffcdf9cdedcdebcde1cdd7cdcfcdc5cdb7cda3cd9fcd87cd6fcd63cd55cd33cd2bcd11ccfdccfbccf7ccd9ccc1ccb3ccadcca7cca1cc9bcc85cc83

/-- Polynomials 3920 to 3999; detail/niederreiter_base2_table.hpp:41-502. -/
def nbChunk49 : Nat := 0xd563d559d555d547d52bd527d51bd50fd4f1d4e9d4e5d4d3d4c1d4bfd4b3d4abd49dd497d46bd461d45dd43bd429d415d3edd3e7d3ddd3d1d3c9d3b1d3a3d399d393d381d37bd377d369d35fd359d34bd341d327d317d303d2cbd2b5d2a1d28fd283d26dd26bd257d237d229d223d21fd215d207d1fdd1efd1d9d1d5d1c1d1bfd1b9d19bd16dd15bd151d13dd12fd129d125d10bd0f9d0e1d0d7d0d1d0cfd0c5

/-- Polynomials 4000 to 4079; detail/niederreiter_base2_table.hpp:41-502. -/
def nbChunk50 : Nat := 0xda59da3fda35da33da27da17da05d9f9d9f3d9d7d9c3d9b1d9a9d9a3d99fd999d98bd971d965d95fd94dd947d941d933d91bd909d8e5d8d9d8d3d8c7d8c1d8b5d8abd8a7d89bd88fd889d86dd857d849d813d80dd7fbd7f7d7d9d7bfd7b5d7b3d7add77fd76dd767d731d725d723d715d6f3d6edd6e1d6d7d6c5d6b7d6a9d687d67dd66fd663d65fd64bd62bd627d605d5f5d5f3d5e7d5e1d5c3d5b7d593d57d

/-- Polynomials 4080 to 4159; detail/niederreiter_base2_table.hpp:41-502. -/
def nbChunk51 : Nat := 0xdf33df21df1ddf17df05df03ded3decddecbdeaddea1de89de85de83de75de6dde51de4fde49de3dde2fde07ddfbddf7dde5ddd5ddc1ddaddd9ddd75dd73dd67dd57dd45dd31dd29dd19dcf5dcdbdcd7dcd1dcafdc9fdc93dc71dc6fdc41dc39dc35dc2bdc11dbfddbfbdbefdbe9dbe3dbdfdbd5dbcddbc7dba1db91db83db61db4fdb45db3bdb29db25db1fdb07daeddadddac3dab1daa3da99da93da8bda7d

/-- Polynomials 4160 to 4239; detail/niederreiter_base2_table.hpp:41-502. -/
def nbChunk52 : Nat := 0xe3b7e3afe3a5e39fe393e38de377e365e363e359e339e335e31be311e30fe2d5e2c1e2bfe2ade2abe2a1e29de29be28fe285e279e267e24fe245e231e223e219e20be207e1efe1d9e1d3e1b3e17fe16be167e15de151e14fe149e131e125e10be101e0ffe0ede0dde0dbe0d7e0c5e0b7e0b1e0a9e09fe08de07de07be05fe04be047e035e033e011e00fe003dfebdfdbdfc9dfbbdfa5df71df6fdf69df63df59

/-- Polynomials 4240 to 4319; detail/niederreiter_base2_table.hpp:41-502. -/
def nbChunk53 : Nat := 0xe8cbe8c1e8bfe8a7e891e889e879e86de85be851e84fe843e82fe801e7f7e7f1e7e5e7d5e7d3e7cbe7b5e7ade7abe7a7e78fe783e775e76de729e719e701e6f9e6f5e6ebe6dde6d7e6bde6bbe687e669e653e647e63fe639e621e605e5e7e5afe5a5e595e581e533e52de51be517e505e503e4fde4f1e4dfe4cde4cbe4abe4a1e49de497e491e485e479e473e46de46be45be449e431e41fe3ffe3f3e3dbe3c3

/-- Polynomials 4320 to 4399; detail/niederreiter_base2_table.hpp:41-502. -/
def nbChunk54 : Nat := 0xed5ded49ed37ed23ed15ed07ecffeccfecc9ecbdecb7ecafec99ec93ec7dec69ec65ec5fec4bec35ec21ec11ec09ebe3ebd5ebd3ebcdebb3ebadeb9beb97eb75eb73eb6beb67eb5deb57eb45eb3beb29eb23eb19eb0beb07eaffeaedead7eac9eac3eabbea8dea81ea7dea71ea59ea4bea2dea1bea09e9ede9d7e9cfe9c5e9b7e98de971e969e963e95fe959e935e92be927e921e90fe903e8fde8fbe8d3e8cd

/-- Polynomials 4400 to 4479; detail/niederreiter_base2_table.hpp:41-502. -/
def nbChunk55 : Nat := 0xf1f5f1f3f1e7f1e1f1c5f193f18df171f163f153f14bf147f141f135f11bf111f0f7f0f1f0dff0d5f0c7f0bff0abf097f089f085f05df045f02ff029f01ff00df007eff9eff5eff3efebefe7efe1efbbefb1ef9fef95ef77ef4def39ef33ef2def21ef0feef7eef1eee3eed9eecbeec7eeb9eeadee9dee89ee83ee75ee29ee1fee0dee0bee01edfdedf1edefeddfedd9edcdedc7edb3edabeda1ed97ed6bed61

/-- Polynomials 4480 to 4559; detail/niederreiter_base2_table.hpp:41-502. -/
def nbChunk56 : Nat := 0xf6d9f6b5f6b3f685f683f673f66bf65df64ff645f63bf623f61ff615f601f5c7f5c1f5bff5b5f5a7f59df591f56df561f551f53bf537f525f519f50df4f9f4f5f4f3f4cff4c3f4bdf4b1f4a3f499f48bf47bf469f465f463f455f453f439f421f417f40ff405f3e5f3dff3b3f397f391f389f385f343f337f32ff315f30bf301f2fff2f9f2ddf2dbf2a5f29ff287f27bf26ff259f255f24df247f21df217f1ff

/-- Polynomials 4560 to 4639; detail/niederreiter_base2_table.hpp:41-502. -/
def nbChunk57 : Nat := 0xfb4dfb35fb27fb21fb0ffb05fae5fadffad9facbfac1faa1fa9bfa97fa83fa7ffa79fa75fa6bfa49fa37fa23fa13fa07fa01f9f7f9e9f9e3f9c7f9b9f9b3f99bf985f979f973f951f94ff93df93bf923f915f907f8f5f8f3f8edf8e1f8dbf8c5f893f877f871f86ff84bf83ff839f82df827f81df80ff809f803f7fff7dbf7c9f7c3f7b7f7b1f7a3f795f78bf787f76ff769f753f74df73ff72df721f6fbf6ef

/-- Polynomials 4640 to 4719; detail/niederreiter_base2_table.hpp:41-502. -/
def nbChunk58 : Nat := 0xfffdffefffe9ffd9ffc7ffb3ff91ff8fff7fff73ff61ff5dff57ff4fff37ff29ff23ff13ff07ff01fefffeebfec9febdfeb1fe99fe93fe87fe7dfe5ffe59fe4dfe41fe35fe33fe2dfe05fdebfde1fdddfdc3fdb1fdaffda3fd99fd95fd8bfd71fd53fd47fd39fd2dfd2bfd1dfd17fd0ffceffcd3fcadfc83fc75fc67fc5bfc49fc1ffc0dfc0bfbe1fbdbfbcffbc9fbb7fba9fba3fb8dfb81fb71fb69fb5ffb55

/-- All polynomials. -/
def nbChunks : List Nat := [nbChunk0, nbChunk1, nbChunk2, nbChunk3, nbChunk4, nbChunk5, nbChunk6, nbChunk7, nbChunk8, nbChunk9, nbChunk10, nbChunk11, nbChunk12, nbChunk13, nbChunk14, nbChunk15, nbChunk16, nbChunk17, nbChunk18, nbChunk19, nbChunk20, nbChunk21, nbChunk22, nbChunk23, nbChunk24, nbChunk25, nbChunk26, nbChunk27, nbChunk28, nbChunk29, nbChunk30, nbChunk31, nbChunk32, nbChunk33, nbChunk34, nbChunk35, nbChunk36, nbChunk37, nbChunk38, nbChunk39, nbChunk40, nbChunk41, nbChunk42, nbChunk43, nbChunk44, nbChunk45, nbChunk46, nbChunk47, nbChunk48, nbChunk49, nbChunk50, nbChunk51, nbChunk52, nbChunk53, nbChunk54, nbChunk55, nbChunk56, nbChunk57, nbChunk58]

/-- `default_niederreiter_base2_table`; detail/niederreiter_base2_table.hpp:26-505. -/
def defaultNbTable : NbTable where
  maxDimension := 4720
  polynomial n := (nbChunks.getD (n / 80) 0 >>> (16 * (n % 80))) % 2 ^ 16

end Boost.Random.Qrng
