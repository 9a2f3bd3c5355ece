import Verif.Proofs.PtrdBox

/-!
# The hat of PTRD to the left of the centre, and its triangle to the right

Generated: the rectangles that cover the parameters, each of them tested by the kernel.
-/

namespace Boost.Random.PtrdBox

open Boost.Random.Affine

set_option maxRecDepth 100000

theorem hatL_0 : Cov hatLBox 84662395338752 2199023255552 330108502016 347707801600 :=
  Cov.of_strip (l := [(2727002243072, 3), (3244411584512, 3), (3968801439744, 3), (4982950592512, 3), (6402756050944, 3), (7794174459904, 3), (9157759467520, 3), (10494064721920, 3), (11803643871232, 3), (13087033786368, 3), (14883789733888, 3), (17399248060416, 3), (20920886362112, 3), (27964179742720, 6), (34866611617792, 10), (39601678843904, 16), (41193316548608, 24), (44376608735232, 3), (50743193108480, 3), (63476361854976, 3), (84662395338752, 3)]) (by decide +kernel)

theorem hatL_1 : Cov hatLBox 84662395338752 2199023255552 312509202432 330108502016 :=
  Cov.of_strip (l := [(2727002243072, 3), (3244411584512, 3), (3968801439744, 3), (4982950592512, 3), (6402756050944, 3), (7794174459904, 3), (9157759467520, 3), (10494064721920, 3), (11803643871232, 3), (13087033786368, 3), (14883789733888, 6), (17399248060416, 3), (20920886362112, 3), (27964179742720, 6), (34866611617792, 6), (41631000559616, 16), (43904783089664, 24), (48452348149760, 3), (57547478269952, 3), (75737738510336, 3), (84662395338752, 3)]) (by decide +kernel)

theorem hatL_2 : Cov hatLBox 84662395338752 2199023255552 294909902848 312509202432 :=
  Cov.of_strip (l := [(2727002243072, 3), (3244411584512, 3), (3968801439744, 3), (4982950592512, 3), (6402756050944, 3), (7794174459904, 3), (9157759467520, 3), (10494064721920, 3), (11803643871232, 3), (13087033786368, 3), (14344754561024, 3), (16105573711872, 3), (19627212013568, 3), (24557515702272, 3), (34418139856896, 10), (41182528798720, 6), (45822888640512, 16), (47382699966464, 24), (50502322618368, 3), (56741567922176, 3), (69220075307008, 3), (84662395338752, 3)]) (by decide +kernel)

theorem hatL_3 : Cov hatLBox 84662395338752 2199023255552 277310603264 294909902848 :=
  Cov.of_strip (l := [(2727002243072, 3), (3244411584512, 3), (3968801439744, 3), (4982950592512, 3), (6402756050944, 3), (7794174459904, 3), (9157759467520, 3), (10494064721920, 3), (11410771804160, 3), (12694161719296, 3), (13951882493952, 3), (15712701644800, 3), (19234339946496, 3), (24164643635200, 3), (34025267789824, 6), (43688675770368, 6), (48329035612160, 10), (50557335109632, 24), (53676957761536, 3), (59916203065344, 3), (72394710450176, 3), (84662395338752, 3)]) (by decide +kernel)

theorem hatL_4 : Cov hatLBox 84662395338752 2199023255552 259711303680 277310603264 :=
  Cov.of_strip (l := [(2568608546816, 3), (2930795085824, 3), (3437869662208, 3), (4147764002816, 3), (5141629501440, 3), (6533047910400, 3), (7896632918016, 3), (9232938172416, 3), (10542517321728, 3), (11440886906880, 3), (12321288093696, 3), (13553859821568, 3), (15279463596032, 3), (17695315591168, 3), (22527019581440, 3), (32190427561984, 6), (41660562014208, 3), (50941298475008, 10), (54060921126912, 16), (55109547458560, 24), (57206800121856, 3), (61401322225664, 3), (69790366433280, 3), (84662395338752, 3)]) (by decide +kernel)

theorem hatL_5 : Cov hatLBox 84662395338752 2199023255552 242112004096 259711303680 :=
  Cov.of_strip (l := [(2568608546816, 3), (2930795085824, 3), (3437869662208, 3), (4147764002816, 3), (5141629501440, 3), (6533047910400, 3), (7896632918016, 3), (9232938172416, 3), (10542517321728, 3), (11440886906880, 3), (12321288093696, 3), (13184089980928, 3), (14392015978496, 3), (16083109019648, 3), (19465295101952, 3), (26229684043776, 3), (35699818496000, 3), (48958013440000, 6), (58053143560192, 24), (59551181176832, 24), (60054732537856, 24), (61061835259904, 3), (63076040704000, 3), (67104451592192, 3), (75161290145792, 3), (84662395338752, 3)]) (by decide +kernel)

theorem hatL_6 : Cov hatLBox 84662395338752 2199023255552 224512704512 242112004096 :=
  Cov.of_strip (l := [(2568608546816, 3), (2930795085824, 3), (3437869662208, 3), (4147764002816, 3), (5141629501440, 3), (6533047910400, 3), (7896632918016, 3), (9232938172416, 3), (10149645254656, 3), (11048014839808, 3), (11928416026624, 3), (12791217913856, 3), (13999143911424, 3), (15690236952576, 3), (19072423034880, 3), (25836811976704, 3), (35306946428928, 3), (48565141372928, 3), (61558172418048, 24), (64615400603648, 24), (65334757294080, 24), (66341860016128, 3), (68356065460224, 3), (72384476348416, 3), (80441314902016, 3), (84662395338752, 3)]) (by decide +kernel)

theorem hatL_7 : Cov hatLBox 84662395338752 2199023255552 212181450752 224512704512 :=
  Cov.of_strip (l := [(2568608546816, 3), (2930795085824, 3), (3285733867520, 3), (3782658228224, 3), (4776523726848, 3), (6167942135808, 3), (8115927908352, 3), (9452233162752, 3), (10368940244992, 3), (11267309830144, 3), (12147711016960, 3), (13010512904192, 3), (14218438901760, 3), (15909531942912, 3), (19291718025216, 3), (26056106967040, 3), (39584884850688, 3), (58525170532352, 6), (67620300652544, 10), (70677528838144, 24), (76792001986560, 3), (84662395338752, 3)]) (by decide +kernel)

theorem hatL_8 : Cov hatLBox 84662395338752 2199023255552 199850196992 212181450752 :=
  Cov.of_strip (l := [(2568608546816, 3), (2822145835008, 3), (3177084616704, 3), (3674008977408, 3), (4369709793280, 3), (5761128202240, 3), (7709113974784, 3), (9045419229184, 3), (10354998378496, 3), (11253367963648, 3), (12133769150464, 3), (12996571037696, 3), (14204497035264, 3), (15895590076416, 3), (19277776158720, 3), (26042165100544, 3), (39570942984192, 3), (58511228665856, 6), (71504259710976, 10), (75871738134528, 24), (84606694981632, 3), (84662395338752, 3)]) (by decide +kernel)

theorem hatL_9 : Cov hatLBox 84662395338752 2199023255552 187518943232 199850196992 :=
  Cov.of_strip (l := [(2568608546816, 3), (2822145835008, 3), (3177084616704, 3), (3524926636032, 3), (4220627451904, 3), (5612045860864, 3), (7560031633408, 3), (8896336887808, 3), (10205916037120, 3), (11104285622272, 3), (11984686809088, 3), (12847488696320, 3), (13693026828288, 3), (15384119869440, 3), (17751653482496, 3), (22486720708608, 3), (31956855160832, 3), (50897140842496, 3), (69458630541312, 6), (78371845308416, 16), (81367937318912, 24), (84662395338752, 3)]) (by decide +kernel)

theorem hatL_10 : Cov hatLBox 84662395338752 2199023255552 162856435712 187518943232 :=
  Cov.of_strip (l := [(2457727926272, 3), (2711265214464, 3), (2959719006208, 3), (3203206742016, 3), (3544102993920, 3), (4225895497728, 3), (5589480505344, 3), (7498492805120, 3), (8808071954432, 3), (10091461869568, 3), (10971863056384, 3), (11575826055168, 3), (12167709458432, 3), (12747748147200, 3), (13316193779712, 3), (14112004243456, 3), (15703641948160, 3), (18886934134784, 3), (25253518508032, 3), (37986687254528, 3), (55813133565952, 3), (73283047260160, 6), (84662395338752, 24)]) (by decide +kernel)

theorem hatL_11 : Cov hatLBox 84662395338752 2199023255552 128328925184 162856435712 :=
  Cov.of_strip (l := [(2457727926272, 3), (2635197317120, 3), (2756932796416, 3), (2927372533760, 3), (3094406496256, 3), (3428474421248, 3), (3896172871680, 3), (4831586549760, 3), (6702430683136, 3), (8535844847616, 3), (9793565622272, 3), (10656367509504, 3), (11248250912768, 3), (11654276317184, 3), (11932811657216, 3), (12205776961536, 3), (12473272893440, 3), (12735416893440, 3), (13102435270656, 3), (13616254287872, 3), (14335610978304, 3), (15774324359168, 3), (18651767898112, 3), (24406654976000, 3), (35916429131776, 3), (52030123016192, 3), (74589304520704, 3), (84662395338752, 3)]) (by decide +kernel)

theorem hatL_12 : Cov hatLBox 84662395338752 2199023255552 93801414656 128328925184 :=
  Cov.of_strip (l := [(2380116525056, 3), (2504335032320, 3), (2589546512384, 3), (2647998332928, 3), (2705292525568, 3), (2761429090304, 3), (2840030347264, 3), (2950072107008, 3), (3104137281536, 3), (3412267630592, 3), (4028545105920, 3), (5261116833792, 3), (6986720608256, 3), (8677813649408, 3), (9837891026944, 3), (10633701490688, 3), (11179632099328, 3), (11554133114880, 3), (11811042623488, 3), (11987270500352, 3), (12108167118848, 3), (12226647818240, 3), (12342762930176, 3), (12456546009088, 3), (12615845675008, 3), (12838865207296, 3), (13151105974272, 3), (13588253114368, 3), (14200252399616, 3), (15424250970112, 3), (17872264888320, 3), (22768309501952, 3), (32560398729216, 3), (52144593960960, 3), (84662395338752, 3)]) (by decide +kernel)

theorem hatL_13 : Cov hatLBox 84662395338752 2199023255552 69625446400 93801414656 :=
  Cov.of_strip (l := [(2380116525056, 3), (2504335032320, 3), (2589546512384, 3), (2630466142208, 3), (2670563688448, 3), (2726700253184, 3), (2805301510144, 3), (2915343269888, 3), (3069408444416, 3), (3377538793472, 3), (3993816268800, 3), (5226387996672, 3), (6951991771136, 3), (8643084812288, 3), (9803162189824, 3), (10598972653568, 3), (11144903262208, 3), (11519404277760, 3), (11776313786368, 3), (12028089466880, 3), (12200794128384, 3), (12370042683392, 3), (12535919017984, 3), (12768149241856, 3), (13093258133504, 3), (13548424003584, 3), (14458755743744, 3), (16279436001280, 3), (19920813293568, 3), (27203567878144, 3), (41769077047296, 3), (70900095385600, 3), (84662395338752, 3)]) (by decide +kernel)

theorem hatL_14 : Cov hatLBox 84662395338752 2199023255552 45449478144 69625446400 :=
  Cov.of_strip (l := [(2380116525056, 3), (2467072835584, 3), (2526715838464, 3), (2567635468288, 3), (2595703750656, 3), (2623201607680, 3), (2661705318400, 3), (2715627290624, 3), (2768458743808, 3), (2842429489152, 3), (2990387757056, 3), (3286321070080, 3), (3878204473344, 3), (5061971279872, 3), (6719241453568, 3), (8343359848448, 3), (9457501208576, 3), (10549362425856, 3), (11073667203072, 3), (11433337159680, 3), (11680062898176, 3), (11921856135168, 3), (12087732469760, 3), (12201515548672, 3), (12313016926208, 3), (12422303711232, 3), (12529392680960, 3), (12634350944256, 3), (12781285801984, 3), (12986991247360, 3), (13274988937216, 3), (13851001094144, 3), (15003025408000, 3), (17307074035712, 3), (21915188068352, 3), (31131432910848, 3), (49563922595840, 3), (84662395338752, 3)]) (by decide +kernel)

theorem hatL_15 : Cov hatLBox 84662395338752 2199023255552 28521267200 45449478144 :=
  Cov.of_strip (l := [(2380116525056, 3), (2467072835584, 3), (2526715838464, 3), (2585167659008, 3), (2642461851648, 3), (2681754091520, 3), (2736766582784, 3), (2846808342528, 3), (3066908639232, 3), (3507109232640, 3), (4387510419456, 3), (6148329570304, 3), (7873933344768, 3), (9565026385920, 3), (10725103763456, 3), (11282174443520, 3), (11664325869568, 3), (11926469869568, 3), (12106304847872, 3), (12229667717120, 3), (12350564335616, 3), (12469045035008, 3), (12585160146944, 3), (12747714592768, 3), (12975297527808, 3), (13293913636864, 3), (13931145854976, 3), (15205627068416, 3), (17754589495296, 3), (22852514349056, 3), (33048364056576, 3), (53440080248832, 3), (84662395338752, 3)]) (by decide +kernel)

theorem hatL_16 : Cov hatLBox 84662395338752 2199023255552 11593056256 28521267200 :=
  Cov.of_strip (l := [(2325791899648, 3), (2412748210176, 3), (2497959690240, 3), (2556411510784, 3), (2613705703424, 3), (2669842268160, 3), (2748443525120, 3), (2905646039040, 3), (3220067844096, 3), (3848928231424, 3), (5106649006080, 3), (6867468156928, 3), (8593071931392, 3), (9776838737920, 3), (10588889546752, 3), (11145960226816, 3), (11528111652864, 3), (11790255652864, 3), (12047165161472, 3), (12170528030720, 3), (12291424649216, 3), (12374354427904, 3), (12455623262208, 3), (12535264706560, 3), (12646766084096, 3), (12802878078976, 3), (13021451649024, 3), (13327451291648, 3), (13939450576896, 3), (15163449147392, 3), (17611463065600, 3), (22507507679232, 3), (32299596906496, 3), (51883792138240, 3), (84662395338752, 3)]) (by decide +kernel)

theorem hatL_17 : Cov hatLBox 84662395338752 2199023255552 0 11593056256 :=
  Cov.of_strip (l := [(2325791899648, 3), (2450010406912, 3), (2535221886976, 3), (2618738868224, 3), (2700578127872, 3), (2864273424384, 3), (3191664017408, 3), (3846445203456, 3), (5156024352768, 3), (6989438517248, 3), (8786194464768, 3), (10018766192640, 3), (10864304324608, 3), (11444343013376, 3), (11842248245248, 3), (12115213549568, 3), (12302464057344, 3), (12430910423040, 3), (12556789874688, 3), (12680152743936, 3), (12852857405440, 3), (13094650642432, 3), (13578253893632, 3), (14545477173248, 3), (16479923732480, 3), (20348816850944, 3), (28086603087872, 3), (43562192338944, 3), (74513387618304, 3), (84662395338752, 3)]) (by decide +kernel)

/-- The whole range of `δ`. -/
theorem hatL_cov : Cov hatLBox 84662395338752 2199023255552 0 347707801600 :=
  (((((((((((((((((hatL_0).join hatL_1).join hatL_2).join hatL_3).join hatL_4).join hatL_5).join hatL_6).join hatL_7).join hatL_8).join hatL_9).join hatL_10).join hatL_11).join hatL_12).join hatL_13).join hatL_14).join hatL_15).join hatL_16).join hatL_17

theorem triR_0 : Cov triRBox 329853488332800 84552444175974 330108502016 347707801600 :=
  Cov.of_strip (l := [(86751460720640, 3), (91149507231744, 3), (99945600253952, 3), (117537786298368, 3), (152722158387200, 3), (223090902564864, 3), (329853488332800, 6)]) (by decide +kernel)

theorem triR_1 : Cov triRBox 329853488332800 84552444175974 294909902848 330108502016 :=
  Cov.of_strip (l := [(86751460720640, 3), (91149507231744, 3), (99945600253952, 3), (117537786298368, 3), (152722158387200, 3), (223090902564864, 3), (329853488332800, 6)]) (by decide +kernel)

theorem triR_2 : Cov triRBox 329853488332800 84552444175974 224512704512 294909902848 :=
  Cov.of_strip (l := [(86751460720640, 3), (91149507231744, 3), (99945600253952, 3), (117537786298368, 3), (152722158387200, 3), (223090902564864, 6), (321607134347264, 10), (329853488332800, 3)]) (by decide +kernel)

theorem triR_3 : Cov triRBox 329853488332800 84552444175974 125946560512 224512704512 :=
  Cov.of_strip (l := [(86751460720640, 3), (91149507231744, 3), (99945600253952, 3), (117537786298368, 3), (152722158387200, 3), (201980265889792, 3), (250253215268864, 3), (317835347755008, 10), (329853488332800, 3)]) (by decide +kernel)

theorem triR_4 : Cov triRBox 329853488332800 84552444175974 27380416512 125946560512 :=
  Cov.of_strip (l := [(86751460720640, 3), (91149507231744, 3), (99945600253952, 3), (117537786298368, 3), (152722158387200, 3), (201980265889792, 3), (250253215268864, 3), (297560702976000, 6), (329853488332800, 6)]) (by decide +kernel)

theorem triR_5 : Cov triRBox 329853488332800 84552444175974 0 27380416512 :=
  Cov.of_strip (l := [(86751460720640, 3), (91149507231744, 3), (99945600253952, 3), (117537786298368, 3), (152722158387200, 3), (223090902564864, 3), (329853488332800, 3)]) (by decide +kernel)

/-- The whole range of `δ`. -/
theorem triR_cov : Cov triRBox 329853488332800 84552444175974 0 347707801600 :=
  (((((triR_0).join triR_1).join triR_2).join triR_3).join triR_4).join triR_5

end Boost.Random.PtrdBox
