import Verif.Proofs.MixmaxTable

/-!
# Powers of the MIXMAX matrix

Written by `tools/gen_mixmax_check.py`; checked by evaluation in the kernel. With `Φ = (p^17 - 1)/(p - 1)`,
`Φ = q1 q2 C` and `q1`, `q2` prime, `mixY` is `X^C`, `mixZ1` is `X^(C q1)`, `mixZ2` is `X^(C q2)` and `mixZ` is
`X^Φ`, all modulo the polynomial that annihilates the matrix; `mixG1` and `mixG2` are the inverses of
`mixZ1 - 1` and `mixZ2 - 1`.
-/

namespace Boost.Random.Mixmax
open Spec Packed

set_option maxRecDepth 100000

def mixQ1 : Nat := 30720259
def mixQ2 : Nat := 10959824010647
def mixC : Nat := 1896912571342452394952110896869151798119463327997149302326763717673485656800920945385328474515313456354369383427526976713091285942378158645356926156114102795685410758103346442146695737694048101346765234009613946564264109967654245102732602338210088027948107050628112274921229

/-- The bits after the first one. -/
def bitsC : List Bool := [true, true, false, false, false, false, false, false, true, true, false, true, false, true, false, false, false, true, false, false, true, true, false, true, true, true, false, true, true, false, false, true, true, false, true, false, false, false, true, false, false, true, true, false, true, true, true, true, false, false, false, false, false, true, false, false, false, false, false, false, false, true, true, true, false, false, true, true, true, true, true, true, true, true, false, true, false, true, true, true, false, false, true, true, true, false, false, false, false, false, false, false, false, false, true, false, false, true, false, false, false, false, false, false, true, false, false, true, true, true, true, false, false, false, false, false, false, true, true, true, false, true, false, true, false, true, false, true, true, true, false, true, false, true, false, true, false, true, true, false, false, false, true, true, false, true, false, false, true, false, false, false, true, true, true, true, true, false, true, true, false, false, true, false, true, false, true, true, true, true, true, true, false, false, true, false, false, true, true, true, true, false, true, false, false, false, false, true, false, true, true, false, false, false, true, false, true, false, false, false, true, false, true, false, true, true, true, false, true, false, true, false, true, false, false, false, true, false, false, false, true, true, true, true, true, false, true, true, false, false, true, false, false, false, false, false, false, false, true, false, false, false, false, false, false, false, true, false, true, true, true, true, true, true, false, false, true, false, false, true, true, true, true, true, true, false, true, false, false, false, true, false, true, true, true, true, false, true, true, false, true, false, true, false, false, true, false, true, false, false, false, false, true, false, false, true, false, true, false, true, true, false, true, false, true, true, false, false, false, false, true, false, false, false, true, false, false, true, false, false, false, true, false, false, false, false, false, false, true, true, false, true, true, false, false, false, false, true, true, false, false, false, false, false, true, true, false, true, true, true, true, false, true, false, false, true, false, false, true, false, true, false, false, false, true, false, true, false, true, true, false, true, true, true, false, true, false, false, false, true, true, false, true, true, false, true, false, false, false, true, true, false, true, true, false, false, false, true, true, true, true, true, false, false, false, false, false, true, false, false, true, false, true, false, true, true, false, false, false, false, true, false, false, false, false, true, true, false, false, true, false, true, true, true, true, true, true, false, true, true, false, true, false, false, false, false, false, false, false, true, true, false, false, true, false, true, true, false, false, true, false, false, true, true, true, true, true, false, true, false, true, false, false, false, true, true, false, true, false, true, false, true, true, true, true, true, true, true, false, true, true, false, false, false, false, false, true, true, false, false, false, false, true, true, false, false, true, true, false, false, true, true, false, false, false, false, false, true, true, false, false, false, false, true, false, true, true, true, true, false, false, false, false, true, true, true, true, true, false, true, false, false, false, false, false, false, true, false, true, true, false, true, true, true, true, true, true, true, false, true, false, true, true, true, false, true, true, true, false, false, false, false, false, true, false, true, false, true, false, false, true, false, true, false, false, false, false, false, false, true, false, true, true, true, true, false, false, false, true, true, false, true, true, true, false, true, false, false, true, true, true, true, false, true, true, false, false, false, false, false, false, false, false, false, true, true, true, true, false, false, false, true, true, false, false, false, true, false, true, false, true, false, true, true, true, true, false, true, false, true, false, false, false, true, true, true, true, true, false, false, false, false, false, false, false, false, true, true, true, false, true, false, true, true, true, false, false, false, true, false, false, false, true, true, true, true, true, false, false, true, false, false, false, true, true, true, true, false, true, false, false, true, true, true, true, true, true, true, false, false, false, false, true, true, false, true, false, true, true, false, false, false, false, true, false, false, true, true, true, false, true, true, true, true, true, true, true, false, true, true, false, false, false, true, true, true, false, true, false, true, true, false, true, true, true, false, true, true, true, true, false, true, false, true, false, true, true, true, true, true, false, false, true, true, true, false, false, false, true, true, true, false, false, true, false, true, false, true, true, true, true, false, false, false, false, false, false, true, false, true, false, true, true, true, false, true, true, false, false, false, false, false, true, true, true, true, true, true, false, true, false, true, true, true, false, true, true, true, false, true, true, true, false, false, false, true, false, true, true, true, false, false, false, true, false, false, true, true, false, false, true, false, true, false, true, true, false, true, false, false, false, true, false, false, true, false, false, true, true, false, false, true, true, true, true, true, false, false, true, false, false, true, false, false, false, false, true, false, true, true, true, true, false, false, true, false, true, true, true, false, false, false, false, true, true, false, true]
def bitsQ1 : List Bool := [true, true, false, true, false, true, false, false, true, true, false, false, false, false, false, true, false, false, false, false, false, false, true, true]
def bitsQ2 : List Bool := [false, false, true, true, true, true, true, false, true, true, true, true, true, false, false, true, false, false, false, false, true, true, false, true, false, true, false, true, false, true, true, true, true, false, true, true, false, false, true, false, true, true, true]

def mixY : Nat := 54901509994790432430563583080856714579234676791665140666722676775204863937464513346918587667755938236895323322355441938871475363960982800787671240847820057455274568069059401735819611422924301527852230151973052367705022192707880502355245195390365796758326021631419871154177449614416726389955522176491586421312554332848627191247144491708168767476590943171651964257367960607452182884836740649227008004779251213225934453812615630364703911761677840895252688367147851497728165953557108498361192106937667892896735519976412117599311114595068041606106379260608869996573509894278592966619244858624563340418242342721490430582299241055511093337302
def mixZ1 : Nat := 29114150676593157436886623678019668401988874403038354985746506123333749799920762615884342309935234865045602012522992218480511704480726538527363420606792531181561258377699502140182427543034249484685500006284862355527657314324334824166771260487122277913127576394835699190505775359600017619819977568100350066883884703951401512289180792235430260655694994121160629929455494204881252944016733151866307886159160871956442850115943004500973363236997955513466156924598397928633350333410682933529854571614215227339474551953553065666654433092244561499631029715164784501456352513768093470670475869592267710120051191665769048976633977683315611716196
def mixZ2 : Nat := 20546403896739643040275006377659363078272603244092089646367914275304347447459690197582438530487481734739055359103480649783225098201718852157412094789428398966760386742125981172376717854989419262957374023947536923707619672690082194804380694393185661987643332198815094811830279271655176085103258817025977652339842646733438241895151273279488658096172825971215519458782290751606125848611859981200664655041099711963448587741881771675816666977310832351902897870271135631789339878037684507054576539974518996773178315233117891277668254718168261928674087862029798689577051046531266750841322015611959607743664128927059484237152239816530595302809
def mixZ : Nat := 74517942528248990360970796014746285360654546196841322330737630770004358496803439796863472580711817378062298436979038608408659553725841235331593590539743384211729985632667789522613283647437192817697447882527975880695588700080536369473119347988517166137150790534240876939600449260801655007350855495642359502870574482766154754788561949453341886153090890091956943548235721273547638794620146584783258442795732259567527916663674393937310430822331473493768397435839481907512672429438386640937790610744824057590217998992881072229099529538151732622880241018244699029811763542333751635263822504426887073753547210725120704075538381485623421698048
def mixG1 : Nat := 2518564683150848146504945209276838961766067534429574937271584704579016701783590323226886751013227500086237689116160409277667458247815219661317038442292713331137927403428478435182671639325565128712358950078962359381068556975578984474441004680298971519000694476167104668917716152911823616180076515883728844273912609630345972461739006256762951350831444354320943541244046072334785306135759166929977942419543670611302669202035758674970638418384653941235118995822137542911714780903016987094858823193057421677859756815832384758802784798785554648258141074250547403910643218037805459169930033593712245224703705418744627001137058223018350546985
def mixG2 : Nat := 34706935371487739625255314310509345858419847307317916258460486401029608070171445881780095862850655081242380100316338393692720594716649550784381478253587780001576244774471920767997807450361470500138407183746365824059891272153570649316818648773970714182690976352967869262057734409014372204302315096608081437280852101853494543606085087489012257647043059340745866065200912646527643513168028125586422811559261468488860020904653178428515474488285152784331778398983463459761434971464976616579130803868218645304317518754765106756643970076889203269239231924784528739454036972341025277106742536596332636984308337678582378976163537429495492962121

theorem bitsC_eq : powE 1 bitsC 1 = mixC := by decide +kernel
theorem bitsQ1_eq : powE 1 bitsQ1 1 = mixQ1 := by decide +kernel
theorem bitsQ2_eq : powE 1 bitsQ2 1 = mixQ2 := by decide +kernel

theorem mixY_eq : powK redTable (2 ^ 128) bitsC (2 ^ 128) = mixY := by decide +kernel
theorem mixZ1_eq : powK redTable mixY bitsQ1 mixY = mixZ1 := by decide +kernel
theorem mixZ2_eq : powK redTable mixY bitsQ2 mixY = mixZ2 := by decide +kernel
theorem mixZ_eq : powK redTable mixZ1 bitsQ2 mixZ1 = mixZ := by decide +kernel

theorem mixZ_one : canonL 17 mixZ = 1 :: List.replicate 16 0 := by decide +kernel

theorem mixG_small : pack (canonL 17 mixG1) = mixG1 ∧ pack (canonL 17 mixG2) = mixG2 := by decide +kernel

theorem mixG1_eq : canonL 17 (mulK redTable mixG1 (fold ml17 mh17 (mixZ1 + (2 ^ 61 - 2)))) = 1 :: List.replicate 16 0 := by
  decide +kernel
theorem mixG2_eq : canonL 17 (mulK redTable mixG2 (fold ml17 mh17 (mixZ2 + (2 ^ 61 - 2)))) = 1 :: List.replicate 16 0 := by
  decide +kernel

end Boost.Random.Mixmax
