import Verif.Proofs.MtHorner

/-!
# mt19937_64: squaring modulo the characteristic polynomial

Written by tools/gen_mt_squares.py.
-/

namespace Boost.Random
namespace Gf2N.Mt19937x64

set_option maxRecDepth 100000
set_option exponentiation.threshold 100000
open Spec Polynomial

/-- The square. -/
def spread (v : Nat) : Nat := round (nat_lit 65536) (nat_lit 1) (round (nat_lit 65536) (nat_lit 2) (round (nat_lit 65536) (nat_lit 4) (round (nat_lit 65536) (nat_lit 8) (round (nat_lit 65536) (nat_lit 16) (round (nat_lit 65536) (nat_lit 32) (round (nat_lit 65536) (nat_lit 64) (round (nat_lit 65536) (nat_lit 128) (round (nat_lit 65536) (nat_lit 256) (round (nat_lit 65536) (nat_lit 512) (round (nat_lit 65536) (nat_lit 1024) (round (nat_lit 65536) (nat_lit 2048) (round (nat_lit 65536) (nat_lit 4096) (round (nat_lit 65536) (nat_lit 8192) (round (nat_lit 65536) (nat_lit 16384) (v)))))))))))))))
/-- The product with the characteristic polynomial. -/
def phi (q : Nat) : Nat := Nat.xor (binom (nat_lit 312) (nat_lit 156) (binom (nat_lit 312) (nat_lit 156) (Nat.xor (binom (nat_lit 312) (nat_lit 156) (Nat.xor (binom (nat_lit 312) (nat_lit 156) (binom (nat_lit 312) (nat_lit 156) (Nat.xor (binom (nat_lit 312) (nat_lit 156) (binom (nat_lit 312) (nat_lit 156) (Nat.xor (binom (nat_lit 312) (nat_lit 156) (binom (nat_lit 312) (nat_lit 156) (binom (nat_lit 312) (nat_lit 156) (binom (nat_lit 312) (nat_lit 156) (binom (nat_lit 312) (nat_lit 156) (binom (nat_lit 312) (nat_lit 156) (binom (nat_lit 312) (nat_lit 156) (Nat.xor (binom (nat_lit 312) (nat_lit 156) (binom (nat_lit 312) (nat_lit 156) (binom (nat_lit 312) (nat_lit 156) (Nat.xor (binom (nat_lit 312) (nat_lit 156) (Nat.xor (binom (nat_lit 312) (nat_lit 156) (binom (nat_lit 312) (nat_lit 156) (Nat.xor (binom (nat_lit 312) (nat_lit 156) (Nat.xor (binom (nat_lit 312) (nat_lit 156) (Nat.xor (binom (nat_lit 312) (nat_lit 156) (Nat.xor (binom (nat_lit 312) (nat_lit 156) (binom (nat_lit 312) (nat_lit 156) (Nat.xor (binom (nat_lit 312) (nat_lit 156) (binom (nat_lit 312) (nat_lit 156) (Nat.xor (binom (nat_lit 312) (nat_lit 156) (Nat.xor (binom (nat_lit 312) (nat_lit 156) (binom (nat_lit 312) (nat_lit 156) (Nat.xor (binom (nat_lit 312) (nat_lit 156) (binom (nat_lit 312) (nat_lit 156) (Nat.xor (binom (nat_lit 312) (nat_lit 156) (binom (nat_lit 311) (nat_lit 155) (Nat.xor (binom (nat_lit 311) (nat_lit 155) (binom (nat_lit 311) (nat_lit 155) (Nat.xor (binom (nat_lit 311) (nat_lit 155) (binom (nat_lit 311) (nat_lit 155) (binom (nat_lit 311) (nat_lit 155) (Nat.xor (binom (nat_lit 311) (nat_lit 155) (binom (nat_lit 311) (nat_lit 155) (Nat.xor (binom (nat_lit 311) (nat_lit 155) (Nat.xor (binom (nat_lit 311) (nat_lit 155) (binom (nat_lit 311) (nat_lit 155) (binom (nat_lit 311) (nat_lit 155) (Nat.xor (binom (nat_lit 311) (nat_lit 155) (Nat.xor (binom (nat_lit 311) (nat_lit 155) (binom (nat_lit 311) (nat_lit 155) (binom (nat_lit 311) (nat_lit 155) (binom (nat_lit 311) (nat_lit 155) (binom (nat_lit 311) (nat_lit 155) (Nat.xor (binom (nat_lit 311) (nat_lit 155) (Nat.xor (binom (nat_lit 311) (nat_lit 155) (binom (nat_lit 311) (nat_lit 155) (binom (nat_lit 311) (nat_lit 155) (Nat.xor (binom (nat_lit 311) (nat_lit 155) (Nat.xor (binom (nat_lit 311) (nat_lit 155) (Nat.xor (binom (nat_lit 311) (nat_lit 155) (Nat.xor (binom (nat_lit 311) (nat_lit 155) (binom (nat_lit 311) (nat_lit 155) (Nat.xor (binom (nat_lit 311) (nat_lit 155) (binom (nat_lit 311) (nat_lit 155) (binom (nat_lit 311) (nat_lit 155) (Nat.xor (binom (nat_lit 311) (nat_lit 155) (q)) q)))) q))) q)) q)) q)) q)))) q)) q)))))) q)) q)))) q)) q))) q)))) q))) q))) q))) q))) q)) q))) q))) q)) q)) q)) q))) q)) q)))) q)))))))) q))) q))) q)) q))) q
/-- An approximation of the quotient. Nothing is proved about it. -/
def quot (h : Nat) : Nat := Nat.xor (Nat.shiftRight h (nat_lit 0)) (Nat.xor (Nat.shiftRight h (nat_lit 311)) (Nat.xor (Nat.shiftRight h (nat_lit 467)) (Nat.xor (Nat.shiftRight h (nat_lit 622)) (Nat.xor (Nat.shiftRight h (nat_lit 623)) (Nat.xor (Nat.shiftRight h (nat_lit 779)) (Nat.xor (Nat.shiftRight h (nat_lit 933)) (Nat.xor (Nat.shiftRight h (nat_lit 934)) (Nat.xor (Nat.shiftRight h (nat_lit 935)) (Nat.xor (Nat.shiftRight h (nat_lit 1089)) (Nat.xor (Nat.shiftRight h (nat_lit 1091)) (Nat.xor (Nat.shiftRight h (nat_lit 1246)) (Nat.xor (Nat.shiftRight h (nat_lit 1247)) (Nat.xor (Nat.shiftRight h (nat_lit 1403)) (Nat.xor (Nat.shiftRight h (nat_lit 1555)) (Nat.xor (Nat.shiftRight h (nat_lit 1557)) (Nat.xor (Nat.shiftRight h (nat_lit 1558)) (Nat.xor (Nat.shiftRight h (nat_lit 1559)) (Nat.xor (Nat.shiftRight h (nat_lit 1711)) (Nat.xor (Nat.shiftRight h (nat_lit 1713)) (Nat.xor (Nat.shiftRight h (nat_lit 1715)) (Nat.xor (Nat.shiftRight h (nat_lit 1866)) (Nat.xor (Nat.shiftRight h (nat_lit 1867)) (Nat.xor (Nat.shiftRight h (nat_lit 1870)) (Nat.xor (Nat.shiftRight h (nat_lit 1871)) (Nat.xor (Nat.shiftRight h (nat_lit 2023)) (Nat.xor (Nat.shiftRight h (nat_lit 2027)) (Nat.xor (Nat.shiftRight h (nat_lit 2178)) (Nat.xor (Nat.shiftRight h (nat_lit 2181)) (Nat.xor (Nat.shiftRight h (nat_lit 2182)) (Nat.xor (Nat.shiftRight h (nat_lit 2183)) (Nat.xor (Nat.shiftRight h (nat_lit 2337)) (Nat.xor (Nat.shiftRight h (nat_lit 2339)) (Nat.xor (Nat.shiftRight h (nat_lit 2488)) (Nat.xor (Nat.shiftRight h (nat_lit 2494)) (Nat.xor (Nat.shiftRight h (nat_lit 2495)) (Nat.xor (Nat.shiftRight h (nat_lit 2651)) (Nat.xor (Nat.shiftRight h (nat_lit 2803)) (Nat.xor (Nat.shiftRight h (nat_lit 2805)) (Nat.xor (Nat.shiftRight h (nat_lit 2806)) (Nat.xor (Nat.shiftRight h (nat_lit 2807)) (Nat.xor (Nat.shiftRight h (nat_lit 2959)) (Nat.xor (Nat.shiftRight h (nat_lit 2961)) (Nat.xor (Nat.shiftRight h (nat_lit 2963)) (Nat.xor (Nat.shiftRight h (nat_lit 3114)) (Nat.xor (Nat.shiftRight h (nat_lit 3115)) (Nat.xor (Nat.shiftRight h (nat_lit 3118)) (Nat.xor (Nat.shiftRight h (nat_lit 3119)) (Nat.xor (Nat.shiftRight h (nat_lit 3271)) (Nat.xor (Nat.shiftRight h (nat_lit 3275)) (Nat.xor (Nat.shiftRight h (nat_lit 3421)) (Nat.xor (Nat.shiftRight h (nat_lit 3426)) (Nat.xor (Nat.shiftRight h (nat_lit 3429)) (Nat.xor (Nat.shiftRight h (nat_lit 3430)) (Nat.xor (Nat.shiftRight h (nat_lit 3431)) (Nat.xor (Nat.shiftRight h (nat_lit 3577)) (Nat.xor (Nat.shiftRight h (nat_lit 3585)) (Nat.xor (Nat.shiftRight h (nat_lit 3587)) (Nat.xor (Nat.shiftRight h (nat_lit 3736)) (Nat.xor (Nat.shiftRight h (nat_lit 3742)) (Nat.xor (Nat.shiftRight h (nat_lit 3743)) (Nat.xor (Nat.shiftRight h (nat_lit 3899)) (Nat.xor (Nat.shiftRight h (nat_lit 4045)) (Nat.xor (Nat.shiftRight h (nat_lit 4051)) (Nat.xor (Nat.shiftRight h (nat_lit 4053)) (Nat.xor (Nat.shiftRight h (nat_lit 4054)) (Nat.xor (Nat.shiftRight h (nat_lit 4055)) (Nat.xor (Nat.shiftRight h (nat_lit 4201)) (Nat.xor (Nat.shiftRight h (nat_lit 4207)) (Nat.xor (Nat.shiftRight h (nat_lit 4209)) (Nat.xor (Nat.shiftRight h (nat_lit 4211)) (Nat.xor (Nat.shiftRight h (nat_lit 4354)) (Nat.xor (Nat.shiftRight h (nat_lit 4362)) (Nat.xor (Nat.shiftRight h (nat_lit 4363)) (Nat.xor (Nat.shiftRight h (nat_lit 4366)) (Nat.xor (Nat.shiftRight h (nat_lit 4367)) (Nat.xor (Nat.shiftRight h (nat_lit 4519)) (Nat.xor (Nat.shiftRight h (nat_lit 4523)) (Nat.xor (Nat.shiftRight h (nat_lit 4666)) (Nat.xor (Nat.shiftRight h (nat_lit 4674)) (Nat.xor (Nat.shiftRight h (nat_lit 4677)) (Nat.xor (Nat.shiftRight h (nat_lit 4678)) (Nat.xor (Nat.shiftRight h (nat_lit 4679)) (Nat.xor (Nat.shiftRight h (nat_lit 4833)) (Nat.xor (Nat.shiftRight h (nat_lit 4835)) (Nat.xor (Nat.shiftRight h (nat_lit 4984)) (Nat.xor (Nat.shiftRight h (nat_lit 4990)) (Nat.xor (Nat.shiftRight h (nat_lit 4991)) (Nat.xor (Nat.shiftRight h (nat_lit 5147)) (Nat.xor (Nat.shiftRight h (nat_lit 5287)) (Nat.xor (Nat.shiftRight h (nat_lit 5299)) (Nat.xor (Nat.shiftRight h (nat_lit 5301)) (Nat.xor (Nat.shiftRight h (nat_lit 5302)) (Nat.xor (Nat.shiftRight h (nat_lit 5303)) (Nat.xor (Nat.shiftRight h (nat_lit 5443)) (Nat.xor (Nat.shiftRight h (nat_lit 5455)) (Nat.xor (Nat.shiftRight h (nat_lit 5457)) (Nat.xor (Nat.shiftRight h (nat_lit 5459)) (Nat.xor (Nat.shiftRight h (nat_lit 5599)) (Nat.xor (Nat.shiftRight h (nat_lit 5610)) (Nat.xor (Nat.shiftRight h (nat_lit 5611)) (Nat.xor (Nat.shiftRight h (nat_lit 5614)) (Nat.xor (Nat.shiftRight h (nat_lit 5615)) (Nat.xor (Nat.shiftRight h (nat_lit 5755)) (Nat.xor (Nat.shiftRight h (nat_lit 5767)) (Nat.xor (Nat.shiftRight h (nat_lit 5771)) (Nat.xor (Nat.shiftRight h (nat_lit 5911)) (Nat.xor (Nat.shiftRight h (nat_lit 5917)) (Nat.xor (Nat.shiftRight h (nat_lit 5922)) (Nat.xor (Nat.shiftRight h (nat_lit 5925)) (Nat.xor (Nat.shiftRight h (nat_lit 5926)) (Nat.xor (Nat.shiftRight h (nat_lit 5927)) (Nat.xor (Nat.shiftRight h (nat_lit 6067)) (Nat.xor (Nat.shiftRight h (nat_lit 6073)) (Nat.xor (Nat.shiftRight h (nat_lit 6081)) (Nat.xor (Nat.shiftRight h (nat_lit 6083)) (Nat.xor (Nat.shiftRight h (nat_lit 6220)) (Nat.xor (Nat.shiftRight h (nat_lit 6223)) (Nat.xor (Nat.shiftRight h (nat_lit 6232)) (Nat.xor (Nat.shiftRight h (nat_lit 6238)) (Nat.xor (Nat.shiftRight h (nat_lit 6239)) (Nat.xor (Nat.shiftRight h (nat_lit 6379)) (Nat.xor (Nat.shiftRight h (nat_lit 6395)) (Nat.xor (Nat.shiftRight h (nat_lit 6535)) (Nat.xor (Nat.shiftRight h (nat_lit 6541)) (Nat.xor (Nat.shiftRight h (nat_lit 6547)) (Nat.xor (Nat.shiftRight h (nat_lit 6549)) (Nat.xor (Nat.shiftRight h (nat_lit 6550)) (Nat.xor (Nat.shiftRight h (nat_lit 6551)) (Nat.xor (Nat.shiftRight h (nat_lit 6691)) (Nat.xor (Nat.shiftRight h (nat_lit 6697)) (Nat.xor (Nat.shiftRight h (nat_lit 6703)) (Nat.xor (Nat.shiftRight h (nat_lit 6705)) (Nat.xor (Nat.shiftRight h (nat_lit 6707)) (Nat.xor (Nat.shiftRight h (nat_lit 6842)) (Nat.xor (Nat.shiftRight h (nat_lit 6844)) (Nat.xor (Nat.shiftRight h (nat_lit 6847)) (Nat.xor (Nat.shiftRight h (nat_lit 6850)) (Nat.xor (Nat.shiftRight h (nat_lit 6858)) (Nat.xor (Nat.shiftRight h (nat_lit 6859)) (Nat.xor (Nat.shiftRight h (nat_lit 6862)) (Nat.xor (Nat.shiftRight h (nat_lit 6863)) (Nat.xor (Nat.shiftRight h (nat_lit 7003)) (Nat.xor (Nat.shiftRight h (nat_lit 7015)) (Nat.xor (Nat.shiftRight h (nat_lit 7019)) (Nat.xor (Nat.shiftRight h (nat_lit 7153)) (Nat.xor (Nat.shiftRight h (nat_lit 7154)) (Nat.xor (Nat.shiftRight h (nat_lit 7159)) (Nat.xor (Nat.shiftRight h (nat_lit 7162)) (Nat.xor (Nat.shiftRight h (nat_lit 7170)) (Nat.xor (Nat.shiftRight h (nat_lit 7173)) (Nat.xor (Nat.shiftRight h (nat_lit 7174)) (Nat.xor (Nat.shiftRight h (nat_lit 7175)) (Nat.xor (Nat.shiftRight h (nat_lit 7309)) (Nat.xor (Nat.shiftRight h (nat_lit 7315)) (Nat.xor (Nat.shiftRight h (nat_lit 7329)) (Nat.xor (Nat.shiftRight h (nat_lit 7331)) (Nat.xor (Nat.shiftRight h (nat_lit 7468)) (Nat.xor (Nat.shiftRight h (nat_lit 7471)) (Nat.xor (Nat.shiftRight h (nat_lit 7480)) (Nat.xor (Nat.shiftRight h (nat_lit 7486)) (Nat.xor (Nat.shiftRight h (nat_lit 7487)) (Nat.xor (Nat.shiftRight h (nat_lit 7627)) (Nat.xor (Nat.shiftRight h (nat_lit 7643)) (Nat.xor (Nat.shiftRight h (nat_lit 7775)) (Nat.xor (Nat.shiftRight h (nat_lit 7795)) (Nat.xor (Nat.shiftRight h (nat_lit 7797)) (Nat.xor (Nat.shiftRight h (nat_lit 7798)) (Nat.xor (Nat.shiftRight h (nat_lit 7799)) (Nat.xor (Nat.shiftRight h (nat_lit 7931)) (Nat.xor (Nat.shiftRight h (nat_lit 7951)) (Nat.xor (Nat.shiftRight h (nat_lit 7953)) (Nat.xor (Nat.shiftRight h (nat_lit 7955)) (Nat.xor (Nat.shiftRight h (nat_lit 8087)) (Nat.xor (Nat.shiftRight h (nat_lit 8090)) (Nat.xor (Nat.shiftRight h (nat_lit 8092)) (Nat.xor (Nat.shiftRight h (nat_lit 8106)) (Nat.xor (Nat.shiftRight h (nat_lit 8107)) (Nat.xor (Nat.shiftRight h (nat_lit 8110)) (Nat.xor (Nat.shiftRight h (nat_lit 8111)) (Nat.xor (Nat.shiftRight h (nat_lit 8243)) (Nat.xor (Nat.shiftRight h (nat_lit 8263)) (Nat.xor (Nat.shiftRight h (nat_lit 8267)) (Nat.xor (Nat.shiftRight h (nat_lit 8399)) (Nat.xor (Nat.shiftRight h (nat_lit 8401)) (Nat.xor (Nat.shiftRight h (nat_lit 8402)) (Nat.xor (Nat.shiftRight h (nat_lit 8413)) (Nat.xor (Nat.shiftRight h (nat_lit 8418)) (Nat.xor (Nat.shiftRight h (nat_lit 8421)) (Nat.xor (Nat.shiftRight h (nat_lit 8422)) (Nat.xor (Nat.shiftRight h (nat_lit 8423)) (Nat.xor (Nat.shiftRight h (nat_lit 8555)) (Nat.xor (Nat.shiftRight h (nat_lit 8557)) (Nat.xor (Nat.shiftRight h (nat_lit 8569)) (Nat.xor (Nat.shiftRight h (nat_lit 8577)) (Nat.xor (Nat.shiftRight h (nat_lit 8579)) (Nat.xor (Nat.shiftRight h (nat_lit 8711)) (Nat.xor (Nat.shiftRight h (nat_lit 8728)) (Nat.xor (Nat.shiftRight h (nat_lit 8734)) (Nat.xor (Nat.shiftRight h (nat_lit 8735)) (Nat.xor (Nat.shiftRight h (nat_lit 8867)) (Nat.xor (Nat.shiftRight h (nat_lit 8891)) (Nat.xor (Nat.shiftRight h (nat_lit 9037)) (Nat.xor (Nat.shiftRight h (nat_lit 9043)) (Nat.xor (Nat.shiftRight h (nat_lit 9045)) (Nat.xor (Nat.shiftRight h (nat_lit 9046)) (Nat.xor (Nat.shiftRight h (nat_lit 9047)) (Nat.xor (Nat.shiftRight h (nat_lit 9193)) (Nat.xor (Nat.shiftRight h (nat_lit 9199)) (Nat.xor (Nat.shiftRight h (nat_lit 9201)) (Nat.xor (Nat.shiftRight h (nat_lit 9203)) (Nat.xor (Nat.shiftRight h (nat_lit 9346)) (Nat.xor (Nat.shiftRight h (nat_lit 9354)) (Nat.xor (Nat.shiftRight h (nat_lit 9355)) (Nat.xor (Nat.shiftRight h (nat_lit 9358)) (Nat.xor (Nat.shiftRight h (nat_lit 9359)) (Nat.xor (Nat.shiftRight h (nat_lit 9511)) (Nat.xor (Nat.shiftRight h (nat_lit 9515)) (Nat.xor (Nat.shiftRight h (nat_lit 9641)) (Nat.xor (Nat.shiftRight h (nat_lit 9658)) (Nat.xor (Nat.shiftRight h (nat_lit 9666)) (Nat.xor (Nat.shiftRight h (nat_lit 9669)) (Nat.xor (Nat.shiftRight h (nat_lit 9670)) (Nat.xor (Nat.shiftRight h (nat_lit 9671)) (Nat.xor (Nat.shiftRight h (nat_lit 9797)) (Nat.xor (Nat.shiftRight h (nat_lit 9825)) (Nat.xor (Nat.shiftRight h (nat_lit 9827)) (Nat.xor (Nat.shiftRight h (nat_lit 9953)) (Nat.xor (Nat.shiftRight h (nat_lit 9976)) (Nat.xor (Nat.shiftRight h (nat_lit 9982)) (Nat.xor (Nat.shiftRight h (nat_lit 9983)) (Nat.xor (Nat.shiftRight h (nat_lit 9984)) (Nat.xor (Nat.shiftRight h (nat_lit 10139)) (Nat.xor (Nat.shiftRight h (nat_lit 10263)) (Nat.xor (Nat.shiftRight h (nat_lit 10279)) (Nat.xor (Nat.shiftRight h (nat_lit 10291)) (Nat.xor (Nat.shiftRight h (nat_lit 10293)) (Nat.xor (Nat.shiftRight h (nat_lit 10294)) (Nat.xor (Nat.shiftRight h (nat_lit 10419)) (Nat.xor (Nat.shiftRight h (nat_lit 10435)) (Nat.xor (Nat.shiftRight h (nat_lit 10447)) (Nat.xor (Nat.shiftRight h (nat_lit 10449)) (Nat.xor (Nat.shiftRight h (nat_lit 10574)) (Nat.xor (Nat.shiftRight h (nat_lit 10577)) (Nat.xor (Nat.shiftRight h (nat_lit 10591)) (Nat.xor (Nat.shiftRight h (nat_lit 10602)) (Nat.xor (Nat.shiftRight h (nat_lit 10603)) (Nat.xor (Nat.shiftRight h (nat_lit 10731)) (Nat.xor (Nat.shiftRight h (nat_lit 10747)) (Nat.xor (Nat.shiftRight h (nat_lit 10759)) (Nat.xor (Nat.shiftRight h (nat_lit 10886)) (Nat.xor (Nat.shiftRight h (nat_lit 10889)) (Nat.xor (Nat.shiftRight h (nat_lit 10903)) (Nat.xor (Nat.shiftRight h (nat_lit 10909)) (Nat.xor (Nat.shiftRight h (nat_lit 10914)) (Nat.xor (Nat.shiftRight h (nat_lit 11043)) (Nat.xor (Nat.shiftRight h (nat_lit 11059)) (Nat.xor (Nat.shiftRight h (nat_lit 11065)) (Nat.xor (Nat.shiftRight h (nat_lit 11197)) (Nat.xor (Nat.shiftRight h (nat_lit 11198)) (Nat.xor (Nat.shiftRight h (nat_lit 11199)) (Nat.xor (Nat.shiftRight h (nat_lit 11212)) (Nat.xor (Nat.shiftRight h (nat_lit 11215)) (Nat.xor (Nat.shiftRight h (nat_lit 11224)) (Nat.xor (Nat.shiftRight h (nat_lit 11355)) (Nat.xor (Nat.shiftRight h (nat_lit 11371)) (Nat.xor (Nat.shiftRight h (nat_lit 11510)) (Nat.xor (Nat.shiftRight h (nat_lit 11527)) (Nat.xor (Nat.shiftRight h (nat_lit 11533)) (Nat.xor (Nat.shiftRight h (nat_lit 11667)) (Nat.xor (Nat.shiftRight h (nat_lit 11669)) (Nat.xor (Nat.shiftRight h (nat_lit 11683)) (Nat.xor (Nat.shiftRight h (nat_lit 11689)) (Nat.xor (Nat.shiftRight h (nat_lit 11818)) (Nat.xor (Nat.shiftRight h (nat_lit 11819)) (Nat.xor (Nat.shiftRight h (nat_lit 11822)) (Nat.xor (Nat.shiftRight h (nat_lit 11825)) (Nat.xor (Nat.shiftRight h (nat_lit 11834)) (Nat.xor (Nat.shiftRight h (nat_lit 11836)) (Nat.xor (Nat.shiftRight h (nat_lit 11839)) (Nat.xor (Nat.shiftRight h (nat_lit 11842)) (Nat.xor (Nat.shiftRight h (nat_lit 11979)) (Nat.xor (Nat.shiftRight h (nat_lit 11981)) (Nat.xor (Nat.shiftRight h (nat_lit 11995)) (Nat.xor (Nat.shiftRight h (nat_lit 12129)) (Nat.xor (Nat.shiftRight h (nat_lit 12130)) (Nat.xor (Nat.shiftRight h (nat_lit 12131)) (Nat.xor (Nat.shiftRight h (nat_lit 12133)) (Nat.xor (Nat.shiftRight h (nat_lit 12134)) (Nat.xor (Nat.shiftRight h (nat_lit 12145)) (Nat.xor (Nat.shiftRight h (nat_lit 12146)) (Nat.xor (Nat.shiftRight h (nat_lit 12151)) (Nat.xor (Nat.shiftRight h (nat_lit 12154)) (Nat.xor (Nat.shiftRight h (nat_lit 12285)) (Nat.xor (Nat.shiftRight h (nat_lit 12293)) (Nat.xor (Nat.shiftRight h (nat_lit 12301)) (Nat.xor (Nat.shiftRight h (nat_lit 12307)) (Nat.xor (Nat.shiftRight h (nat_lit 12443)) (Nat.xor (Nat.shiftRight h (nat_lit 12446)) (Nat.xor (Nat.shiftRight h (nat_lit 12447)) (Nat.xor (Nat.shiftRight h (nat_lit 12460)) (Nat.xor (Nat.shiftRight h (nat_lit 12463)) (Nat.xor (Nat.shiftRight h (nat_lit 12603)) (Nat.xor (Nat.shiftRight h (nat_lit 12619)) (Nat.xor (Nat.shiftRight h (nat_lit 12751)) (Nat.xor (Nat.shiftRight h (nat_lit 12757)) (Nat.xor (Nat.shiftRight h (nat_lit 12758)) (Nat.xor (Nat.shiftRight h (nat_lit 12759)) (Nat.xor (Nat.shiftRight h (nat_lit 12761)) (Nat.xor (Nat.shiftRight h (nat_lit 12767)) (Nat.xor (Nat.shiftRight h (nat_lit 12907)) (Nat.xor (Nat.shiftRight h (nat_lit 12913)) (Nat.xor (Nat.shiftRight h (nat_lit 12923)) (Nat.xor (Nat.shiftRight h (nat_lit 13066)) (Nat.xor (Nat.shiftRight h (nat_lit 13069)) (Nat.xor (Nat.shiftRight h (nat_lit 13070)) (Nat.xor (Nat.shiftRight h (nat_lit 13071)) (Nat.xor (Nat.shiftRight h (nat_lit 13073)) (Nat.xor (Nat.shiftRight h (nat_lit 13079)) (Nat.xor (Nat.shiftRight h (nat_lit 13082)) (Nat.xor (Nat.shiftRight h (nat_lit 13084)) (Nat.xor (Nat.shiftRight h (nat_lit 13219)) (Nat.xor (Nat.shiftRight h (nat_lit 13225)) (Nat.xor (Nat.shiftRight h (nat_lit 13235)) (Nat.xor (Nat.shiftRight h (nat_lit 13373)) (Nat.xor (Nat.shiftRight h (nat_lit 13377)) (Nat.xor (Nat.shiftRight h (nat_lit 13378)) (Nat.xor (Nat.shiftRight h (nat_lit 13379)) (Nat.xor (Nat.shiftRight h (nat_lit 13381)) (Nat.xor (Nat.shiftRight h (nat_lit 13382)) (Nat.xor (Nat.shiftRight h (nat_lit 13385)) (Nat.xor (Nat.shiftRight h (nat_lit 13391)) (Nat.xor (Nat.shiftRight h (nat_lit 13393)) (Nat.xor (Nat.shiftRight h (nat_lit 13394)) (Nat.xor (Nat.shiftRight h (nat_lit 13529)) (Nat.xor (Nat.shiftRight h (nat_lit 13531)) (Nat.xor (Nat.shiftRight h (nat_lit 13533)) (Nat.xor (Nat.shiftRight h (nat_lit 13535)) (Nat.xor (Nat.shiftRight h (nat_lit 13541)) (Nat.xor (Nat.shiftRight h (nat_lit 13547)) (Nat.xor (Nat.shiftRight h (nat_lit 13549)) (Nat.xor (Nat.shiftRight h (nat_lit 13685)) (Nat.xor (Nat.shiftRight h (nat_lit 13687)) (Nat.xor (Nat.shiftRight h (nat_lit 13693)) (Nat.xor (Nat.shiftRight h (nat_lit 13694)) (Nat.xor (Nat.shiftRight h (nat_lit 13695)) (Nat.xor (Nat.shiftRight h (nat_lit 13697)) (Nat.xor (Nat.shiftRight h (nat_lit 13703)) (Nat.xor (Nat.shiftRight h (nat_lit 13843)) (Nat.xor (Nat.shiftRight h (nat_lit 13849)) (Nat.xor (Nat.shiftRight h (nat_lit 13853)) (Nat.xor (Nat.shiftRight h (nat_lit 13859)) (Nat.xor (Nat.shiftRight h (nat_lit 13997)) (Nat.xor (Nat.shiftRight h (nat_lit 13999)) (Nat.xor (Nat.shiftRight h (nat_lit 14003)) (Nat.xor (Nat.shiftRight h (nat_lit 14006)) (Nat.xor (Nat.shiftRight h (nat_lit 14153)) (Nat.xor (Nat.shiftRight h (nat_lit 14163)) (Nat.xor (Nat.shiftRight h (nat_lit 14306)) (Nat.xor (Nat.shiftRight h (nat_lit 14314)) (Nat.xor (Nat.shiftRight h (nat_lit 14318)) (Nat.xor (Nat.shiftRight h (nat_lit 14319)) (Nat.xor (Nat.shiftRight h (nat_lit 14321)) (Nat.xor (Nat.shiftRight h (nat_lit 14471)) (Nat.xor (Nat.shiftRight h (nat_lit 14473)) (Nat.xor (Nat.shiftRight h (nat_lit 14477)) (Nat.xor (Nat.shiftRight h (nat_lit 14617)) (Nat.xor (Nat.shiftRight h (nat_lit 14618)) (Nat.xor (Nat.shiftRight h (nat_lit 14621)) (Nat.xor (Nat.shiftRight h (nat_lit 14625)) (Nat.xor (Nat.shiftRight h (nat_lit 14626)) (Nat.xor (Nat.shiftRight h (nat_lit 14629)) (Nat.xor (Nat.shiftRight h (nat_lit 14630)) (Nat.xor (Nat.shiftRight h (nat_lit 14631)) (Nat.xor (Nat.shiftRight h (nat_lit 14633)) (Nat.xor (Nat.shiftRight h (nat_lit 14773)) (Nat.xor (Nat.shiftRight h (nat_lit 14779)) (Nat.xor (Nat.shiftRight h (nat_lit 14781)) (Nat.xor (Nat.shiftRight h (nat_lit 14783)) (Nat.xor (Nat.shiftRight h (nat_lit 14785)) (Nat.xor (Nat.shiftRight h (nat_lit 14789)) (Nat.xor (Nat.shiftRight h (nat_lit 14929)) (Nat.xor (Nat.shiftRight h (nat_lit 14933)) (Nat.xor (Nat.shiftRight h (nat_lit 14941)) (Nat.xor (Nat.shiftRight h (nat_lit 14942)) (Nat.xor (Nat.shiftRight h (nat_lit 14945)) (Nat.xor (Nat.shiftRight h (nat_lit 15099)) (Nat.xor (Nat.shiftRight h (nat_lit 15239)) (Nat.xor (Nat.shiftRight h (nat_lit 15245)) (Nat.xor (Nat.shiftRight h (nat_lit 15251)) (Nat.xor (Nat.shiftRight h (nat_lit 15253)) (Nat.xor (Nat.shiftRight h (nat_lit 15254)) (Nat.xor (Nat.shiftRight h (nat_lit 15255)) (Nat.xor (Nat.shiftRight h (nat_lit 15257)) (Nat.xor (Nat.shiftRight h (nat_lit 15395)) (Nat.xor (Nat.shiftRight h (nat_lit 15401)) (Nat.xor (Nat.shiftRight h (nat_lit 15407)) (Nat.xor (Nat.shiftRight h (nat_lit 15409)) (Nat.xor (Nat.shiftRight h (nat_lit 15550)) (Nat.xor (Nat.shiftRight h (nat_lit 15551)) (Nat.xor (Nat.shiftRight h (nat_lit 15553)) (Nat.xor (Nat.shiftRight h (nat_lit 15557)) (Nat.xor (Nat.shiftRight h (nat_lit 15559)) (Nat.xor (Nat.shiftRight h (nat_lit 15562)) (Nat.xor (Nat.shiftRight h (nat_lit 15569)) (Nat.xor (Nat.shiftRight h (nat_lit 15707)) (Nat.xor (Nat.shiftRight h (nat_lit 15713)) (Nat.xor (Nat.shiftRight h (nat_lit 15719)) (Nat.xor (Nat.shiftRight h (nat_lit 15721)) (Nat.xor (Nat.shiftRight h (nat_lit 15861)) (Nat.xor (Nat.shiftRight h (nat_lit 15862)) (Nat.xor (Nat.shiftRight h (nat_lit 15863)) (Nat.xor (Nat.shiftRight h (nat_lit 15865)) (Nat.xor (Nat.shiftRight h (nat_lit 15869)) (Nat.xor (Nat.shiftRight h (nat_lit 15873)) (Nat.xor (Nat.shiftRight h (nat_lit 15874)) (Nat.xor (Nat.shiftRight h (nat_lit 15875)) (Nat.xor (Nat.shiftRight h (nat_lit 15877)) (Nat.xor (Nat.shiftRight h (nat_lit 15879)) (Nat.xor (Nat.shiftRight h (nat_lit 15881)) (Nat.xor (Nat.shiftRight h (nat_lit 16017)) (Nat.xor (Nat.shiftRight h (nat_lit 16019)) (Nat.xor (Nat.shiftRight h (nat_lit 16025)) (Nat.xor (Nat.shiftRight h (nat_lit 16027)) (Nat.xor (Nat.shiftRight h (nat_lit 16029)) (Nat.xor (Nat.shiftRight h (nat_lit 16033)) (Nat.xor (Nat.shiftRight h (nat_lit 16037)) (Nat.xor (Nat.shiftRight h (nat_lit 16172)) (Nat.xor (Nat.shiftRight h (nat_lit 16174)) (Nat.xor (Nat.shiftRight h (nat_lit 16175)) (Nat.xor (Nat.shiftRight h (nat_lit 16183)) (Nat.xor (Nat.shiftRight h (nat_lit 16187)) (Nat.xor (Nat.shiftRight h (nat_lit 16189)) (Nat.xor (Nat.shiftRight h (nat_lit 16331)) (Nat.xor (Nat.shiftRight h (nat_lit 16337)) (Nat.xor (Nat.shiftRight h (nat_lit 16343)) (Nat.xor (Nat.shiftRight h (nat_lit 16345)) (Nat.xor (Nat.shiftRight h (nat_lit 16349)) (Nat.xor (Nat.shiftRight h (nat_lit 16483)) (Nat.xor (Nat.shiftRight h (nat_lit 16485)) (Nat.xor (Nat.shiftRight h (nat_lit 16486)) (Nat.xor (Nat.shiftRight h (nat_lit 16487)) (Nat.xor (Nat.shiftRight h (nat_lit 16503)) (Nat.xor (Nat.shiftRight h (nat_lit 16505)) (Nat.xor (Nat.shiftRight h (nat_lit 16639)) (Nat.xor (Nat.shiftRight h (nat_lit 16641)) (Nat.xor (Nat.shiftRight h (nat_lit 16643)) (Nat.xor (Nat.shiftRight h (nat_lit 16645)) (Nat.xor (Nat.shiftRight h (nat_lit 16651)) (Nat.xor (Nat.shiftRight h (nat_lit 16657)) (Nat.xor (Nat.shiftRight h (nat_lit 16659)) (Nat.xor (Nat.shiftRight h (nat_lit 16661)) (Nat.xor (Nat.shiftRight h (nat_lit 16796)) (Nat.xor (Nat.shiftRight h (nat_lit 16798)) (Nat.xor (Nat.shiftRight h (nat_lit 16799)) (Nat.xor (Nat.shiftRight h (nat_lit 16801)) (Nat.xor (Nat.shiftRight h (nat_lit 16802)) (Nat.xor (Nat.shiftRight h (nat_lit 16805)) (Nat.xor (Nat.shiftRight h (nat_lit 16811)) (Nat.xor (Nat.shiftRight h (nat_lit 16815)) (Nat.xor (Nat.shiftRight h (nat_lit 16817)) (Nat.xor (Nat.shiftRight h (nat_lit 16951)) (Nat.xor (Nat.shiftRight h (nat_lit 16955)) (Nat.xor (Nat.shiftRight h (nat_lit 16957)) (Nat.xor (Nat.shiftRight h (nat_lit 16967)) (Nat.xor (Nat.shiftRight h (nat_lit 16969)) (Nat.xor (Nat.shiftRight h (nat_lit 17105)) (Nat.xor (Nat.shiftRight h (nat_lit 17107)) (Nat.xor (Nat.shiftRight h (nat_lit 17109)) (Nat.xor (Nat.shiftRight h (nat_lit 17110)) (Nat.xor (Nat.shiftRight h (nat_lit 17111)) (Nat.xor (Nat.shiftRight h (nat_lit 17113)) (Nat.xor (Nat.shiftRight h (nat_lit 17114)) (Nat.xor (Nat.shiftRight h (nat_lit 17117)) (Nat.xor (Nat.shiftRight h (nat_lit 17119)) (Nat.xor (Nat.shiftRight h (nat_lit 17123)) (Nat.xor (Nat.shiftRight h (nat_lit 17125)) (Nat.xor (Nat.shiftRight h (nat_lit 17129)) (Nat.xor (Nat.shiftRight h (nat_lit 17261)) (Nat.xor (Nat.shiftRight h (nat_lit 17265)) (Nat.xor (Nat.shiftRight h (nat_lit 17267)) (Nat.xor (Nat.shiftRight h (nat_lit 17273)) (Nat.xor (Nat.shiftRight h (nat_lit 17275)) (Nat.xor (Nat.shiftRight h (nat_lit 17283)) (Nat.xor (Nat.shiftRight h (nat_lit 17285)) (Nat.xor (Nat.shiftRight h (nat_lit 17419)) (Nat.xor (Nat.shiftRight h (nat_lit 17420)) (Nat.xor (Nat.shiftRight h (nat_lit 17422)) (Nat.xor (Nat.shiftRight h (nat_lit 17423)) (Nat.xor (Nat.shiftRight h (nat_lit 17425)) (Nat.xor (Nat.shiftRight h (nat_lit 17429)) (Nat.xor (Nat.shiftRight h (nat_lit 17431)) (Nat.xor (Nat.shiftRight h (nat_lit 17435)) (Nat.xor (Nat.shiftRight h (nat_lit 17439)) (Nat.xor (Nat.shiftRight h (nat_lit 17441)) (Nat.xor (Nat.shiftRight h (nat_lit 17579)) (Nat.xor (Nat.shiftRight h (nat_lit 17585)) (Nat.xor (Nat.shiftRight h (nat_lit 17587)) (Nat.xor (Nat.shiftRight h (nat_lit 17591)) (Nat.xor (Nat.shiftRight h (nat_lit 17595)) (Nat.xor (Nat.shiftRight h (nat_lit 17727)) (Nat.xor (Nat.shiftRight h (nat_lit 17731)) (Nat.xor (Nat.shiftRight h (nat_lit 17733)) (Nat.xor (Nat.shiftRight h (nat_lit 17734)) (Nat.xor (Nat.shiftRight h (nat_lit 17737)) (Nat.xor (Nat.shiftRight h (nat_lit 17743)) (Nat.xor (Nat.shiftRight h (nat_lit 17883)) (Nat.xor (Nat.shiftRight h (nat_lit 17887)) (Nat.xor (Nat.shiftRight h (nat_lit 17889)) (Nat.xor (Nat.shiftRight h (nat_lit 17899)) (Nat.xor (Nat.shiftRight h (nat_lit 17903)) (Nat.xor (Nat.shiftRight h (nat_lit 17905)) (Nat.xor (Nat.shiftRight h (nat_lit 17909)) (Nat.xor (Nat.shiftRight h (nat_lit 18039)) (Nat.xor (Nat.shiftRight h (nat_lit 18043)) (Nat.xor (Nat.shiftRight h (nat_lit 18044)) (Nat.xor (Nat.shiftRight h (nat_lit 18053)) (Nat.xor (Nat.shiftRight h (nat_lit 18061)) (Nat.xor (Nat.shiftRight h (nat_lit 18063)) (Nat.xor (Nat.shiftRight h (nat_lit 18065)) (Nat.xor (Nat.shiftRight h (nat_lit 18195)) (Nat.xor (Nat.shiftRight h (nat_lit 18199)) (Nat.xor (Nat.shiftRight h (nat_lit 18209)) (Nat.xor (Nat.shiftRight h (nat_lit 18215)) (Nat.xor (Nat.shiftRight h (nat_lit 18221)) (Nat.xor (Nat.shiftRight h (nat_lit 18351)) (Nat.xor (Nat.shiftRight h (nat_lit 18353)) (Nat.xor (Nat.shiftRight h (nat_lit 18355)) (Nat.xor (Nat.shiftRight h (nat_lit 18373)) (Nat.xor (Nat.shiftRight h (nat_lit 18375)) (Nat.xor (Nat.shiftRight h (nat_lit 18507)) (Nat.xor (Nat.shiftRight h (nat_lit 18509)) (Nat.xor (Nat.shiftRight h (nat_lit 18511)) (Nat.xor (Nat.shiftRight h (nat_lit 18517)) (Nat.xor (Nat.shiftRight h (nat_lit 18523)) (Nat.xor (Nat.shiftRight h (nat_lit 18531)) (Nat.xor (Nat.shiftRight h (nat_lit 18661)) (Nat.xor (Nat.shiftRight h (nat_lit 18663)) (Nat.xor (Nat.shiftRight h (nat_lit 18673)) (Nat.xor (Nat.shiftRight h (nat_lit 18679)) (Nat.xor (Nat.shiftRight h (nat_lit 18683)) (Nat.xor (Nat.shiftRight h (nat_lit 18689)) (Nat.xor (Nat.shiftRight h (nat_lit 18819)) (Nat.xor (Nat.shiftRight h (nat_lit 18829)) (Nat.xor (Nat.shiftRight h (nat_lit 18835)) (Nat.xor (Nat.shiftRight h (nat_lit 18845)) (Nat.xor (Nat.shiftRight h (nat_lit 18979)) (Nat.xor (Nat.shiftRight h (nat_lit 18997)) (Nat.xor (Nat.shiftRight h (nat_lit 19141)) (Nat.xor (Nat.shiftRight h (nat_lit 19145)) (Nat.xor (Nat.shiftRight h (nat_lit 19153)) (Nat.xor (Nat.shiftRight h (nat_lit 19282)) (Nat.xor (Nat.shiftRight h (nat_lit 19291)) (Nat.xor (Nat.shiftRight h (nat_lit 19301)) (Nat.xor (Nat.shiftRight h (nat_lit 19303)) (Nat.xor (Nat.shiftRight h (nat_lit 19309)) (Nat.xor (Nat.shiftRight h (nat_lit 19311)) (Nat.xor (Nat.shiftRight h (nat_lit 19447)) (Nat.xor (Nat.shiftRight h (nat_lit 19465)) (Nat.xor (Nat.shiftRight h (nat_lit 19467)) (Nat.xor (Nat.shiftRight h (nat_lit 19469)) (Nat.xor (Nat.shiftRight h (nat_lit 19594)) (Nat.xor (Nat.shiftRight h (nat_lit 19597)) (Nat.xor (Nat.shiftRight h (nat_lit 19603)) (Nat.xor (Nat.shiftRight h (nat_lit 19613)) (Nat.xor (Nat.shiftRight h (nat_lit 19619)) (Nat.xor (Nat.shiftRight h (nat_lit 19621)) (Nat.xor (Nat.shiftRight h (nat_lit 19623)) (Nat.xor (Nat.shiftRight h (nat_lit 19625)) (Nat.xor (Nat.shiftRight h (nat_lit 19759)) (Nat.xor (Nat.shiftRight h (nat_lit 19765)) (Nat.xor (Nat.shiftRight h (nat_lit 19775)) (Nat.xor (Nat.shiftRight h (nat_lit 19777)) (Nat.xor (Nat.shiftRight h (nat_lit 19779)) (Nat.xor (Nat.shiftRight h (nat_lit 19906)) (Nat.xor (Nat.shiftRight h (nat_lit 19909)) (Nat.xor (Nat.shiftRight h (nat_lit 19915)) (Nat.xor (Nat.shiftRight h (nat_lit 19935)) (Nat.shiftRight h (nat_lit 19937)))))))))))))))))))))))))))))))))))))))))))))))))))))))))))))))))))))))))))))))))))))))))))))))))))))))))))))))))))))))))))))))))))))))))))))))))))))))))))))))))))))))))))))))))))))))))))))))))))))))))))))))))))))))))))))))))))))))))))))))))))))))))))))))))))))))))))))))))))))))))))))))))))))))))))))))))))))))))))))))))))))))))))))))))))))))))))))))))))))))))))))))))))))))))))))))))))))))))))))))))))))))))))))))))))))))))))))))))))))))))))))))))))))))))))))))))))))))))))))))))))))))))))))))))))))))))))))))))))))))))))))))))))))))))))))))))))))))))))))))))))))))))))))))))))
def bound : Nat := Nat.pow (nat_lit 2) (nat_lit 19937)
noncomputable def stp (x : Nat) : Nat :=
  force (spread x) fun s => force (Nat.shiftRight s (nat_lit 19937)) fun h => force (quot h) fun q => Nat.xor s (phi q)

theorem phi_eq (q : Nat) : phi q = hor mt19937_64 q 64 := rfl
theorem spread_eq (v : Nat) : spread v = spreadN (2 ^ (15 + 1)) 15 v := rfl

attribute [local irreducible] phi spread quot

theorem squares : Squares (mtChar mt19937_64) bound stp := by
  refine squares_of (J := 15) (f := phi) (q := fun x => quot (Nat.shiftRight (spread x) (nat_lit 19937))) ?_ (fun q => ?_) (fun x => ?_)
  · exact Nat.pow_lt_pow_right (by decide) (by decide)
  · rw [phi_eq, bitPoly_hor]; rfl
  · rw [← spread_eq, stp, force_eq, force_eq, force_eq]

end Gf2N.Mt19937x64
end Boost.Random
