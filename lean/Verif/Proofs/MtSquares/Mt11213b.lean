import Verif.Proofs.MtHorner

/-!
# mt11213b: squaring modulo the characteristic polynomial

Written by tools/gen_mt_squares.py.
-/

namespace Boost.Random
namespace Gf2N.Mt11213b

set_option maxRecDepth 100000
set_option exponentiation.threshold 100000
open Spec Polynomial

/-- The square. -/
def spread (v : Nat) : Nat := round (nat_lit 32768) (nat_lit 1) (round (nat_lit 32768) (nat_lit 2) (round (nat_lit 32768) (nat_lit 4) (round (nat_lit 32768) (nat_lit 8) (round (nat_lit 32768) (nat_lit 16) (round (nat_lit 32768) (nat_lit 32) (round (nat_lit 32768) (nat_lit 64) (round (nat_lit 32768) (nat_lit 128) (round (nat_lit 32768) (nat_lit 256) (round (nat_lit 32768) (nat_lit 512) (round (nat_lit 32768) (nat_lit 1024) (round (nat_lit 32768) (nat_lit 2048) (round (nat_lit 32768) (nat_lit 4096) (round (nat_lit 32768) (nat_lit 8192) (v))))))))))))))
/-- The product with the characteristic polynomial. -/
def phi (q : Nat) : Nat := Nat.xor (binom (nat_lit 351) (nat_lit 175) (Nat.xor (binom (nat_lit 351) (nat_lit 175) (binom (nat_lit 351) (nat_lit 175) (binom (nat_lit 351) (nat_lit 175) (Nat.xor (binom (nat_lit 351) (nat_lit 175) (Nat.xor (binom (nat_lit 351) (nat_lit 175) (binom (nat_lit 351) (nat_lit 175) (binom (nat_lit 351) (nat_lit 175) (Nat.xor (binom (nat_lit 351) (nat_lit 175) (binom (nat_lit 351) (nat_lit 175) (Nat.xor (binom (nat_lit 351) (nat_lit 175) (binom (nat_lit 351) (nat_lit 175) (Nat.xor (binom (nat_lit 351) (nat_lit 175) (binom (nat_lit 350) (nat_lit 174) (Nat.xor (binom (nat_lit 350) (nat_lit 174) (Nat.xor (binom (nat_lit 350) (nat_lit 174) (Nat.xor (binom (nat_lit 350) (nat_lit 174) (binom (nat_lit 350) (nat_lit 174) (binom (nat_lit 350) (nat_lit 174) (binom (nat_lit 350) (nat_lit 174) (Nat.xor (binom (nat_lit 350) (nat_lit 174) (Nat.xor (binom (nat_lit 350) (nat_lit 174) (Nat.xor (binom (nat_lit 350) (nat_lit 174) (binom (nat_lit 350) (nat_lit 174) (Nat.xor (binom (nat_lit 350) (nat_lit 174) (Nat.xor (binom (nat_lit 350) (nat_lit 174) (Nat.xor (binom (nat_lit 350) (nat_lit 174) (binom (nat_lit 350) (nat_lit 174) (binom (nat_lit 350) (nat_lit 174) (Nat.xor (binom (nat_lit 350) (nat_lit 174) (Nat.xor (binom (nat_lit 350) (nat_lit 174) (Nat.xor (binom (nat_lit 350) (nat_lit 174) (q)) q)) q)) q)))) q)) q)) q))) q)) q)) q))))) q)) q)) q))) q))) q))) q)))) q)) q)))) q)) q
/-- An approximation of the quotient. Nothing is proved about it. -/
def quot (h : Nat) : Nat := Nat.xor (Nat.shiftRight h (nat_lit 0)) (Nat.xor (Nat.shiftRight h (nat_lit 350)) (Nat.xor (Nat.shiftRight h (nat_lit 526)) (Nat.xor (Nat.shiftRight h (nat_lit 702)) (Nat.xor (Nat.shiftRight h (nat_lit 878)) (Nat.xor (Nat.shiftRight h (nat_lit 1054)) (Nat.xor (Nat.shiftRight h (nat_lit 1230)) (Nat.xor (Nat.shiftRight h (nat_lit 1400)) (Nat.xor (Nat.shiftRight h (nat_lit 1406)) (Nat.xor (Nat.shiftRight h (nat_lit 1582)) (Nat.xor (Nat.shiftRight h (nat_lit 1750)) (Nat.xor (Nat.shiftRight h (nat_lit 1758)) (Nat.xor (Nat.shiftRight h (nat_lit 1926)) (Nat.xor (Nat.shiftRight h (nat_lit 1934)) (Nat.xor (Nat.shiftRight h (nat_lit 2100)) (Nat.xor (Nat.shiftRight h (nat_lit 2102)) (Nat.xor (Nat.shiftRight h (nat_lit 2104)) (Nat.xor (Nat.shiftRight h (nat_lit 2110)) (Nat.xor (Nat.shiftRight h (nat_lit 2278)) (Nat.xor (Nat.shiftRight h (nat_lit 2286)) (Nat.xor (Nat.shiftRight h (nat_lit 2450)) (Nat.xor (Nat.shiftRight h (nat_lit 2452)) (Nat.xor (Nat.shiftRight h (nat_lit 2462)) (Nat.xor (Nat.shiftRight h (nat_lit 2626)) (Nat.xor (Nat.shiftRight h (nat_lit 2638)) (Nat.xor (Nat.shiftRight h (nat_lit 2800)) (Nat.xor (Nat.shiftRight h (nat_lit 2808)) (Nat.xor (Nat.shiftRight h (nat_lit 2814)) (Nat.xor (Nat.shiftRight h (nat_lit 2990)) (Nat.xor (Nat.shiftRight h (nat_lit 3158)) (Nat.xor (Nat.shiftRight h (nat_lit 3166)) (Nat.xor (Nat.shiftRight h (nat_lit 3334)) (Nat.xor (Nat.shiftRight h (nat_lit 3342)) (Nat.xor (Nat.shiftRight h (nat_lit 3508)) (Nat.xor (Nat.shiftRight h (nat_lit 3510)) (Nat.xor (Nat.shiftRight h (nat_lit 3512)) (Nat.xor (Nat.shiftRight h (nat_lit 3518)) (Nat.xor (Nat.shiftRight h (nat_lit 3686)) (Nat.xor (Nat.shiftRight h (nat_lit 3694)) (Nat.xor (Nat.shiftRight h (nat_lit 3850)) (Nat.xor (Nat.shiftRight h (nat_lit 3858)) (Nat.xor (Nat.shiftRight h (nat_lit 3860)) (Nat.xor (Nat.shiftRight h (nat_lit 3870)) (Nat.xor (Nat.shiftRight h (nat_lit 4026)) (Nat.xor (Nat.shiftRight h (nat_lit 4034)) (Nat.xor (Nat.shiftRight h (nat_lit 4046)) (Nat.xor (Nat.shiftRight h (nat_lit 4208)) (Nat.xor (Nat.shiftRight h (nat_lit 4216)) (Nat.xor (Nat.shiftRight h (nat_lit 4222)) (Nat.xor (Nat.shiftRight h (nat_lit 4398)) (Nat.xor (Nat.shiftRight h (nat_lit 4550)) (Nat.xor (Nat.shiftRight h (nat_lit 4554)) (Nat.xor (Nat.shiftRight h (nat_lit 4566)) (Nat.xor (Nat.shiftRight h (nat_lit 4574)) (Nat.xor (Nat.shiftRight h (nat_lit 4726)) (Nat.xor (Nat.shiftRight h (nat_lit 4730)) (Nat.xor (Nat.shiftRight h (nat_lit 4742)) (Nat.xor (Nat.shiftRight h (nat_lit 4750)) (Nat.xor (Nat.shiftRight h (nat_lit 4902)) (Nat.xor (Nat.shiftRight h (nat_lit 4916)) (Nat.xor (Nat.shiftRight h (nat_lit 4918)) (Nat.xor (Nat.shiftRight h (nat_lit 4920)) (Nat.xor (Nat.shiftRight h (nat_lit 4926)) (Nat.xor (Nat.shiftRight h (nat_lit 5078)) (Nat.xor (Nat.shiftRight h (nat_lit 5094)) (Nat.xor (Nat.shiftRight h (nat_lit 5102)) (Nat.xor (Nat.shiftRight h (nat_lit 5250)) (Nat.xor (Nat.shiftRight h (nat_lit 5266)) (Nat.xor (Nat.shiftRight h (nat_lit 5268)) (Nat.xor (Nat.shiftRight h (nat_lit 5278)) (Nat.xor (Nat.shiftRight h (nat_lit 5426)) (Nat.xor (Nat.shiftRight h (nat_lit 5442)) (Nat.xor (Nat.shiftRight h (nat_lit 5454)) (Nat.xor (Nat.shiftRight h (nat_lit 5600)) (Nat.xor (Nat.shiftRight h (nat_lit 5616)) (Nat.xor (Nat.shiftRight h (nat_lit 5624)) (Nat.xor (Nat.shiftRight h (nat_lit 5630)) (Nat.xor (Nat.shiftRight h (nat_lit 5632)) (Nat.xor (Nat.shiftRight h (nat_lit 5806)) (Nat.xor (Nat.shiftRight h (nat_lit 5974)) (Nat.xor (Nat.shiftRight h (nat_lit 6150)) (Nat.xor (Nat.shiftRight h (nat_lit 6324)) (Nat.xor (Nat.shiftRight h (nat_lit 6326)) (Nat.xor (Nat.shiftRight h (nat_lit 6328)) (Nat.xor (Nat.shiftRight h (nat_lit 6502)) (Nat.xor (Nat.shiftRight h (nat_lit 6666)) (Nat.xor (Nat.shiftRight h (nat_lit 6674)) (Nat.xor (Nat.shiftRight h (nat_lit 6676)) (Nat.xor (Nat.shiftRight h (nat_lit 6842)) (Nat.xor (Nat.shiftRight h (nat_lit 6850)) (Nat.xor (Nat.shiftRight h (nat_lit 7000)) (Nat.xor (Nat.shiftRight h (nat_lit 7001)) (Nat.xor (Nat.shiftRight h (nat_lit 7024)) (Nat.xor (Nat.shiftRight h (nat_lit 7366)) (Nat.xor (Nat.shiftRight h (nat_lit 7370)) (Nat.xor (Nat.shiftRight h (nat_lit 7542)) (Nat.xor (Nat.shiftRight h (nat_lit 7546)) (Nat.xor (Nat.shiftRight h (nat_lit 7700)) (Nat.xor (Nat.shiftRight h (nat_lit 7701)) (Nat.xor (Nat.shiftRight h (nat_lit 7703)) (Nat.xor (Nat.shiftRight h (nat_lit 7704)) (Nat.xor (Nat.shiftRight h (nat_lit 7705)) (Nat.xor (Nat.shiftRight h (nat_lit 7718)) (Nat.xor (Nat.shiftRight h (nat_lit 7894)) (Nat.xor (Nat.shiftRight h (nat_lit 8050)) (Nat.xor (Nat.shiftRight h (nat_lit 8052)) (Nat.xor (Nat.shiftRight h (nat_lit 8053)) (Nat.xor (Nat.shiftRight h (nat_lit 8055)) (Nat.xor (Nat.shiftRight h (nat_lit 8066)) (Nat.xor (Nat.shiftRight h (nat_lit 8226)) (Nat.xor (Nat.shiftRight h (nat_lit 8242)) (Nat.xor (Nat.shiftRight h (nat_lit 8400)) (Nat.xor (Nat.shiftRight h (nat_lit 8403)) (Nat.xor (Nat.shiftRight h (nat_lit 8405)) (Nat.xor (Nat.shiftRight h (nat_lit 8408)) (Nat.xor (Nat.shiftRight h (nat_lit 8409)) (Nat.xor (Nat.shiftRight h (nat_lit 8416)) (Nat.xor (Nat.shiftRight h (nat_lit 8750)) (Nat.xor (Nat.shiftRight h (nat_lit 8926)) (Nat.xor (Nat.shiftRight h (nat_lit 9100)) (Nat.xor (Nat.shiftRight h (nat_lit 9102)) (Nat.xor (Nat.shiftRight h (nat_lit 9105)) (Nat.xor (Nat.shiftRight h (nat_lit 9108)) (Nat.xor (Nat.shiftRight h (nat_lit 9109)) (Nat.xor (Nat.shiftRight h (nat_lit 9111)) (Nat.xor (Nat.shiftRight h (nat_lit 9112)) (Nat.xor (Nat.shiftRight h (nat_lit 9113)) (Nat.xor (Nat.shiftRight h (nat_lit 9278)) (Nat.xor (Nat.shiftRight h (nat_lit 9450)) (Nat.xor (Nat.shiftRight h (nat_lit 9452)) (Nat.xor (Nat.shiftRight h (nat_lit 9454)) (Nat.xor (Nat.shiftRight h (nat_lit 9457)) (Nat.xor (Nat.shiftRight h (nat_lit 9460)) (Nat.xor (Nat.shiftRight h (nat_lit 9461)) (Nat.xor (Nat.shiftRight h (nat_lit 9463)) (Nat.xor (Nat.shiftRight h (nat_lit 9626)) (Nat.xor (Nat.shiftRight h (nat_lit 9630)) (Nat.xor (Nat.shiftRight h (nat_lit 9800)) (Nat.xor (Nat.shiftRight h (nat_lit 9801)) (Nat.xor (Nat.shiftRight h (nat_lit 9804)) (Nat.xor (Nat.shiftRight h (nat_lit 9806)) (Nat.xor (Nat.shiftRight h (nat_lit 9808)) (Nat.xor (Nat.shiftRight h (nat_lit 9811)) (Nat.xor (Nat.shiftRight h (nat_lit 9813)) (Nat.xor (Nat.shiftRight h (nat_lit 9982)) (Nat.xor (Nat.shiftRight h (nat_lit 10150)) (Nat.xor (Nat.shiftRight h (nat_lit 10154)) (Nat.xor (Nat.shiftRight h (nat_lit 10156)) (Nat.xor (Nat.shiftRight h (nat_lit 10158)) (Nat.xor (Nat.shiftRight h (nat_lit 10161)) (Nat.xor (Nat.shiftRight h (nat_lit 10162)) (Nat.xor (Nat.shiftRight h (nat_lit 10326)) (Nat.xor (Nat.shiftRight h (nat_lit 10330)) (Nat.xor (Nat.shiftRight h (nat_lit 10334)) (Nat.xor (Nat.shiftRight h (nat_lit 10338)) (Nat.xor (Nat.shiftRight h (nat_lit 10501)) (Nat.xor (Nat.shiftRight h (nat_lit 10502)) (Nat.xor (Nat.shiftRight h (nat_lit 10503)) (Nat.xor (Nat.shiftRight h (nat_lit 10504)) (Nat.xor (Nat.shiftRight h (nat_lit 10505)) (Nat.xor (Nat.shiftRight h (nat_lit 10509)) (Nat.xor (Nat.shiftRight h (nat_lit 10510)) (Nat.xor (Nat.shiftRight h (nat_lit 10513)) (Nat.xor (Nat.shiftRight h (nat_lit 10678)) (Nat.xor (Nat.shiftRight h (nat_lit 10686)) (Nat.xor (Nat.shiftRight h (nat_lit 10853)) (Nat.xor (Nat.shiftRight h (nat_lit 10855)) (Nat.xor (Nat.shiftRight h (nat_lit 10861)) (Nat.xor (Nat.shiftRight h (nat_lit 10862)) (Nat.xor (Nat.shiftRight h (nat_lit 11038)) (Nat.xor (Nat.shiftRight h (nat_lit 11201)) (Nat.xor (Nat.shiftRight h (nat_lit 11203)) (Nat.xor (Nat.shiftRight h (nat_lit 11205)) (Nat.shiftRight h (nat_lit 11213))))))))))))))))))))))))))))))))))))))))))))))))))))))))))))))))))))))))))))))))))))))))))))))))))))))))))))))))))))))))))))))))))))))))))))))))))))))))))))))))))))))))))))))
def bound : Nat := Nat.pow (nat_lit 2) (nat_lit 11213)
noncomputable def stp (x : Nat) : Nat :=
  force (spread x) fun s => force (Nat.shiftRight s (nat_lit 11213)) fun h => force (quot h) fun q => Nat.xor s (phi q)

theorem phi_eq (q : Nat) : phi q = hor mt11213b q 32 := rfl
theorem spread_eq (v : Nat) : spread v = spreadN (2 ^ (14 + 1)) 14 v := rfl

attribute [local irreducible] phi spread quot

theorem squares : Squares (mtChar mt11213b) bound stp := by
  refine squares_of (J := 14) (f := phi) (q := fun x => quot (Nat.shiftRight (spread x) (nat_lit 11213))) ?_ (fun q => ?_) (fun x => ?_)
  · exact Nat.pow_lt_pow_right (by decide) (by decide)
  · rw [phi_eq, bitPoly_hor]; rfl
  · rw [← spread_eq, stp, force_eq, force_eq, force_eq]

end Gf2N.Mt11213b
end Boost.Random
