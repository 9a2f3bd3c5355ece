import Verif.Proofs.MtHorner

/-!
# mt19937: squaring modulo the characteristic polynomial

Written by tools/gen_mt_squares.py.
-/

namespace Boost.Random
namespace Gf2N.Mt19937

set_option maxRecDepth 100000
set_option exponentiation.threshold 100000
open Spec Polynomial

/-- The square. -/
def spread (v : Nat) : Nat := round (nat_lit 65536) (nat_lit 1) (round (nat_lit 65536) (nat_lit 2) (round (nat_lit 65536) (nat_lit 4) (round (nat_lit 65536) (nat_lit 8) (round (nat_lit 65536) (nat_lit 16) (round (nat_lit 65536) (nat_lit 32) (round (nat_lit 65536) (nat_lit 64) (round (nat_lit 65536) (nat_lit 128) (round (nat_lit 65536) (nat_lit 256) (round (nat_lit 65536) (nat_lit 512) (round (nat_lit 65536) (nat_lit 1024) (round (nat_lit 65536) (nat_lit 2048) (round (nat_lit 65536) (nat_lit 4096) (round (nat_lit 65536) (nat_lit 8192) (round (nat_lit 65536) (nat_lit 16384) (v)))))))))))))))
/-- The product with the characteristic polynomial. -/
def phi (q : Nat) : Nat := Nat.xor (binom (nat_lit 624) (nat_lit 397) (binom (nat_lit 623) (nat_lit 396) (binom (nat_lit 623) (nat_lit 396) (Nat.xor (binom (nat_lit 623) (nat_lit 396) (Nat.xor (binom (nat_lit 623) (nat_lit 396) (binom (nat_lit 623) (nat_lit 396) (binom (nat_lit 623) (nat_lit 396) (Nat.xor (binom (nat_lit 623) (nat_lit 396) (binom (nat_lit 623) (nat_lit 396) (binom (nat_lit 623) (nat_lit 396) (binom (nat_lit 623) (nat_lit 396) (binom (nat_lit 623) (nat_lit 396) (Nat.xor (binom (nat_lit 623) (nat_lit 396) (binom (nat_lit 623) (nat_lit 396) (binom (nat_lit 623) (nat_lit 396) (binom (nat_lit 623) (nat_lit 396) (Nat.xor (binom (nat_lit 623) (nat_lit 396) (binom (nat_lit 623) (nat_lit 396) (Nat.xor (binom (nat_lit 623) (nat_lit 396) (Nat.xor (binom (nat_lit 623) (nat_lit 396) (binom (nat_lit 623) (nat_lit 396) (binom (nat_lit 623) (nat_lit 396) (binom (nat_lit 623) (nat_lit 396) (binom (nat_lit 623) (nat_lit 396) (Nat.xor (binom (nat_lit 623) (nat_lit 396) (Nat.xor (binom (nat_lit 623) (nat_lit 396) (binom (nat_lit 623) (nat_lit 396) (Nat.xor (binom (nat_lit 623) (nat_lit 396) (Nat.xor (binom (nat_lit 623) (nat_lit 396) (Nat.xor (binom (nat_lit 623) (nat_lit 396) (Nat.xor (binom (nat_lit 623) (nat_lit 396) (Nat.xor (binom (nat_lit 623) (nat_lit 396) (q)) q)) q)) q)) q)) q))) q)) q)))))) q)) q))) q))))) q)))))) q)))) q)) q)))) q
/-- An approximation of the quotient. Nothing is proved about it. -/
def quot (h : Nat) : Nat := Nat.xor (Nat.shiftRight h (nat_lit 0)) (Nat.xor (Nat.shiftRight h (nat_lit 623)) (Nat.xor (Nat.shiftRight h (nat_lit 850)) (Nat.xor (Nat.shiftRight h (nat_lit 1077)) (Nat.xor (Nat.shiftRight h (nat_lit 1304)) (Nat.xor (Nat.shiftRight h (nat_lit 1531)) (Nat.xor (Nat.shiftRight h (nat_lit 1758)) (Nat.xor (Nat.shiftRight h (nat_lit 1985)) (Nat.xor (Nat.shiftRight h (nat_lit 2212)) (Nat.xor (Nat.shiftRight h (nat_lit 2439)) (Nat.xor (Nat.shiftRight h (nat_lit 2666)) (Nat.xor (Nat.shiftRight h (nat_lit 2893)) (Nat.xor (Nat.shiftRight h (nat_lit 3120)) (Nat.xor (Nat.shiftRight h (nat_lit 3347)) (Nat.xor (Nat.shiftRight h (nat_lit 3574)) (Nat.xor (Nat.shiftRight h (nat_lit 3738)) (Nat.xor (Nat.shiftRight h (nat_lit 3801)) (Nat.xor (Nat.shiftRight h (nat_lit 4028)) (Nat.xor (Nat.shiftRight h (nat_lit 4192)) (Nat.xor (Nat.shiftRight h (nat_lit 4255)) (Nat.xor (Nat.shiftRight h (nat_lit 4482)) (Nat.xor (Nat.shiftRight h (nat_lit 4709)) (Nat.xor (Nat.shiftRight h (nat_lit 4936)) (Nat.xor (Nat.shiftRight h (nat_lit 4984)) (Nat.xor (Nat.shiftRight h (nat_lit 5163)) (Nat.xor (Nat.shiftRight h (nat_lit 5390)) (Nat.xor (Nat.shiftRight h (nat_lit 5554)) (Nat.xor (Nat.shiftRight h (nat_lit 5607)) (Nat.xor (Nat.shiftRight h (nat_lit 5617)) (Nat.xor (Nat.shiftRight h (nat_lit 5834)) (Nat.xor (Nat.shiftRight h (nat_lit 5844)) (Nat.xor (Nat.shiftRight h (nat_lit 6008)) (Nat.xor (Nat.shiftRight h (nat_lit 6061)) (Nat.xor (Nat.shiftRight h (nat_lit 6071)) (Nat.xor (Nat.shiftRight h (nat_lit 6230)) (Nat.xor (Nat.shiftRight h (nat_lit 6288)) (Nat.xor (Nat.shiftRight h (nat_lit 6298)) (Nat.xor (Nat.shiftRight h (nat_lit 6515)) (Nat.xor (Nat.shiftRight h (nat_lit 6525)) (Nat.xor (Nat.shiftRight h (nat_lit 6684)) (Nat.xor (Nat.shiftRight h (nat_lit 6742)) (Nat.xor (Nat.shiftRight h (nat_lit 6752)) (Nat.xor (Nat.shiftRight h (nat_lit 6800)) (Nat.xor (Nat.shiftRight h (nat_lit 6969)) (Nat.xor (Nat.shiftRight h (nat_lit 6979)) (Nat.xor (Nat.shiftRight h (nat_lit 7138)) (Nat.xor (Nat.shiftRight h (nat_lit 7196)) (Nat.xor (Nat.shiftRight h (nat_lit 7206)) (Nat.xor (Nat.shiftRight h (nat_lit 7264)) (Nat.xor (Nat.shiftRight h (nat_lit 7370)) (Nat.xor (Nat.shiftRight h (nat_lit 7433)) (Nat.xor (Nat.shiftRight h (nat_lit 7476)) (Nat.xor (Nat.shiftRight h (nat_lit 7592)) (Nat.xor (Nat.shiftRight h (nat_lit 7660)) (Nat.xor (Nat.shiftRight h (nat_lit 7824)) (Nat.xor (Nat.shiftRight h (nat_lit 8384)) (Nat.xor (Nat.shiftRight h (nat_lit 8616)) (Nat.xor (Nat.shiftRight h (nat_lit 9186)) (Nat.xor (Nat.shiftRight h (nat_lit 9239)) (Nat.xor (Nat.shiftRight h (nat_lit 9466)) (Nat.xor (Nat.shiftRight h (nat_lit 9640)) (Nat.xor (Nat.shiftRight h (nat_lit 9693)) (Nat.xor (Nat.shiftRight h (nat_lit 9862)) (Nat.xor (Nat.shiftRight h (nat_lit 9920)) (Nat.xor (Nat.shiftRight h (nat_lit 10147)) (Nat.xor (Nat.shiftRight h (nat_lit 10316)) (Nat.xor (Nat.shiftRight h (nat_lit 10374)) (Nat.xor (Nat.shiftRight h (nat_lit 10432)) (Nat.xor (Nat.shiftRight h (nat_lit 10601)) (Nat.xor (Nat.shiftRight h (nat_lit 10770)) (Nat.xor (Nat.shiftRight h (nat_lit 10828)) (Nat.xor (Nat.shiftRight h (nat_lit 11108)) (Nat.xor (Nat.shiftRight h (nat_lit 11214)) (Nat.xor (Nat.shiftRight h (nat_lit 11224)) (Nat.xor (Nat.shiftRight h (nat_lit 11668)) (Nat.xor (Nat.shiftRight h (nat_lit 11837)) (Nat.xor (Nat.shiftRight h (nat_lit 12016)) (Nat.xor (Nat.shiftRight h (nat_lit 12064)) (Nat.xor (Nat.shiftRight h (nat_lit 12122)) (Nat.xor (Nat.shiftRight h (nat_lit 12460)) (Nat.xor (Nat.shiftRight h (nat_lit 12576)) (Nat.xor (Nat.shiftRight h (nat_lit 12745)) (Nat.xor (Nat.shiftRight h (nat_lit 12972)) (Nat.xor (Nat.shiftRight h (nat_lit 13030)) (Nat.xor (Nat.shiftRight h (nat_lit 13083)) (Nat.xor (Nat.shiftRight h (nat_lit 13310)) (Nat.xor (Nat.shiftRight h (nat_lit 13368)) (Nat.xor (Nat.shiftRight h (nat_lit 13484)) (Nat.xor (Nat.shiftRight h (nat_lit 13537)) (Nat.xor (Nat.shiftRight h (nat_lit 13653)) (Nat.xor (Nat.shiftRight h (nat_lit 13706)) (Nat.xor (Nat.shiftRight h (nat_lit 13764)) (Nat.xor (Nat.shiftRight h (nat_lit 13880)) (Nat.xor (Nat.shiftRight h (nat_lit 13938)) (Nat.xor (Nat.shiftRight h (nat_lit 14160)) (Nat.xor (Nat.shiftRight h (nat_lit 14276)) (Nat.xor (Nat.shiftRight h (nat_lit 14329)) (Nat.xor (Nat.shiftRight h (nat_lit 14392)) (Nat.xor (Nat.shiftRight h (nat_lit 14528)) (Nat.xor (Nat.shiftRight h (nat_lit 14556)) (Nat.xor (Nat.shiftRight h (nat_lit 14561)) (Nat.xor (Nat.shiftRight h (nat_lit 14788)) (Nat.xor (Nat.shiftRight h (nat_lit 14899)) (Nat.xor (Nat.shiftRight h (nat_lit 14952)) (Nat.xor (Nat.shiftRight h (nat_lit 15126)) (Nat.xor (Nat.shiftRight h (nat_lit 15151)) (Nat.xor (Nat.shiftRight h (nat_lit 15184)) (Nat.xor (Nat.shiftRight h (nat_lit 15353)) (Nat.xor (Nat.shiftRight h (nat_lit 15378)) (Nat.xor (Nat.shiftRight h (nat_lit 15522)) (Nat.xor (Nat.shiftRight h (nat_lit 15575)) (Nat.xor (Nat.shiftRight h (nat_lit 15580)) (Nat.xor (Nat.shiftRight h (nat_lit 15605)) (Nat.xor (Nat.shiftRight h (nat_lit 15802)) (Nat.xor (Nat.shiftRight h (nat_lit 15832)) (Nat.xor (Nat.shiftRight h (nat_lit 15976)) (Nat.xor (Nat.shiftRight h (nat_lit 16029)) (Nat.xor (Nat.shiftRight h (nat_lit 16059)) (Nat.xor (Nat.shiftRight h (nat_lit 16145)) (Nat.xor (Nat.shiftRight h (nat_lit 16198)) (Nat.xor (Nat.shiftRight h (nat_lit 16256)) (Nat.xor (Nat.shiftRight h (nat_lit 16286)) (Nat.xor (Nat.shiftRight h (nat_lit 16372)) (Nat.xor (Nat.shiftRight h (nat_lit 16483)) (Nat.xor (Nat.shiftRight h (nat_lit 16513)) (Nat.xor (Nat.shiftRight h (nat_lit 16652)) (Nat.xor (Nat.shiftRight h (nat_lit 16710)) (Nat.xor (Nat.shiftRight h (nat_lit 16740)) (Nat.xor (Nat.shiftRight h (nat_lit 16768)) (Nat.xor (Nat.shiftRight h (nat_lit 16821)) (Nat.xor (Nat.shiftRight h (nat_lit 16937)) (Nat.xor (Nat.shiftRight h (nat_lit 16967)) (Nat.xor (Nat.shiftRight h (nat_lit 17048)) (Nat.xor (Nat.shiftRight h (nat_lit 17106)) (Nat.xor (Nat.shiftRight h (nat_lit 17164)) (Nat.xor (Nat.shiftRight h (nat_lit 17194)) (Nat.xor (Nat.shiftRight h (nat_lit 17421)) (Nat.xor (Nat.shiftRight h (nat_lit 17560)) (Nat.xor (Nat.shiftRight h (nat_lit 17648)) (Nat.xor (Nat.shiftRight h (nat_lit 17729)) (Nat.xor (Nat.shiftRight h (nat_lit 17875)) (Nat.xor (Nat.shiftRight h (nat_lit 17956)) (Nat.xor (Nat.shiftRight h (nat_lit 18067)) (Nat.xor (Nat.shiftRight h (nat_lit 18102)) (Nat.xor (Nat.shiftRight h (nat_lit 18266)) (Nat.xor (Nat.shiftRight h (nat_lit 18294)) (Nat.xor (Nat.shiftRight h (nat_lit 18329)) (Nat.xor (Nat.shiftRight h (nat_lit 18521)) (Nat.xor (Nat.shiftRight h (nat_lit 18556)) (Nat.xor (Nat.shiftRight h (nat_lit 18720)) (Nat.xor (Nat.shiftRight h (nat_lit 18748)) (Nat.xor (Nat.shiftRight h (nat_lit 18783)) (Nat.xor (Nat.shiftRight h (nat_lit 19010)) (Nat.xor (Nat.shiftRight h (nat_lit 19237)) (Nat.xor (Nat.shiftRight h (nat_lit 19313)) (Nat.xor (Nat.shiftRight h (nat_lit 19464)) (Nat.xor (Nat.shiftRight h (nat_lit 19512)) (Nat.xor (Nat.shiftRight h (nat_lit 19540)) (Nat.xor (Nat.shiftRight h (nat_lit 19691)) (Nat.xor (Nat.shiftRight h (nat_lit 19918)) (Nat.shiftRight h (nat_lit 19937)))))))))))))))))))))))))))))))))))))))))))))))))))))))))))))))))))))))))))))))))))))))))))))))))))))))))))))))))))))))))))))))))))))))))))))))))))))))))))))))))
def bound : Nat := Nat.pow (nat_lit 2) (nat_lit 19937)
noncomputable def stp (x : Nat) : Nat :=
  force (spread x) fun s => force (Nat.shiftRight s (nat_lit 19937)) fun h => force (quot h) fun q => Nat.xor s (phi q)

theorem phi_eq (q : Nat) : phi q = hor mt19937 q 32 := rfl
theorem spread_eq (v : Nat) : spread v = spreadN (2 ^ (15 + 1)) 15 v := rfl

attribute [local irreducible] phi spread quot

theorem squares : Squares (mtChar mt19937) bound stp := by
  refine squares_of (J := 15) (f := phi) (q := fun x => quot (Nat.shiftRight (spread x) (nat_lit 19937))) ?_ (fun q => ?_) (fun x => ?_)
  · exact Nat.pow_lt_pow_right (by decide) (by decide)
  · rw [phi_eq, bitPoly_hor]; rfl
  · rw [← spread_eq, stp, force_eq, force_eq, force_eq]

end Gf2N.Mt19937
end Boost.Random
