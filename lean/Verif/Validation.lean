import Verif.Model.SeedAll
import Verif.Model.IndependentBits
import Verif.Props.Adaptors

/-!
# The model against the library's own test values

These are tests of the transcription, not proofs: the 10000th value of each engine after default construction
(`BOOST_RANDOM_VALIDATION_VALUE` in `test/test_*.cpp`, checked by `test/test_generator.ipp:249-256`), after
construction from an empty `seed_seq` (`BOOST_RANDOM_SEED_SEQ_VALIDATION_VALUE`, test_generator.ipp:258-266), and
after construction from a range of elements `0x41` (`BOOST_RANDOM_ITERATOR_VALIDATION_VALUE`,
test_generator.ipp:269-279).
-/

namespace Boost.Random.Validation
open SeedImpl

/-- The value number `n` (from 0) of an engine. -/
def nth {σ β : Type} (next : σ → Option (β × σ)) : (n : Nat) → σ → Option β
  | 0, s => (next s).map (·.1)
  | n + 1, s => match next s with
    | some p => nth next n p.2
    | none => none

/-- The 10000th value. -/
def tenk {σ β : Type} (next : σ → Option (β × σ)) (s : Option σ) : Option β := s.bind (nth next 9999)

/-- The state left by a constructor from a range. -/
def got {α : Type} : Got α → Option α
  | .ok a _ => some a
  | _ => none

def ws : List Nat := List.replicate 9999 0x41
def sq : Nat → List Nat := SeedSeq.words []

def lcg (E : Lcg) (x : Nat) : Option (Nat × Nat) := (E.next x).map fun y => (y, y)
def icg (E : Icg) (x : Nat) : Option (Nat × Nat) := (E.next x).map fun y => (y, y)
def ofInt (x : Int) : Nat := x.toNat
def gint (r : Got Int) : Option Nat := (got r).map ofInt

/-! ## test_minstd_rand0.cpp, test_minstd_rand.cpp, test_rand48.cpp -/
#guard tenk (lcg minstdRand0) (some (minstdRand0.seed 1).toNat) = some 1043618065
#guard tenk (lcg minstdRand0) ((minstdRand0.seedSeq sq).map ofInt) = some 1274759829
#guard tenk (lcg minstdRand0) (gint (minstdRand0.seedRange ws)) = some 1263181168
#guard tenk (lcg minstdRand) (some (minstdRand.seed 1).toNat) = some 399268537
#guard tenk (lcg minstdRand) ((minstdRand.seedSeq sq).map ofInt) = some 1000962296
#guard tenk (lcg minstdRand) (gint (minstdRand.seedRange ws)) = some 182651141
#guard tenk Rand48.next (some (Rand48.seed 1).toNat) = some 1993516219
#guard tenk Rand48.next ((rand48Lcg.seedSeq sq).map ofInt) = some 1286950069
#guard tenk Rand48.next (gint (rand48Lcg.seedRange ws)) = some 839037874

/-! ## test_hellekalek1995.cpp -/
#guard tenk (icg hellekalek1995) (some (hellekalek1995.seed 1).toNat) = some 1187812169
#guard tenk (icg hellekalek1995) ((hellekalek1995.seedSeq sq).map ofInt) = some 1912573642
#guard tenk (icg hellekalek1995) (gint (hellekalek1995.seedRange ws)) = some 618743552

/-! ## test_ecuyer1988.cpp -/
#guard tenk (AdditiveCombine.next ecuyerA ecuyerB) (some (1, 1)) = some 2060321752
#guard tenk (AdditiveCombine.next ecuyerA ecuyerB) (AdditiveCombine.seedSeq ecuyerA ecuyerB sq) = some 1928563088
#guard tenk (AdditiveCombine.next ecuyerA ecuyerB) (got (AdditiveCombine.seedRange ecuyerA ecuyerB ws)) = some 776923198

/-! ## test_kreutzer1986.cpp, test_knuth_b.cpp -/
def shuf (E : Lcg) (k : Nat) (x : Option Nat) : Option Int :=
  tenk (ShuffleOrder.next E.info k E.engine) (x.bind (ShuffleOrder.init k E.engine))
#guard shuf kreutzerBase 97 (some (kreutzerBase.seed 1).toNat) = some 139726
#guard shuf kreutzerBase 97 ((kreutzerBase.seedSeq sq).map ofInt) = some 589731
#guard shuf kreutzerBase 97 (gint (kreutzerBase.seedRange ws)) = some 163138
#guard shuf minstdRand0 256 (some (minstdRand0.seed 1).toNat) = some 1112339016
#guard shuf minstdRand0 256 ((minstdRand0.seedSeq sq).map ofInt) = some 202352021
#guard shuf minstdRand0 256 (gint (minstdRand0.seedRange ws)) = some 1692601883

/-! ## test_mt11213b.cpp, test_mt19937.cpp, test_mt19937_64.cpp -/
#guard tenk (Mt.next mt11213b) (Mt.seed mt11213b 5489) = some 3809585648
#guard tenk (Mt.next mt11213b) (Mt.seedSeq mt11213b sq) = some 2936939529
#guard tenk (Mt.next mt11213b) (got (Mt.seedRange mt11213b ws)) = some 2434563197
#guard tenk (Mt.next mt19937) (Mt.seed mt19937 5489) = some 4123659995
#guard tenk (Mt.next mt19937) (Mt.seedSeq mt19937 sq) = some 666528879
#guard tenk (Mt.next mt19937) (got (Mt.seedRange mt19937 ws)) = some 3408548740
#guard tenk (Mt.next mt19937_64) (Mt.seed mt19937_64 5489) = some 9981545732273789042
#guard tenk (Mt.next mt19937_64) (Mt.seedSeq mt19937_64 sq) = some 12176471137395770412
#guard tenk (Mt.next mt19937_64) (got (Mt.seedRange mt19937_64 ws)) = some 13543700832025962283

/-! ## test_lagged_fibonacci.cpp -/
def lf : Lagged.Params := ⟨32, 24, 607, 273⟩
#guard tenk (LaggedInt.next lf) (LaggedInt.seedValue lf 331) = some 3543833
#guard tenk (LaggedInt.next lf) (LaggedInt.seedSeq lf sq) = some 1364481
#guard tenk (LaggedInt.next lf) (got (LaggedInt.seedRange lf ws)) = some 4372778

/-! ## test_linear_feedback_shift.cpp, test_taus88.cpp -/
#guard tenk taus88A.next (taus88A.seed 341) = some 981440277
#guard tenk taus88A.next (taus88A.seedSeq sq) = some 3709603036
#guard tenk taus88A.next (got (taus88A.seedRange ws)) = some 3112279337
def taus (a b c : Option Nat) : Option Int :=
  tenk taus88.next (a.bind fun a => b.bind fun b => c.map fun c => ((a, b), c))
#guard taus (taus88A.seed 341) (taus88B.seed 341) (taus88C.seed 341) = some 3535848941
#guard taus (taus88A.seedSeq sq) (taus88B.seedSeq sq) (taus88C.seedSeq sq) = some 2562639222
#guard taus (got (taus88A.seedRange ws)) (got (taus88B.seedRange ws)) (got (taus88C.seedRange ws)) = some 3762466828

/-! ## test_ranlux24_base.cpp, test_ranlux48_base.cpp and the discarding engines -/
#guard tenk ranluxBase.next (ranluxBase.seedValue 0) = some 7937952
#guard tenk ranluxBase.next (ranluxBase.seedSeq sq) = some 14368281
#guard tenk ranluxBase.next (got (ranluxBase.seedRange ws)) = some 7739608
#guard tenk ranlux48Base.next (ranlux48Base.seedValue 0) = some 61839128582725
#guard tenk ranlux48Base.next (ranlux48Base.seedSeq sq) = some 15556320400833
#guard tenk ranlux48Base.next (got (ranlux48Base.seedRange ws)) = some 172853405006548
def lux (E : Swc) (p r : Nat) (st : Option SwcState) : Option Int :=
  tenk (DiscardBlock.next p r E.engine) (st.map fun s => ⟨s, 0⟩)
#guard lux ranluxBase 223 23 (ranluxBase.seedValue 0) = some 9901578
#guard lux ranluxBase 223 23 (ranluxBase.seedSeq sq) = some 10086048
#guard lux ranluxBase 223 23 (got (ranluxBase.seedRange ws)) = some 3888733
#guard lux ranluxBase 223 24 (ranluxBase.seedValue 0) = some 5957620
#guard lux ranluxBase 223 24 (ranluxBase.seedSeq sq) = some 11848780
#guard lux ranluxBase 223 24 (got (ranluxBase.seedRange ws)) = some 11620328
#guard lux ranluxBase 389 24 (ranluxBase.seedValue 0) = some 8587295
#guard lux ranluxBase 389 24 (ranluxBase.seedSeq sq) = some 10794046
#guard lux ranluxBase 389 24 (got (ranluxBase.seedRange ws)) = some 4515722
#guard lux ranlux48Base 389 11 (ranlux48Base.seedValue 0) = some 249142670248501
#guard lux ranlux48Base 389 11 (ranlux48Base.seedSeq sq) = some 130319672235788
#guard lux ranlux48Base 389 11 (got (ranlux48Base.seedRange ws)) = some 154356577406237
#guard lux ranlux64Base 223 24 (ranlux64Base.seedValue 0) = some 141789170949364
#guard lux ranlux64Base 223 24 (ranlux64Base.seedSeq sq) = some 85538657982635
#guard lux ranlux64Base 223 24 (got (ranlux64Base.seedRange ws)) = some 101724473226966
#guard lux ranlux64Base 389 24 (ranlux64Base.seedValue 0) = some 199461971133682
#guard lux ranlux64Base 389 24 (ranlux64Base.seedSeq sq) = some 160535400540538
#guard lux ranlux64Base 389 24 (got (ranlux64Base.seedRange ws)) = some 40074210927900

/-! ## test_mixmax.cpp -/
#guard tenk (Mixmax.next 36) (Mixmax.seed 36 Mixmax.skipMat17 17 1) = some 1842572666014501720
#guard tenk (Mixmax.next 36) (Mixmax.seedSeq 36 Mixmax.skipMat17 17 sq) = some 48757672604362303
#guard tenk (Mixmax.next 36) (got (Mixmax.seedRange 36 Mixmax.skipMat17 17 ws)) = some 3802490769389764
#guard (Mixmax.seedSeq 36 Mixmax.skipMat17 17 fun n => List.replicate n 0xFFFFFFFF).bind (fun S =>
  (Mixmax.next 36 S).bind fun p => (Mixmax.next 36 p.2).map fun q => (p.1, q.1)) =
    some (775778250716139533, 846264592759195742)

/-! ## test_splitmix64.cpp -/
#guard tenk Splitmix.next (some (Splitmix.seed 0)) = some 542758903869407163
#guard tenk Splitmix.next (some (match sq 2 with | [a, b] => Splitmix.seedSeq a b | _ => 0)) = some 7044339178176046395

/-! ## test_independent_bits31.cpp, test_independent_bits32.cpp -/
def ib (E : EngInfo) (w : Nat) : (n : Nat) → List Int → Option Nat
  | 0, xs => match IndependentBits.next E 32 w xs with
    | .done v _ => some v
    | _ => none
  | n + 1, xs => match IndependentBits.next E 32 w xs with
    | .done _ xs => ib E w n xs
    | _ => none
def outs {σ : Type} (next : σ → Option (Nat × σ)) : (n : Nat) → σ → List Int
  | 0, _ => []
  | n + 1, s => match next s with
    | some p => (p.1 : Int) :: outs next n p.2
    | none => []
def ib31 (x : Option Nat) : Option Nat := x.bind fun x => ib minstdRand0.info 31 9999 (outs (lcg minstdRand0) 40000 x)
#guard ib31 (some (minstdRand0.seed 1).toNat) = some 26292962
#guard ib31 ((minstdRand0.seedSeq sq).map ofInt) = some 364481529
#guard ib31 (gint (minstdRand0.seedRange ws)) = some 1399154219
def ib32 (x : Option (BlockEng Nat)) : Option Nat :=
  x.bind fun x => ib ⟨⟨32, false⟩, 0, 4294967295⟩ 32 9999 (outs (Mt.next mt19937) 20000 x)
#guard ib32 (Mt.seed mt19937 5489) = some 4123659995
#guard ib32 (Mt.seedSeq mt19937 sq) = some 666528879
#guard ib32 (got (Mt.seedRange mt19937 ws)) = some 3408548740

/-! ## test_lagged_fibonacci607.cpp, test_lagged_fibonacci1279.cpp, test_lagged_fibonacci2281.cpp -/
/-- The state after `seed(331)`; lagged_fibonacci.hpp:285, 291-311. -/
def lf01 (p : Nat) : Option (BlockEng ℚ) :=
  (fromGenerator (lcg minstdRand0) (2 * p) (minstdRand0.seed 331).toNat).bind fun ws =>
    (got (fillArrayReal 53 48 p ws)).map fun xs => ⟨xs, p⟩
def lf01Seq (p : Nat) : Option (BlockEng ℚ) := (got (fillArrayReal 53 48 p (sq (2 * p)))).map fun xs => ⟨xs, p⟩
def near (x : Option ℚ) (digits : Nat) (scale : Nat) : Bool :=
  match x with
  | some x => decide (|x - digits / 10 ^ scale| * 10 ^ 16 ≤ 1)
  | none => false
#guard near (tenk (Lagged01.next 607 273) (lf01 607)) 39230772001715764 18
#guard near (tenk (Lagged01.next 607 273) (lf01Seq 607)) 73105942788451372 17
#guard near (tenk (Lagged01.next 607 273) (got (Lagged01.seedRange 53 48 607 ws))) 72330291632639643 17
#guard near (tenk (Lagged01.next 1279 418) (lf01 1279)) 39647253381274083 17
#guard near (tenk (Lagged01.next 1279 418) (lf01Seq 1279)) 97108839261370505 17
#guard near (tenk (Lagged01.next 1279 418) (got (Lagged01.seedRange 53 48 1279 ws))) 56042480761195179 17
#guard near (tenk (Lagged01.next 2281 1252) (lf01 2281)) 91955231927349246 17
#guard near (tenk (Lagged01.next 2281 1252) (lf01Seq 2281)) 4447517699440553 16
#guard near (tenk (Lagged01.next 2281 1252) (got (Lagged01.seedRange 53 48 2281 ws))) 87280273457821522 18

/-! ## test_ranlux3_01.cpp, test_ranlux64_3_01.cpp: the values of the engines on integers, scaled -/
def luxReal (E : Swc01) (p r : Nat) (st : Got Swc01State) : Option ℚ :=
  tenk (DiscardBlock.next p r (E.engine id)) ((got st).map fun s => ⟨s, 0⟩)
#guard luxReal ranluxBase01 223 24 (ranluxBase01.seedRange id (sq 24)) = some (11848780 / 2 ^ 24)
#guard luxReal ranluxBase01 223 24 (ranluxBase01.seedRange id ws) = some (11620328 / 2 ^ 24)
#guard luxReal ranlux64Base01 223 24 (ranlux64Base01.seedRange id ws) = some (101724473226966 / 2 ^ 48)

/-! ## test_seed_seq.cpp -/
#guard SeedSeq.generate 32 [] 10 = some [3155793538, 2047427591, 2886057794, 280666868, 2184015838, 4035763234, 808987374,
  3177165994, 2993445429, 3110180644]
#guard SeedSeq.generate 64 [] 10 = SeedSeq.generate 32 [] 10
#guard SeedSeq.generate 32 [2, 3, 4] 10 = some [2681148375, 3302224839, 249244011, 1549723892, 3429166360, 2812310274,
  3902694127, 1014283089, 1122383019, 494552679]
#guard SeedSeq.generate 64 [2, 3, 4] 10 = SeedSeq.generate 32 [2, 3, 4] 10

/-! ## `BOOST_RANDOM_GENERATE_VALUES`; test_generator.ipp:281-289 -/
def gen4 (E : EngInfo) (raws : List Int) : Option (List Nat) :=
  match generateFromInt E 4 raws with
  | .done ws _ => some ws
  | _ => none
def outsI {σ : Type} (next : σ → Option (Int × σ)) : (n : Nat) → σ → List Int
  | 0, _ => []
  | n + 1, s => match next s with
    | some p => p.1 :: outsI next n p.2
    | none => []
def u32 : IntTy := ⟨32, false⟩
def u64 : IntTy := ⟨64, false⟩
#guard gen4 minstdRand0.info (outs (lcg minstdRand0) 20 1) = some [0xC00041A6, 0xCD8358EB, 0x430A4B7A, 0x31B781AD]
#guard gen4 minstdRand.info (outs (lcg minstdRand) 20 1) = some [0x8400BC8E, 0xF45B895F, 0x145F0F91, 0xE5F8F088]
#guard gen4 ⟨u32, 0, 2147483646⟩ (outs (icg hellekalek1995) 20 1) = some [0x5642A47B, 0x1F6987E8, 0xD35860E7, 0xC8C661AB]
#guard gen4 ⟨u32, 1, 2147483562⟩ (outsI (AdditiveCombine.next ecuyerA ecuyerB) 20 (1, 1)) =
  some [0x7AE0C087, 0x948A8A31, 0xBE5CCBA9, 0x1316692C]
#guard gen4 kreutzerBase.info (match ShuffleOrder.init 97 kreutzerBase.engine 1 with
  | some s => outsI (ShuffleOrder.next kreutzerBase.info 97 kreutzerBase.engine) 20 s
  | none => []) = some [0x3EADAB08, 0x85E481CE, 0xCF84AEA5, 0x39D4395B]
#guard gen4 minstdRand0.info (match ShuffleOrder.init 256 minstdRand0.engine 1 with
  | some s => outsI (ShuffleOrder.next minstdRand0.info 256 minstdRand0.engine) 20 s
  | none => []) = some [0x5D189C63, 0xD0544F0E, 0x15B0E78F, 0xD814D654]
#guard gen4 ⟨u32, 0, 2 ^ 24 - 1⟩ (match LaggedInt.seedValue lf 331 with
  | some s => outs (LaggedInt.next lf) 20 s
  | none => []) = some [0xF61A5094, 0xFC4BA046, 0xF1C41E92, 0x3D82FE61]
#guard gen4 ⟨u32, 0, 2 ^ 32 - 1⟩ (match Mt.seed mt11213b 5489 with
  | some s => outs (Mt.next mt11213b) 20 s
  | none => []) = some [0xEF3F3F3F, 0x70082175, 0xDAF6EAF5, 0x2A16A63E]
#guard gen4 ⟨u64, 0, 2 ^ 64 - 1⟩ (match Mt.seed mt19937_64 5489 with
  | some s => outs (Mt.next mt19937_64) 20 s
  | none => []) = some [0xF6F6AEA6, 0xC96D191C, 0x8BC80F1C, 0x401F7AC7]
#guard gen4 ⟨u32, 0, 2 ^ 24 - 1⟩ (match ranluxBase.seedValue 0 with
  | some s => outs ranluxBase.next 20 s
  | none => []) = some [0x55E57B2C, 0xF2DEF915, 0x6D1A0CD9, 0xCA0109F9]
#guard gen4 ⟨u64, 0, 2 ^ 48 - 1⟩ (match ranlux48Base.seedValue 0 with
  | some s => outs ranlux48Base.next 20 s
  | none => []) = some [0xFCE57B2C, 0xF2DF1555, 0x1A0C0CD9, 0x490109FA]
#guard gen4 ⟨u64, 0, 2 ^ 48 - 1⟩ (match ranlux64Base.seedValue 0 with
  | some s => outs ranlux64Base.next 20 s
  | none => []) = some [0xC35F616B, 0xDC3C4DF1, 0xF3F90D0A, 0x206F9C9E]
#guard (outs Rand48.next 4 (Rand48.seed 1).toNat).map Int.toNat = [0x55424A4, 0x3A2CCEF5, 0x6ADB4A65, 0x2B019719]

end Boost.Random.Validation
