import Verif.Model.SeedImpl
import Verif.Model.SeedSeq
import Verif.Model.Lcg
import Verif.Model.Swc
import Verif.Model.LaggedFibonacci
import Verif.Model.MersenneTwister

/-!
# Seeding of the engines from a range, a seed sequence or a value
-/

namespace Boost.Random
open SeedImpl

/-- `linear_congruential_engine::seed(first, last)`; linear_congruential.hpp:163-165. -/
def Lcg.seedRange (E : Lcg) (ws : List Nat) : Got Int :=
  match getOneInt E.T E.m ws with
  | .ok s rest => .ok (E.seed s) rest
  | .throws => .throws
  | .ub => .ub

/-- `mersenne_twister_engine::seed(first, last)`; mersenne_twister.hpp:170-178. -/
def Mt.seedRange (P : Mt.Params) (ws : List Nat) : Got (BlockEng Nat) :=
  match fillArrayInt P.bits P.w P.n ws with
  | .ok xs rest => match Mt.seedWords P xs with
    | some st => .ok st rest
    | none => .ub
  | .throws => .throws
  | .ub => .ub

/-- `mersenne_twister_engine::seed(seq)` for a `seed_seq` holding `v`; mersenne_twister.hpp:161-167. -/
def Mt.seedFromSeq (P : Mt.Params) (v : List Nat) : Option (BlockEng Nat) :=
  (SeedSeq.generate 32 v ((P.w + 31) / 32 * P.n)).bind fun ws =>
    (seedArrayInt P.bits P.w P.n fun _ => ws).bind (Mt.seedWords P)

/-- `lagged_fibonacci_engine::seed(first, last)`; lagged_fibonacci.hpp:113-118. -/
def LaggedInt.seedRange (L : Lagged.Params) (ws : List Nat) : Got (BlockEng Nat) :=
  match fillArrayInt L.bits L.w L.p ws with
  | .ok xs rest => .ok ⟨xs, L.p⟩ rest
  | .throws => .throws
  | .ub => .ub

/-- `lagged_fibonacci_01_engine::seed(first, last)`; lagged_fibonacci.hpp:315-321. -/
def Lagged01.seedRange (digits w p : Nat) (ws : List Nat) : Got (BlockEng ℚ) :=
  match fillArrayReal digits w p ws with
  | .ok xs rest => .ok ⟨xs, p⟩ rest
  | .throws => .throws
  | .ub => .ub

/-- `subtract_with_carry_engine::seed(first, last)`; subtract_with_carry.hpp:183-189. -/
def Swc.seedRange (E : Swc) (ws : List Nat) : Got SwcState :=
  match fillArrayInt E.bits E.w E.r ws with
  | .ok xs rest => match E.ofTable xs with
    | some st => .ok st rest
    | none => .ub
  | .throws => .throws
  | .ub => .ub

/-- `lagged_fibonacci_engine::seed(value)`: the words come from a `minstd_rand0`; lagged_fibonacci.hpp:90-97. -/
def LaggedInt.seedValue (L : Lagged.Params) (value : Nat) : Option (BlockEng Nat) :=
  (fromGenerator (fun x => (minstdRand0.next x).map fun y => (y, y)) ((L.w + 31) / 32 * L.p)
      (minstdRand0.seed (value % 2 ^ 32 : Nat)).toNat).bind fun ws =>
    (seedArrayInt L.bits L.w L.p fun _ => ws).map fun xs => ⟨xs, L.p⟩

end Boost.Random
