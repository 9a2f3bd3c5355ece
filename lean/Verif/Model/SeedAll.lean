import Verif.Model.SeedEngines
import Verif.Model.Adaptors
import Verif.Model.Lfsr
import Verif.Model.Swc01
import Verif.Model.Mixmax
import Verif.Model.MixmaxTable
import Verif.Model.Splitmix

/-!
# Seeding of every engine: from a seed sequence, from a range, from a value

A seed sequence is modelled by what `generate` writes: `gen n` is the list of the `n` words stored by a call on a
range of `n` elements. For `boost::random::seed_seq` this is `SeedSeq.generate`; the engines take any sequence.
-/

namespace Boost.Random
open SeedImpl

/-- The words a `seed_seq` holding `v` writes to an array of `uint32_t`; seed_seq.hpp:63-105. -/
def SeedSeq.words (v : List Nat) (n : Nat) : List Nat := (SeedSeq.generate 32 v n).getD []

/-- `linear_congruential_engine::seed(seq)`; linear_congruential.hpp:152-153. -/
def Lcg.seedSeq (E : Lcg) (gen : Nat → List Nat) : Option Int := (seedOneInt E.T E.m gen).map fun s : Nat => E.seed s

/-- `inversive_congruential_engine::seed(seq)`; inversive_congruential.hpp:146-147. -/
def Icg.seedSeq (E : Icg) (gen : Nat → List Nat) : Option Int := (seedOneInt E.T E.p gen).map fun s : Nat => E.seed s

/-- `inversive_congruential_engine::seed(first, last)`; inversive_congruential.hpp:157-158. -/
def Icg.seedRange (E : Icg) (ws : List Nat) : Got Int :=
  match getOneInt E.T E.p ws with
  | .ok s rest => .ok (E.seed s) rest
  | .throws => .throws
  | .ub => .ub

/-- The template argument `UIntType(2) << (w - 1)`; linear_feedback_shift.hpp:105, 113. -/
def Lfsr.seedMod (L : Lfsr) : Nat := (2 <<< (L.w - 1)) % 2 ^ L.bits

/-- `linear_feedback_shift_engine::seed(seq)`; linear_feedback_shift.hpp:103-105. -/
def Lfsr.seedSeq (L : Lfsr) (gen : Nat → List Nat) : Option Nat := (seedOneInt ⟨L.bits, false⟩ L.seedMod gen).bind L.seed

/-- `linear_feedback_shift_engine::seed(first, last)`; linear_feedback_shift.hpp:111-114. -/
def Lfsr.seedRange (L : Lfsr) (ws : List Nat) : Got Nat :=
  match getOneInt ⟨L.bits, false⟩ L.seedMod ws with
  | .ok s rest => match L.seed s with
    | some v => .ok v rest
    | none => .ub
  | .throws => .throws
  | .ub => .ub

/-- `mersenne_twister_engine::seed(seq)` for any sequence; mersenne_twister.hpp:161-167. -/
def Mt.seedSeq (P : Mt.Params) (gen : Nat → List Nat) : Option (BlockEng Nat) :=
  (seedArrayInt P.bits P.w P.n gen).bind (Mt.seedWords P)

/-- `lagged_fibonacci_engine::seed(seq)`; lagged_fibonacci.hpp:102-106. -/
def LaggedInt.seedSeq (L : Lagged.Params) (gen : Nat → List Nat) : Option (BlockEng Nat) :=
  (seedArrayInt L.bits L.w L.p gen).map fun xs => ⟨xs, L.p⟩

/-- `lagged_fibonacci_01_engine::seed(seq)`, `RealType` having `digits` digits; lagged_fibonacci.hpp:305-309,
seed_impl.hpp:334-354. -/
def Lagged01.seedSeq (digits w p : Nat) (gen : Nat → List Nat) : Option (BlockEng ℚ) :=
  match fillArrayReal digits w p (gen ((w + 31) / 32 * p)) with
  | .ok xs _ => some ⟨xs, p⟩
  | _ => none

/-- `lagged_fibonacci_01_engine::seed(value)`: the words come from a `minstd_rand0`; lagged_fibonacci.hpp:294-299. -/
def Lagged01.seedValue (digits w p value : Nat) : Option (BlockEng ℚ) :=
  (fromGenerator (fun x => (minstdRand0.next x).map fun y => (y, y)) ((w + 31) / 32 * p)
      (minstdRand0.seed (value % 2 ^ 32 : Nat)).toNat).bind fun ws => Lagged01.seedSeq digits w p fun _ => ws

/-- `lagged_fibonacci_01_engine::default_seed`; lagged_fibonacci.hpp:269. -/
def Lagged01.defaultSeed : Nat := 331

/-- `subtract_with_carry_engine::seed(seq)`; subtract_with_carry.hpp:170-175. -/
def Swc.seedSeq (E : Swc) (gen : Nat → List Nat) : Option SwcState := (seedArrayInt E.bits E.w E.r gen).bind E.ofTable

/-- The engine that seeds `subtract_with_carry_engine`; subtract_with_carry.hpp:163. -/
def swcSeeder : Lcg := ⟨⟨32, false⟩, 40014, 0, 2147483563⟩

/-- `subtract_with_carry_engine::seed(value)`; subtract_with_carry.hpp:160-167. -/
def Swc.seedValue (E : Swc) (value : Nat) : Option SwcState :=
  (fromGenerator (fun x => (swcSeeder.next x).map fun y => (y, y)) ((E.w + 31) / 32 * E.r)
      (swcSeeder.seed ((if value = 0 then 19780503 else value) % 2 ^ 32 : Nat)).toNat).bind fun ws => E.seedSeq fun _ => ws

/-- `mixmax_engine::seed(seq)`; mixmax.hpp:97-101. -/
def Mixmax.seedSeq (mul : Nat) (table : List (List Nat)) (N : Nat) (gen : Nat → List Nat) : Option State :=
  match seedArrayInt 32 32 4 gen with
  | some [v0, v1, v2, v3] => seedUniquestream mul table N v0 v1 v2 v3
  | _ => none

/-- `mixmax_engine::seed(first, last)`; mixmax.hpp:90-95. -/
def Mixmax.seedRange (mul : Nat) (table : List (List Nat)) (N : Nat) (ws : List Nat) : Got State :=
  match fillArrayInt 32 32 4 ws with
  | .ok [v0, v1, v2, v3] rest => match seedUniquestream mul table N v0 v1 v2 v3 with
    | some S => .ok S rest
    | none => .ub
  | .ok _ _ => .ub
  | .throws => .throws
  | .ub => .ub

/-- `additive_combine_engine::seed(seq)`: the same sequence seeds both; additive_combine.hpp:151-156. -/
def AdditiveCombine.seedSeq (E1 E2 : Lcg) (gen : Nat → List Nat) : Option (Nat × Nat) :=
  (E1.seedSeq gen).bind fun a => (E2.seedSeq gen).map fun b => (a.toNat, b.toNat)

/-- `additive_combine_engine::seed(first, last)`: the second engine takes over where the first one stopped;
additive_combine.hpp:179-183. -/
def AdditiveCombine.seedRange (E1 E2 : Lcg) (ws : List Nat) : Got (Nat × Nat) :=
  match E1.seedRange ws with
  | .ok a rest => match E2.seedRange rest with
    | .ok b rest => .ok (a.toNat, b.toNat) rest
    | .throws => .throws
    | .ub => .ub
  | .throws => .throws
  | .ub => .ub

/-- `xor_combine_engine::seed(v)` for `taus88`, whose inner engine is itself combined; xor_combine.hpp:94-95,
linear_feedback_shift.hpp:90-97. -/
def taus88Seed (v : Nat) : Option ((Nat × Nat) × Nat) := do
  let a ← taus88A.seed v
  let b ← taus88B.seed v
  let c ← taus88C.seed v
  some ((a, b), c)

/-- `xor_combine_engine::seed(seq)` for `taus88`; xor_combine.hpp:98-99. -/
def taus88SeedSeq (gen : Nat → List Nat) : Option ((Nat × Nat) × Nat) := do
  let a ← taus88A.seedSeq gen
  let b ← taus88B.seedSeq gen
  let c ← taus88C.seedSeq gen
  some ((a, b), c)

/-- `xor_combine_engine::seed(first, last)` for `taus88`: each component reads on where the one before stopped;
xor_combine.hpp:107-111. -/
def taus88SeedRange (ws : List Nat) : Got ((Nat × Nat) × Nat) :=
  match taus88A.seedRange ws with
  | .ok a ws => match taus88B.seedRange ws with
    | .ok b ws => match taus88C.seedRange ws with
      | .ok c ws => .ok ((a, b), c) ws
      | .throws => .throws
      | .ub => .ub
    | .throws => .throws
    | .ub => .ub
  | .throws => .throws
  | .ub => .ub

end Boost.Random
