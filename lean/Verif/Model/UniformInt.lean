import Verif.Model.ConstMod
import Verif.Model.SignedUnsigned

/-!
# Uniform integer distributions

Model of `include/boost/random/uniform_int_distribution.hpp` (integral engines),
`include/boost/random/uniform_smallint.hpp` (integral engines) and
`include/boost/random/random_number_generator.hpp`.

An engine is seen through `min()`, `max()`, its result type and the list of values its next calls
return. A distribution is a function of that list: it either returns a value and the unread rest,
or needs more engine values than the list holds, or runs into undefined behaviour.

Types narrower than `int` are promoted to `int` in arithmetic (`IntTy.arith`) and converted back where a
value is cast or stored. Multiprecision types are not modelled.
-/

namespace Boost.Random

/-- Outcome of drawing from a distribution on a list of engine values. -/
inductive Draw (α : Type) where
  /-- returned `v`, not having read `rest` -/
  | done (v : α) (rest : List Int)
  /-- the list ended before a value was returned -/
  | more
  /-- undefined behaviour -/
  | ub
  deriving DecidableEq, Repr

/-- `v` is a value of the integer type `T`. -/
def InTy (T : IntTy) (v : Int) : Prop :=
  if T.signed then InSigned T.bits v else 0 ≤ v ∧ v < 2 ^ T.bits

instance (T v) : Decidable (InTy T v) := by unfold InTy; infer_instance

/-- `subtract<T>()(x, y)`; signed_unsigned_tools.hpp:25-51. -/
def subtractT (T : IntTy) (x y : Int) : Option Nat :=
  if T.signed then subtractSigned T.bits x y
  else some (subtractUnsigned T.bits x.toNat y.toNat)

/-- `add<T1, T2>()(x, y)` with `T1` the unsigned type of `w1` bits; signed_unsigned_tools.hpp:53-82.
The selecting condition is that of line 57-58. -/
def addT (w1 : Nat) (T2 : IntTy) (x : Nat) (y : Int) : Option Int :=
  if T2.signed then
    if T2.bits - 1 ≤ w1 then addSigned w1 T2.bits x y else addWide T2.bits x y
  else some (addUnsigned T2.bits x y.toNat)

/-- Conversion of an unsigned value to `T`. -/
def castT (T : IntTy) (x : Nat) : Int :=
  if T.signed then toSigned T.bits x else ((x % 2 ^ T.bits : Nat) : Int)

/-- What a distribution sees of an engine: `Engine::result_type`, `min()` and `max()`. -/
structure EngInfo where
  ty : IntTy
  min : Int
  max : Int

/-- `subtract<base_result>()(eng.max(), eng.min())`; uniform_int_distribution.hpp:60-61. -/
def EngInfo.brange (E : EngInfo) : Option Nat := subtractT E.ty E.max E.min

/-- `subtract<base_result>()(eng(), bmin)`; uniform_int_distribution.hpp:68, 117, 218. -/
def EngInfo.diff (E : EngInfo) (x : Int) : Option Nat := subtractT E.ty x E.min

namespace UniformInt

/-- The unsigned type of `w` bits. -/
abbrev uns (w : Nat) : IntTy := ⟨w, false⟩

/-- `limit`; uniform_int_distribution.hpp:79-86, with `range_type` the unsigned type of `w` bits. -/
def limit (w range brange : Nat) : Option Nat := do
  let b1 ← (uns w).arith (brange % 2 ^ w + 1)
  if b1 = 0 then none
  else if range = 2 ^ w - 1 then
    some ((if range % b1 = brange % 2 ^ w then range / b1 + 1 else range / b1) % 2 ^ w)
  else do
    let r1 ← (uns w).arith (range + 1)
    some (r1 / b1 % 2 ^ w)

/-- How the digit loop ends. -/
inductive Inner where
  /-- the `return(result)` in the middle of the loop -/
  | ret (result : Nat) (rest : List Int)
  /-- the loop condition failed -/
  | exit (result mult : Nat) (rest : List Int)
  | more
  | ub

/-- `range - mult + 1`; uniform_int_distribution.hpp:120: modulo `2^w`, or in `int`. -/
def remaining (w range mult : Nat) : Int :=
  if w ≤ 16 then (range : Int) - mult + 1 else ((range + 2 ^ w - mult + 1) % 2 ^ w : Nat)

/-- One turn of the digit loop, for the digit `d`; uniform_int_distribution.hpp:117-137. The new `result`, and
the new `mult` unless `result` is returned. -/
def digit (w range brange result mult d : Nat) : Option (Nat × Option Nat) := do
  let p ← (uns w).arith (d % 2 ^ w * mult)
  let result ← (uns w).add result (p % 2 ^ w)
  let l ← (uns w).arith (mult * (brange % 2 ^ w))
  if (l : Int) = remaining w range mult then some (result, none)
  else do
    let b1 ← (uns w).arith (brange % 2 ^ w + 1)
    let mult ← (uns w).mul mult b1
    some (result, some mult)

/-- The digit loop `while(mult <= limit)`; uniform_int_distribution.hpp:96-138. -/
def inner (E : EngInfo) (w range brange lim : Nat) : (xs : List Int) → (result mult : Nat) → Inner
  | [], result, mult => if mult ≤ lim then Inner.more else Inner.exit result mult []
  | x :: xs, result, mult =>
    if mult ≤ lim then
      match (E.diff x).bind (digit w range brange result mult) with
      | none => Inner.ub
      | some (result, none) => Inner.ret result xs
      | some (result, some mult) => inner E w range brange lim xs result mult
    else Inner.exit result mult (x :: xs)

/-- `bucket_size`; uniform_int_distribution.hpp:208-215, in the unsigned type of `wb` bits
(`mixed_range_type` is `base_unsigned` for compilers with explicit conversion operators). -/
def bucketSize (wb range brange : Nat) : Option Nat := do
  let r1 ← (uns wb).arith (range % 2 ^ wb + 1)
  if r1 = 0 then none
  else if brange = 2 ^ wb - 1 then
    some ((if brange % r1 = range % 2 ^ wb then brange / r1 + 1 else brange / r1) % 2 ^ wb)
  else do
    let b1 ← (uns wb).add brange 1
    some (b1 / r1 % 2 ^ wb)

/-- The bucket loop; uniform_int_distribution.hpp:216-226. -/
def bucketLoop (E : EngInfo) (T : IntTy) (range bucket : Nat) (mn : Int) : (xs : List Int) → Draw Int
  | [] => Draw.more
  | x :: xs =>
    match E.diff x with
    | none => Draw.ub
    | some d =>
      if bucket = 0 then Draw.ub
      else if d / bucket ≤ range % 2 ^ E.ty.bits then
        match addT E.ty.bits T (d / bucket) mn with
        | none => Draw.ub
        | some v => Draw.done v xs
      else bucketLoop E T range bucket mn xs

/-- `generate_uniform_int(eng, min_value, max_value, true_type)`; uniform_int_distribution.hpp:49-228.

`continue` in the outer `for(;;)` (lines 173, 180, 184) restarts the function: everything computed
before the loop is a function of the arguments. Both the restart and the recursive call happen after
at least one engine value was read, so `xs.length + 1` levels of recursion (the first argument) are
always enough; see `generate`. -/
def generateAux : (fuel : Nat) → (E : EngInfo) → (T : IntTy) → (mn mx : Int) → (xs : List Int) → Draw Int
  | 0, _, _, _, _, _ => Draw.more
  | fuel + 1, E, T, mn, mx, xs =>
    match subtractT T mx mn, E.brange with
    | some range, some brange =>
      let w := T.bits
      if range = 0 then Draw.done mn xs
      else if brange = range then
        match xs with
        | [] => Draw.more
        | x :: xs =>
          match E.diff x with
          | none => Draw.ub
          | some v =>
            match addT E.ty.bits T v mn with
            | none => Draw.ub
            | some r => Draw.done r xs
      else if brange < range then
        match limit w range brange with
        | none => Draw.ub
        | some lim =>
          match inner E w range brange lim xs 0 1 with
          | Inner.more => Draw.more
          | Inner.ub => Draw.ub
          | Inner.ret result rest => Draw.done (castT T result) rest
          | Inner.exit result mult rest =>
            if mult = 0 then Draw.ub
            else
              match generateAux fuel E ⟨w, false⟩ 0 ((range / mult : Nat) : Int) rest with
              | Draw.more => Draw.more
              | Draw.ub => Draw.ub
              | Draw.done inc rest =>
                let inc := inc.toNat
                if (2 ^ w - 1) / mult < inc then generateAux fuel E T mn mx rest
                else
                  match (uns w).mul inc mult with
                  | none => Draw.ub
                  | some inc =>
                    match (uns w).add result inc with
                    | none => Draw.ub
                    | some result =>
                      if result < inc then generateAux fuel E T mn mx rest
                      else if result > range then generateAux fuel E T mn mx rest
                      else
                        match addT w T result mn with
                        | none => Draw.ub
                        | some r => Draw.done r rest
      else
        match bucketSize E.ty.bits range brange with
        | none => Draw.ub
        | some bucket => bucketLoop E T range bucket mn xs
    | _, _ => Draw.ub

/-- `uniform_int_distribution<T>(mn, mx)(eng)`; uniform_int_distribution.hpp:49-228, 369-380. -/
def generate (E : EngInfo) (T : IntTy) (mn mx : Int) (xs : List Int) : Draw Int :=
  generateAux (xs.length + 1) E T mn mx xs

end UniformInt

namespace UniformSmallint

/-- `uniform_smallint<T>(mn, mx)(eng)` for an integral engine; uniform_smallint.hpp:239-273
(`mixed_range_type` is `base_unsigned`). -/
def generate (E : EngInfo) (T : IntTy) (mn mx : Int) (xs : List Int) : Draw Int :=
  match subtractT T mx mn, E.brange with
  | some range, some brange =>
    match xs with
    | [] => Draw.more
    | x :: xs =>
      match E.diff x with
      | none => Draw.ub
      | some val =>
        if brange ≤ range then
          match addT T.bits T (val % 2 ^ T.bits) mn with
          | none => Draw.ub
          | some r => Draw.done r xs
        else
          match (UniformInt.uns E.ty.bits).add (range % 2 ^ E.ty.bits) 1 with
          | none => Draw.ub
          | some modulus =>
            if modulus = 0 then Draw.ub
            else
              match addT T.bits T (val % modulus % 2 ^ T.bits) mn with
              | none => Draw.ub
              | some r => Draw.done r xs
  | _, _ => Draw.ub

end UniformSmallint

/-- `random_number_generator<URNG, IntType>::operator()(n)`; random_number_generator.hpp:55-59
(`n - 1` is checked for signed overflow, the `BOOST_ASSERT` is not modelled). -/
def randomNumberGenerator (E : EngInfo) (T : IntTy) (n : Int) (xs : List Int) : Draw Int :=
  if T.signed then
    match signedArith T.bits (n - 1) with
    | none => Draw.ub
    | some m => UniformInt.generate E T 0 (wrapSigned T.bits m) xs
  else UniformInt.generate E T 0 ((n - 1) % 2 ^ T.bits) xs

end Boost.Random
