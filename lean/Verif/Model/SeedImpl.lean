import Verif.Model.UniformInt
import Mathlib.Algebra.Order.Floor.Semiring
import Mathlib.Data.Rat.Floor

/-!
# Seeding helpers and `generate`

Model of `include/boost/random/detail/seed_impl.hpp` and `detail/generator_seed_seq.hpp`.
`boost::uint_least32_t` is taken to have 32 bits. Floating-point numbers are modelled by rationals.
-/

namespace Boost.Random

/-! ## Words from an iterator range -/

namespace SeedImpl

/-- Outcome of reading from an iterator range: the value and what remains of the range, or the exception
`std::invalid_argument`, or undefined behaviour. -/
inductive Got (α : Type) where
  | ok (v : α) (rest : List Nat)
  | throws
  | ub
  deriving DecidableEq, Repr

/-- `k` of `seed_one_int` and `get_one_int`: the number of 32-bit words used for a modulus `m`, where `m = 0` stands
for the whole type; seed_impl.hpp:228-232, 247-251. `boost::static_log2` (another library) is `Nat.log2`. -/
def wordCount (T : IntTy) (m : Nat) : Nat :=
  let log := if m = 0 then (if T.signed then T.bits - 1 else T.bits) else Nat.log2 m
  let notPow := ((2 ^ T.bits - 1) ^^^ ((2 <<< (log - 1)) % 2 ^ T.bits)) &&& m
  (log + (if notPow ≠ 0 then 32 else 31)) / 32

/-- The loop of `get_one_int` from word `j`; seed_impl.hpp:253-259. Elements of the range that do not fit in an
unsigned `IntType` are reduced; for a signed type a value that does not fit is outside the model. -/
def getLoop (T : IntTy) (m : Nat) : (k j s : Nat) → List Nat → Got Nat
  | 0, _, s, ws => .ok s ws
  | _ + 1, _, _, [] => .throws
  | k + 1, j, s, w :: ws =>
    match T.fit w with
    | none => .ub
    | some x =>
      match ConstMod.apply T m x, T.fit (1 <<< (32 * j)) with
      | some digit, some mult =>
        match ConstMod.multAdd T m mult digit s with
        | some s => getLoop T m k (j + 1) s ws
        | none => .ub
      | _, _ => .ub

/-- `get_one_int<IntType, m>(first, last)`; seed_impl.hpp:244-261. -/
def getOneInt (T : IntTy) (m : Nat) (ws : List Nat) : Got Nat := getLoop T m (wordCount T m) 0 0 ws

/-- `seed_one_int<IntType, m>(seq)` where `gen n` are the `n` words `seq.generate` stores; the first three are not
used; seed_impl.hpp:225-241. `none` = undefined behaviour, among which an array too small for the words. -/
def seedOneInt (T : IntTy) (m : Nat) (gen : Nat → List Nat) : Option Nat :=
  let log := if m = 0 then (if T.signed then T.bits - 1 else T.bits) else Nat.log2 m
  let k := wordCount T m
  if k + 3 ≤ log / 32 + 4 then
    match getLoop T m k 0 0 ((gen (k + 3)).drop 3) with
    | .ok s _ => some s
    | _ => none
  else none

/-- One element: `val += static_cast<UIntType>(*first++) << 32*k`; seed_impl.hpp:303-308. -/
def fillOne (bits : Nat) : (cnt k val : Nat) → List Nat → Got Nat
  | 0, _, val, ws => .ok val ws
  | _ + 1, _, _, [] => .throws
  | cnt + 1, k, val, w :: ws => fillOne bits cnt (k + 1) ((val + (w % 2 ^ bits) <<< (32 * k)) % 2 ^ bits) ws

/-- `fill_array_int_impl<w>(first, last, x)` with `n` elements of an unsigned type of `bits` bits; the signed
variant works on the same representation (seed_impl.hpp:313-319); seed_impl.hpp:299-311. -/
def fillArrayInt (bits w : Nat) : (n : Nat) → List Nat → Got (List Nat)
  | 0, ws => .ok [] ws
  | n + 1, ws =>
    match fillOne bits ((w + 31) / 32) 0 0 ws with
    | .ok val ws =>
      match fillArrayInt bits w n ws with
      | .ok xs ws => .ok ((val &&& (2 ^ w - 1)) :: xs) ws
      | r => r
    | .throws => .throws
    | .ub => .ub

/-- `seed_array_int_impl<w>(seq, x)`: the words come from `seq.generate`, which `gen` models; `none` cannot happen
as there are as many words as are read; seed_impl.hpp:265-276. -/
def seedArrayInt (bits w n : Nat) (gen : Nat → List Nat) : Option (List Nat) :=
  match fillArrayInt bits w n (gen ((w + 31) / 32 * n)) with
  | .ok xs _ => some xs
  | _ => none

/-- `const_pow_impl<N>::call(arg, n, result)`; seed_impl.hpp:49-67. -/
def constPow : (N : Nat) → (arg : ℚ) → (n : Nat) → (result : ℚ) → ℚ
  | 0, _, _, result => result
  | N + 1, arg, n, result => constPow ((N + 1) / 2) (arg * arg) (n / 2) (if n % 2 = 0 then result else result * arg)
termination_by N => N
decreasing_by omega

/-- `pow2<RealType>(n)` where `RealType` has `digits` digits; seed_impl.hpp:74-82. -/
def pow2 (digits n : Nat) : ℚ := ((1 <<< (n % 32) : Nat) : ℚ) * constPow (digits / 32) (((1 <<< 31 : Nat) : ℚ) * 2) (n / 32) 1

/-- The loop over whole words of `fill_array_real`: value and multiplier; seed_impl.hpp:376-380. -/
def realWords : (cnt : Nat) → (val mult : ℚ) → List Nat → Got (ℚ × ℚ)
  | 0, val, mult, ws => .ok (val, mult) ws
  | _ + 1, _, _, [] => .throws
  | cnt + 1, val, mult, w :: ws => realWords cnt (val + w * mult) (mult * 4294967296) ws

/-- One element of `fill_array_real<w>`; seed_impl.hpp:373-388. The mask is that of line 369. -/
def realOne (digits w : Nat) (ws : List Nat) : Got ℚ :=
  let mask := (2 ^ 32 - 1) ^^^ (((2 ^ 32 - 1) <<< (w % 32)) % 2 ^ 32)
  match realWords (w / 32) 0 (1 / pow2 digits w) ws with
  | .ok (val, mult) ws =>
    if mask ≠ 0 then
      match ws with
      | [] => .throws
      | x :: ws => .ok (val + ((x &&& mask : Nat) : ℚ) * mult) ws
    else .ok val ws
  | .throws => .throws
  | .ub => .ub

/-- `fill_array_real<w>(first, last, x)`, and `seed_array_real_impl` (lines 334-354), which is the same on a
sequence long enough; seed_impl.hpp:366-389. -/
def fillArrayReal (digits w : Nat) : (n : Nat) → List Nat → Got (List ℚ)
  | 0, ws => .ok [] ws
  | n + 1, ws =>
    match realOne digits w ws with
    | .ok val ws =>
      match fillArrayReal digits w n ws with
      | .ok xs ws => .ok (val :: xs) ws
      | r => r
    | .throws => .throws
    | .ub => .ub

/-! ## `generate` -/

/-- The variables of `generate_from_int` and `generate_from_real`: what has been written, how many elements of
the range are left, `remaining_bits`, `saved_bits`; seed_impl.hpp:91-92, 137-138. -/
structure GenState where
  out : List Nat
  need : Nat
  remaining : Nat
  saved : Nat
  deriving DecidableEq, Repr

/-- Whether the function goes on. -/
inductive GenRes where
  | ub
  | done (out : List Nat)
  | cont (st : GenState)
  deriving DecidableEq, Repr

/-- `*begin++ = w; if(begin == end) return;`; writing past the end is undefined. -/
def put (w : Nat) (st : GenState) : GenRes :=
  match st.need with
  | 0 => .ub
  | 1 => .done (st.out ++ [w])
  | n + 2 => .cont { st with out := st.out ++ [w], need := n + 1 }

/-- The loop that writes whole words; seed_impl.hpp:169-176, 191-198. Returns also what is left of `val`. -/
def putWords : (k val : Nat) → GenState → GenRes × Nat
  | 0, val, st => (.cont st, val)
  | k + 1, val, st =>
    match put (val % 2 ^ 32 &&& 0xFFFFFFFF) st with
    | .cont st => putWords k (val >>> 32) st
    | r => (r, val)

/-- The end of the last branch of `generate_from_int`; seed_impl.hpp:190-202. -/
def intTail (bits avail val : Nat) (st : GenState) : GenRes :=
  if bits ≥ 32 then
    match putWords (avail / 32) val st with
    | (.cont st, val) => .cont { st with remaining := avail % 32, saved := val % 2 ^ 32 }
    | (r, _) => r
  else .cont { st with remaining := avail, saved := val % 2 ^ 32 }

/-- The body of the loop of `generate_from_int` after `val &= mask`; seed_impl.hpp:162-203. -/
def intStep (bits val : Nat) (st : GenState) : GenRes :=
  if bits = 32 then put (val % 2 ^ 32 &&& 0xFFFFFFFF) st
  else if bits % 32 = 0 then (putWords (bits / 32) val st).1
  else if bits < 32 ∧ bits < 32 - st.remaining then
    .cont { st with saved := st.saved ||| (((val % 2 ^ 32) <<< st.remaining) % 2 ^ 32), remaining := st.remaining + bits }
  else if bits < 32 ∨ st.remaining ≠ 0 then
    let extra := val % 2 ^ 32 &&& (((1 <<< (32 - st.remaining)) % 2 ^ 32 + 2 ^ 32 - 1) % 2 ^ 32)
    match put (st.saved ||| ((extra <<< st.remaining) % 2 ^ 32)) st with
    | .cont st' => intTail bits (bits - (32 - st.remaining)) (val >>> (32 - st.remaining)) { st' with remaining := 0 }
    | r => r
  else intTail bits bits val st

/-- The expression `range + 1`; seed_impl.hpp:144,148,156. Of a type of at most 16 bits it is computed in `int`, where it
does not wrap around. -/
def genPlusOne (W range : Nat) : Nat := if W ≤ 16 then range + 1 else (range + 1) % 2 ^ W

/-- The number of value bits of the type in which `range + 1` and `(excess - 1) ^ excess` are computed, from which
`integer_log2` starts; seed_impl.hpp:144,150. -/
def genDigits (W : Nat) : Nat := if W ≤ 16 then 31 else W

/-- `bits`: how many bits of each value of the engine are used; seed_impl.hpp:141-153, for an unsigned type of `W` bits,
`excess` being of this type. -/
def genBits (W range : Nat) : Nat :=
  let r1 := genPlusOne W range
  let bits := if range = 2 ^ W - 1 then W else integerLog2 (genDigits W) r1
  let discarded := integerLog2 31 bits
  let excess := (r1 >>> (bits - discarded)) % 2 ^ W
  if excess ≠ 0 then bits - discarded + integerLog2 (genDigits W) ((excess - 1) ^^^ excess) else bits

/-- `mask`; seed_impl.hpp:155. For types of at most 16 bits shift and subtraction are done in `int`, with the same result
after the conversion. -/
def genMask (W bits : Nat) : Nat := ((2 <<< (bits - 1)) % 2 ^ W + 2 ^ W - 1) % 2 ^ W

/-- `limit`; seed_impl.hpp:156. For types of at most 16 bits `~mask` is an `int`, whose bits from `W` on are set: `D` is
the number of bits of the type in which the expression is computed. -/
def genLimit (W range mask : Nat) : Nat :=
  let D := if W ≤ 16 then 32 else W
  ((genPlusOne W range &&& ((2 ^ D - 1) ^^^ mask)) + 2 ^ D - 1) % 2 ^ D % 2 ^ W

/-- The loops of `generate_from_int`; seed_impl.hpp:158-204. -/
def intLoop (E : EngInfo) (bits mask limit range : Nat) : List Int → GenState → Draw (List Nat)
  | [], _ => .more
  | x :: xs, st =>
    match E.diff x with
    | none => .ub
    | some v =>
      if limit ≠ range ∧ v > limit then intLoop E bits mask limit range xs st
      else
        match intStep bits (v &&& mask) st with
        | .ub => .ub
        | .done out => .done out xs
        | .cont st => intLoop E bits mask limit range xs st

/-- `generate_from_int(eng, begin, end)` for a range of `n` elements, on the list of the next values of the engine;
seed_impl.hpp:132-205. With `bits = 0` the shift by `bits - 1` is undefined. -/
def generateFromInt (E : EngInfo) (n : Nat) (raws : List Int) : Draw (List Nat) :=
  match E.brange with
  | none => .ub
  | some range =>
    let bits := genBits E.ty.bits range
    if bits = 0 then .ub
    else
      let mask := genMask E.ty.bits bits
      intLoop E bits mask (genLimit E.ty.bits range mask) range raws ⟨[], n, 0, 0⟩

/-- Conversion of a non-negative real to `uint_least32_t`: undefined if it does not fit. -/
def toU32 (v : ℚ) : Option Nat := if v < 4294967296 then some ⌊v⌋₊ else none

/-- `fmod(val, mult32)` for `val >= 0`. -/
def fmod32 (v : ℚ) : ℚ := v - 4294967296 * ((⌊v / 4294967296⌋₊ : Nat) : ℚ)

/-- The loop that writes whole words of a real; seed_impl.hpp:117-124. -/
def putRealWords : (k : Nat) → (val : ℚ) → GenState → GenRes × ℚ
  | 0, val, st => (.cont st, val)
  | k + 1, val, st =>
    match toU32 (fmod32 val) with
    | none => (.ub, val)
    | some word =>
      match put word st with
      | .cont st => putRealWords k (val / 4294967296) st
      | r => (r, val)

/-- The end of the body; seed_impl.hpp:115-127. -/
def realTail (bits avail : Nat) (val : ℚ) (st : GenState) : GenRes :=
  match (if bits ≥ 32 then putRealWords (avail / 32) val st else (.cont st, val)) with
  | (.cont st, val) =>
    match toU32 val with
    | none => .ub
    | some saved => .cont { st with remaining := if bits ≥ 32 then avail % 32 else avail, saved := saved }
  | (r, _) => r

/-- The body of the loop of `generate_from_real`, `val` being `eng() * multiplier`; seed_impl.hpp:96-127. -/
def realStep (bits : Nat) (val : ℚ) (st : GenState) : GenRes :=
  if bits < 32 ∧ bits < 32 - st.remaining then
    match toU32 val with
    | none => .ub
    | some v => .cont { st with saved := st.saved ||| ((v <<< st.remaining) % 2 ^ 32), remaining := st.remaining + bits }
  else if bits < 32 ∨ st.remaining ≠ 0 then
    let divisor := (1 <<< (32 - st.remaining)) % 2 ^ 32
    match toU32 (fmod32 val) with
    | none => .ub
    | some v =>
      let extra := v &&& ((divisor + 2 ^ 32 - 1) % 2 ^ 32)
      match put (st.saved ||| ((extra <<< st.remaining) % 2 ^ 32)) st with
      | .cont st' => realTail bits (bits - (32 - st.remaining)) (val / divisor) { st' with remaining := 0 }
      | r => r
  else realTail bits bits val st

/-- What `generate_from_real` does to the values `us` of the engine, the range having `n` elements; the number of
values left is returned with the words; seed_impl.hpp:85-129. -/
def realLoop (bits : Nat) (multiplier : ℚ) : List ℚ → GenState → Option (Option (List Nat × List ℚ))
  | [], _ => some none
  | u :: us, st =>
    match realStep bits (u * multiplier) st with
    | .ub => none
    | .done out => some (some (out, us))
    | .cont st => realLoop bits multiplier us st

/-- `generate_from_real(eng, begin, end)`; `bits` is `generator_bits<Engine>::value()`, `digits` those of the type;
`none` = undefined behaviour, `some none` = more values of the engine are needed; seed_impl.hpp:85-129. -/
def generateFromReal (digits bits n : Nat) (us : List ℚ) : Option (Option (List Nat × List ℚ)) :=
  realLoop bits (pow2 digits bits) us ⟨[], n, 0, 0⟩

/-- `generator_seed_seq<Generator>::generate`: each element is the next value of the generator (converted to 32
bits by the assignment); generator_seed_seq.hpp:29-34. -/
def fromGenerator {σ : Type} (next : σ → Option (Nat × σ)) : Nat → σ → Option (List Nat)
  | 0, _ => some []
  | n + 1, s => (next s).bind fun p => (fromGenerator next n p.2).map fun ws => p.1 % 2 ^ 32 :: ws

end SeedImpl
end Boost.Random
