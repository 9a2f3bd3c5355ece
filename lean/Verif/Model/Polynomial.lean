/-!
# Polynomials over GF(2) as arrays of digits

Model of `include/boost/random/detail/polynomial.hpp`. `B` is the number of bits of `digit_t`, that is, of `unsigned long`. An array is the
list of its digits, the one of the lowest powers first; a pointer into an array is the list of the digits from there to the end of the array.
`none` = access outside an array, or an endless loop. `std::size_t` does not overflow: the sizes are those of arrays in memory.
-/

namespace Boost.Random
namespace Gf2

/-- A function that writes through the pointer `out + k`. -/
def onTail (k : Nat) (f : List Nat → Option (List Nat)) (out : List Nat) : Option (List Nat) :=
  if k ≤ out.length then (f (out.drop k)).map (out.take k ++ ·) else none

/-- `add(size, lhs, rhs, output)`; polynomial.hpp:31-37. Where `output` is also `lhs` or `rhs` an element is read before it is written. -/
def add : (size : Nat) → (lhs rhs out : List Nat) → Option (List Nat)
  | 0, _, _, out => some out
  | k + 1, l :: ls, r :: rs, _ :: os => (add k ls rs os).map ((l ^^^ r) :: ·)
  | _ + 1, _, _, _ => none

section
variable (B : Nat)

/-- The loop of `add_shifted_inplace` and the last digit; polynomial.hpp:47-53. -/
def addShiftedLoop (shift : Nat) : (size : Nat) → (lhs : List Nat) → (prev : Nat) → (out : List Nat) → Option (List Nat)
  | 0, _, prev, o :: os => some ((o ^^^ (prev >>> (B - shift))) :: os)
  | k + 1, tmp :: ls, prev, o :: os =>
    (addShiftedLoop shift k ls tmp os).map ((o ^^^ ((tmp <<< shift) % 2 ^ B ||| prev >>> (B - shift))) :: ·)
  | _, _, _, _ => none

/-- `add_shifted_inplace(size, lhs, output, shift)`; polynomial.hpp:39-54. -/
def addShiftedInplace (size : Nat) (lhs out : List Nat) (shift : Nat) : Option (List Nat) :=
  if shift = 0 then add size lhs out out else addShiftedLoop B shift size lhs 0 out

/-- The loops over the bits `j` of digit `i` of `multiply_simple`; polynomial.hpp:64-68. -/
def simpleDigit (size : Nat) (d : Nat) (rhs : List Nat) (i : Nat) (out : List Nat) : Option (List Nat) :=
  (List.range B).foldlM (fun out j => if d.testBit j then onTail i (fun o => addShiftedInplace B size rhs o j) out else some out) out

/-- `multiply_simple(size, lhs, rhs, output)`; polynomial.hpp:56-70. The result is the `2*size` digits at `output`. -/
def multiplySimple (size : Nat) (lhs rhs : List Nat) : Option (List Nat) :=
  (List.range size).foldlM (fun out i => lhs[i]?.bind fun d => simpleDigit B size d rhs i out) (List.replicate (2 * size) 0)

/-- `multiply_karatsuba(size, lhs, rhs, output)`; polynomial.hpp:73-99. The result is the `2*size` digits at `output`. Each call is for a
smaller size, so that `size + 1` is enough as first argument. -/
def karatsuba : (fuel size : Nat) → (lhs rhs : List Nat) → Option (List Nat)
  | 0, _, _, _ => none
  | f + 1, size, lhs, rhs =>
    if size < 64 then multiplySimple B size lhs rhs
    else
      let cutoff := size / 2
      (karatsuba f cutoff lhs rhs).bind fun low =>
      (karatsuba f (size - cutoff) (lhs.drop cutoff) (rhs.drop cutoff)).bind fun high =>
      let output := low ++ high
      (add cutoff lhs (lhs.drop cutoff) (List.replicate (size - cutoff) 0)).bind fun local1 =>
      (if size % 2 = 1 then lhs[size - 1]?.map fun d => local1.set cutoff d else some local1).bind fun local1 =>
      (add cutoff (rhs.drop cutoff) rhs (List.replicate (size - cutoff) 0)).bind fun local2 =>
      (if size % 2 = 1 then rhs[size - 1]?.map fun d => local2.set cutoff d else some local2).bind fun local2 =>
      (karatsuba f (size - cutoff) local1 local2).bind fun local3 =>
      (add (cutoff * 2) output local3 local3).bind fun local3 =>
      (add ((size - cutoff) * 2) (output.drop (cutoff * 2)) local3 local3).bind fun local3 =>
      onTail cutoff (fun o => add ((size - cutoff) * 2) o local3 o) output

/-- `multiply_add_karatsuba(size, lhs, rhs, output)`; polynomial.hpp:101-108. -/
def multiplyAddKaratsuba (size : Nat) (lhs rhs out : List Nat) : Option (List Nat) :=
  (karatsuba B (size + 1) size lhs rhs).bind fun buf => add (size * 2) buf out out

/-- The loop of `multiply_add`; polynomial.hpp:124-135. Each round makes the sizes smaller in total, unless one of them is 0: then the loop
is endless. -/
def multiplyAdd : (fuel : Nat) → (lhs : List Nat) → (lhsSize : Nat) → (rhs : List Nat) → (rhsSize : Nat) → (out : List Nat) → Option (List Nat)
  | 0, _, _, _, _, _ => none
  | f + 1, lhs, ln, rhs, rn, out =>
    if ln ≠ 0 then
      let p := if ln < rn then ((rhs, rn), (lhs, ln)) else ((lhs, ln), (rhs, rn))
      (multiplyAddKaratsuba B p.2.2 p.1.1 p.2.1 out).bind fun out =>
        onTail p.2.2 (multiplyAdd f (p.1.1.drop p.2.2) (p.1.2 - p.2.2) p.2.1 p.2.2) out
    else some out

/-- `multiply(lhs, lhs_size, rhs, rhs_size, output)`; polynomial.hpp:110-116. The result is the digits at `output`. -/
def multiply (lhs : List Nat) (lhsSize : Nat) (rhs : List Nat) (rhsSize : Nat) : Option (List Nat) :=
  multiplyAdd B (lhsSize + rhsSize + 1) lhs lhsSize rhs rhsSize (List.replicate (lhsSize + rhsSize) 0)

/-- `copy_bits(x, low, high, out)`; polynomial.hpp:138-164. The result is the digits written to `out`. -/
def copyBits (x : List Nat) (low high : Nat) : Option (List Nat) :=
  let offset := low / B
  let x := x.drop offset
  let low := low - offset * B
  let high := high - offset * B
  let n := (high - low) / B
  ((List.range n).mapM fun i =>
    if low = 0 then x[i]? else x[i]?.bind fun a => x[i + 1]?.map fun b => (a >>> low) ||| ((b <<< (B - low)) % 2 ^ B)).bind fun out =>
  if (high - low) % B ≠ 0 then
    x[n]?.bind fun a =>
      (if low ≠ 0 ∧ (n + 1) * B < high then x[n + 1]?.map fun b => (a >>> low) ||| ((b <<< (B - low)) % 2 ^ B) else some (a >>> low)).map fun r =>
        out ++ [r &&& (2 ^ ((high - low) % B) - 1)]
  else some out

/-- The loop of `shift_left(val, size, shift)`; polynomial.hpp:171-176. -/
def shiftLeft (shift : Nat) : (size : Nat) → (prev : Nat) → (val : List Nat) → Option (List Nat)
  | 0, _, val => some val
  | k + 1, prev, tmp :: val => (shiftLeft shift k tmp val).map (((prev >>> (B - shift)) ||| (tmp <<< shift) % 2 ^ B) :: ·)
  | _ + 1, _, [] => none

/-- The loop of `sqr(val)`; polynomial.hpp:182-186. `i` is halved until it is 1. -/
def sqrLoop : (fuel i mask val : Nat) → Nat
  | 0, _, _, val => val
  | f + 1, i, mask, val =>
    if i > 1 then
      let val := (((val &&& (2 ^ B - 1 - mask)) <<< (i / 2)) % 2 ^ B) ||| (val &&& mask)
      let mask := mask &&& (mask >>> (i / 4))
      let mask := mask ||| ((mask <<< (i / 2)) % 2 ^ B)
      sqrLoop f (i / 2) mask val
    else val

/-- `sqr(val)`; polynomial.hpp:179-188. -/
def sqrDigit (val : Nat) : Nat := sqrLoop B B B (2 ^ (B / 2) - 1) val

/-- The loop of `sqr(val, size)`: digits `k - 1, ..., 0`; polynomial.hpp:194-198. -/
def sqrArray : (k : Nat) → (val : List Nat) → Option (List Nat)
  | 0, val => some val
  | k + 1, val =>
    val[k]?.bind fun x =>
      if k * 2 + 1 < val.length then
        sqrArray k ((val.set (k * 2) (sqrDigit B (x &&& (2 ^ (B / 2) - 1)))).set (k * 2 + 1) (sqrDigit B (x >>> (B / 2))))
      else none

/-- `sparse_mod`; polynomial.hpp:239-243. Of `_partial_quotient` its size; `_lower_bits` is not used. -/
structure SparseMod where
  quotientSize : Nat
  remainderBits : Nat
  blockBits : Nat
  indices : List Nat
  deriving DecidableEq, Repr

/-- The constructor of `sparse_mod`; polynomial.hpp:203-223. -/
def SparseMod.make (divisor : List Nat) (divisorBits : Nat) : Option SparseMod :=
  if (divisorBits + B - 1) / B ≤ divisor.length then
    let all := (List.range divisorBits).filter fun i => (divisor.getD (i / B) 0).testBit (i % B)
    if all = [] then none
    else
      let indices := all.dropLast
      let blockBits := match indices.getLast? with
        | none => divisorBits
        | some i => divisorBits - i - 1
      some ⟨(blockBits + B - 1) / B, divisorBits - 1, blockBits, indices⟩
  else none

/-- The loop over the indices; polynomial.hpp:231-234. -/
def SparseMod.addAll (m : SparseMod) (quotient : List Nat) (blockStart blockSize : Nat) (dividend : List Nat) : Option (List Nat) :=
  m.indices.foldlM (fun dividend i =>
    let pos := i + blockStart - m.remainderBits
    onTail (pos / B) (fun o => addShiftedInplace B blockSize quotient o (pos % B)) dividend) dividend

/-- `sparse_mod::operator()`; polynomial.hpp:224-238. The subtraction `dividend_bits - _block_bits` does not wrap around, `_block_bits` being
at most `_remainder_bits + 1`. Each round makes `dividend_bits` smaller, unless `_block_bits` is 0, which it is not. -/
def SparseMod.run (m : SparseMod) : (fuel : Nat) → (dividend : List Nat) → (dividendBits : Nat) → Option (List Nat)
  | 0, _, _ => none
  | f + 1, dividend, dividendBits =>
    if dividendBits > m.remainderBits then
      let blockStart := max (dividendBits - m.blockBits) m.remainderBits
      let blockSize := (dividendBits - blockStart + B - 1) / B
      (copyBits B dividend blockStart dividendBits).bind fun quotient =>
        if quotient.length ≤ m.quotientSize then
          (m.addAll B quotient blockStart blockSize dividend).bind fun dividend =>
          (onTail (blockStart / B) (fun o => addShiftedInplace B blockSize quotient o (blockStart % B)) dividend).bind fun dividend =>
          m.run f dividend blockStart
        else none
    else some dividend

/-- `while(i--)`: the bits `i - 1, ..., 0` of the exponent; polynomial.hpp:266-274. -/
def modPowLoop (exponent : Nat) (mod : List Nat) (modBits n : Nat) (m : SparseMod) : (i : Nat) → (out : List Nat) → Option (List Nat)
  | 0, out => some out
  | i + 1, out =>
    (sqrArray B n out).bind fun out =>
    (m.run B (2 * modBits) out (2 * modBits - 1)).bind fun out =>
    (if exponent.testBit i then
      (shiftLeft B 1 n 0 out).bind fun out =>
        out[(modBits - 1) / B]?.bind fun d => if d.testBit ((modBits - 1) % B) then add n out mod out else some out
    else some out).bind fun out => modPowLoop exponent mod modBits n m i out

/-- `mod_pow_x(exponent, mod, mod_bits, out)`; polynomial.hpp:249-275. The array at `out` has `2*n` digits, `n` the number of digits of `mod`
that are used, and is zero before (it is part of a new vector). The exponent has 64 bits. -/
def modPowArray (exponent : Nat) (mod : List Nat) (modBits : Nat) (out : List Nat) : Option (List Nat) :=
  let n := (modBits + B - 1) / B
  if 1 ≤ n ∧ n ≤ out.length then
    if exponent = 0 then some (1 :: List.replicate (n - 1) 0 ++ out.drop n)
    else
      let out := 2 :: List.replicate (n - 1) 0 ++ out.drop n
      (SparseMod.make B mod modBits).bind fun m => modPowLoop B exponent mod modBits n m exponent.log2 out
  else none

/-- `polynomial`; polynomial.hpp:342-343. -/
structure Poly where
  storage : List Nat
  size : Nat
  deriving DecidableEq, Repr

/-- `polynomial()`; polynomial.hpp:282. -/
def Poly.empty : Poly := ⟨[], 0⟩

/-- `resize(n)`; polynomial.hpp:329-338. -/
def Poly.resize (p : Poly) (n : Nat) : Poly :=
  let len := (n + B - 1) / B
  let s := p.storage.take len ++ List.replicate (len - p.storage.length) 0
  ⟨if n % B ≠ 0 then s.set (len - 1) (s.getD (len - 1) 0 &&& (2 ^ (n % B) - 1)) else s, n⟩

/-- `ensure_bit(i)`; polynomial.hpp:344-349. -/
def Poly.ensureBit (p : Poly) (i : Nat) : Poly := if i ≥ p.size then p.resize B (i + 1) else p

/-- `p[i]` of a constant polynomial; polynomial.hpp:317-324. -/
def Poly.get (p : Poly) (i : Nat) : Option Bool :=
  if i < p.size then p.storage[i / B]?.map fun d => d.testBit (i % B) else some false

/-- `p[i]` of a polynomial that is not constant, as a value; polynomial.hpp:311-316, 287. -/
def Poly.getMut (p : Poly) (i : Nat) : Option (Bool × Poly) :=
  let p := p.ensureBit B i
  p.storage[i / B]?.map fun d => (d.testBit (i % B), p)

/-- `p[i] = b`; polynomial.hpp:311-316, 288-296. -/
def Poly.assign (p : Poly) (i : Nat) (b : Bool) : Option Poly :=
  let p := p.ensureBit B i
  p.storage[i / B]?.map fun d =>
    { p with storage := p.storage.set (i / B) (if b then d ||| 2 ^ (i % B) else d &&& (2 ^ B - 1 - 2 ^ (i % B))) }

/-- `p[i] ^= b`; polynomial.hpp:311-316, 297-301. -/
def Poly.flip (p : Poly) (i : Nat) (b : Bool) : Option Poly :=
  let p := p.ensureBit B i
  p.storage[i / B]?.map fun d => { p with storage := p.storage.set (i / B) (d ^^^ (b.toNat <<< (i % B))) }

/-- `normalize()`; polynomial.hpp:350-354. Each round makes the size one smaller. -/
def Poly.normalizeLoop : (fuel : Nat) → Poly → Option Poly
  | 0, p => some p
  | f + 1, p => if p.size ≠ 0 then (p.getMut B (p.size - 1)).bind fun r => if r.1 then some r.2 else normalizeLoop f (r.2.resize B (r.2.size - 1)) else some p

/-- `normalize()` with enough rounds; polynomial.hpp:350-354. -/
def Poly.normalize (p : Poly) : Option Poly := p.normalizeLoop B p.size

/-- `operator*`; polynomial.hpp:357-366. Taking the address of the first element of an empty vector is undefined. -/
def Poly.mul (lhs rhs : Poly) : Option Poly :=
  if lhs.storage = [] ∨ rhs.storage = [] then none
  else (multiply B lhs.storage lhs.storage.length rhs.storage rhs.storage.length).map fun s => ⟨s, lhs.size + rhs.size⟩

/-- `mod_pow_x(exponent, mod)`; polynomial.hpp:368-378. -/
def Poly.modPow (exponent : Nat) (mod : Poly) : Option Poly :=
  (mod.normalize B).bind fun mod =>
    if mod.storage = [] then none
    else (modPowArray B exponent mod.storage mod.size (List.replicate (mod.storage.length * 2) 0)).map fun s =>
      (⟨s, mod.size * 2⟩ : Poly).resize B (mod.size - 1)

end

end Gf2
end Boost.Random
