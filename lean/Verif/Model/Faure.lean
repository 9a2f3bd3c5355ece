import Verif.Model.Qrng
import Mathlib.Algebra.Order.Floor.Ring
import Mathlib.Data.Rat.Floor

/-!
# The Faure engine

Model of `include/boost/random/faure.hpp`. `SeqSizeT` is an unsigned type of `digits` bits that is not narrower than `int`, `packed_uint_t` is
`unsigned short` as in the default table: sums of two values are formed in `int`. Floating-point numbers are rational numbers, the operations
on them rounded by `fl`. `none` = undefined behaviour (access outside an array, value not initialized).
-/

namespace Boost.Random
namespace Qrng

/-- `prim_a`; faure.hpp:42-58. -/
def faurePrimes : List Nat := [
  2, 3, 5, 7, 11, 13, 17, 19, 23, 29, 31, 37, 41, 43, 47, 53,
  59, 61, 67, 71, 73, 79, 83, 89, 97, 101, 103, 107, 109, 113,
  127, 131, 137, 139, 149, 151, 157, 163, 167, 173, 179, 181,
  191, 193, 197, 199, 211, 223, 227, 229, 233, 239, 241, 251,
  257, 263, 269, 271, 277, 281, 283, 293, 307, 311, 313, 317,
  331, 337, 347, 349, 353, 359, 367, 373, 379, 383, 389, 397,
  401, 409, 419, 421, 431, 433, 439, 443, 449, 457, 461, 463,
  467, 479, 487, 491, 499, 503, 509, 521, 523, 541, 547, 557,
  563, 569, 571, 577, 587, 593, 599, 601, 607, 613, 617, 619,
  631, 641, 643, 647, 653, 659, 661, 673, 677, 683, 691, 701,
  709, 719, 727, 733, 739, 743, 751, 757, 761, 769, 773, 787,
  797, 809, 811, 821, 823, 827, 829, 839, 853, 857, 859, 863,
  877, 881, 883, 887, 907, 911, 919, 929, 937, 941, 947, 953,
  967, 971, 977, 983, 991, 997, 1009, 1013, 1019, 1021, 1031,
  1033, 1039, 1049, 1051, 1061, 1063, 1069, 1087, 1091, 1093,
  1097, 1103, 1109, 1117]

/-- `primes::lower_bound(n)`; faure.hpp:40-63. `std::lower_bound` in a sorted array is the first element that is not less. -/
def faurePrime (n : Nat) : Res Nat :=
  if n = 0 ∨ n > faurePrimes.getLastD 0 then .throw
  else match faurePrimes.find? fun p => ¬ p < n with
    | some p => .ok p
    | none => .ub

/-- `integer_log(base, arg)`; faure.hpp:76-85. Each round makes `arg`, of at most `fuel` bits, smaller by a bit. -/
def integerLog (base : Nat) : (fuel arg ilog : Nat) → Nat
  | 0, _, ilog => ilog
  | f + 1, arg, ilog => if base ≤ arg then integerLog base f (arg / base) (ilog + 1) else ilog

/-- The loop of `integer_pow(base, e)`; faure.hpp:92-98. `mul` is the multiplication of the type. `e` has at most `fuel` bits. -/
def integerPowLoop (mul : Nat → Nat → Option Nat) : (fuel base e result : Nat) → Option Nat
  | 0, _, _, result => some result
  | f + 1, base, e, result =>
    if e = 0 then some result
    else (if e % 2 = 1 then mul result base else some result).bind fun result =>
      (mul base base).bind fun base => integerPowLoop mul f base (e / 2) result

/-- Multiplication of an unsigned type. -/
def mulUnsigned (digits a b : Nat) : Option Nat := some (a * b % 2 ^ digits)

/-- Multiplication of not negative values of a signed type with `digits` value bits. -/
def mulSigned (digits a b : Nat) : Option Nat := if a * b < 2 ^ digits then some (a * b) else none

/-- `integer_pow(base, e)`; faure.hpp:88-100. -/
def integerPow (mul : Nat → Nat → Option Nat) (digits base e : Nat) : Option Nat := integerPowLoop mul digits base e 1

/-- `binomial_coefficients`; faure.hpp:229-236. `qs_pow` is not initialized by the constructor. -/
structure Binom where
  base : Nat
  coeff : List Nat
  ytemp : List ℚ
  pow : Option Nat
  deriving DecidableEq

/-- `resize(dimension)` and the constructor; faure.hpp:118-130. A lattice that exists keeps `ytemp` and `qs_pow`; as `coeff` is empty,
`update` recomputes both before they are read. -/
def binomResize (lowerBound : Nat → Res Nat) (dimension : Nat) : Res Binom := (lowerBound dimension).bind fun b => .ok ⟨b, [], [], none⟩

/-- `size_hint(n)`; faure.hpp:170-173. -/
def sizeHint (n : Nat) : Nat := n * (n + 1) / 2

/-- The index of `upper_element(i, j, dim)`; faure.hpp:175-181. -/
def upperIndex (i j dim : Nat) : Nat := i * (2 * dim - i + 1) / 2 + j - i

/-- `upper_element(i, j, dim)` as a value; faure.hpp:175-181. -/
def getUpper (coeff : List Nat) (i j dim : Nat) : Option Nat := if i < dim ∧ j < dim ∧ i ≤ j then coeff[upperIndex i j dim]? else none

/-- `upper_element(i, j, dim) = v`; faure.hpp:175-181. -/
def setUpper (coeff : List Nat) (i j dim v : Nat) : Option (List Nat) :=
  if i < dim ∧ j < dim ∧ i ≤ j ∧ upperIndex i j dim < coeff.length then some (coeff.set (upperIndex i j dim) v) else none

/-- `compute_coefficients(n)`; faure.hpp:203-226. -/
def computeCoefficients (base n : Nat) : Option (List Nat) :=
  (setUpper (List.replicate (sizeHint n) 0) 0 0 n 1).bind fun c =>
  ((List.range' 1 (n - 1)).foldlM (fun c i => (setUpper c 0 i n 1).bind fun c => setUpper c i i n 1) c).bind fun c =>
  (List.range' 1 (n - 1)).foldlM (fun c i =>
    (List.range' (i + 1) (n - (i + 1))).foldlM (fun c j =>
      (getUpper c i (j - 1) n).bind fun x => (getUpper c (i - 1) (j - 1) n).bind fun y => setUpper c i j n ((x + y) % base)) c) c

section
variable (fl : ℚ → ℚ)

/-- The loop of `compute_recip(seq, out)`; faure.hpp:190-200. `out` goes backwards: `written` is the values written, the last one first.
`k` has at most `fuel` digits. -/
def recipLoop (base : Nat) : (fuel k seq : Nat) → (r : ℚ) → (written : List ℚ) → ℚ × List ℚ
  | 0, _, _, r, written => (r, written)
  | f + 1, k, seq, r, written =>
    if k ≠ 0 then
      let m := seq % k
      let v := fl (((seq - m) / k : Nat) : ℚ)
      recipLoop base f (k / base) m (fl (fl (r + v) / fl base)) (v :: written)
    else (r, written)

/-- `compute_recip(seq, ytemp.rbegin())`; faure.hpp:183-201: the value and the new `ytemp`. -/
def computeRecip (digits base pow seq : Nat) (ytemp : List ℚ) : Option (ℚ × List ℚ) :=
  let (r, written) := recipLoop fl base (digits + 1) pow seq 0 []
  if written.length ≤ ytemp.length then some (r, ytemp.take (ytemp.length - written.length) ++ written) else none

/-- `std::fmod` of numbers that are not negative. Its result is exact. -/
def fmod (x y : ℚ) : ℚ := x - y * ⌊x / y⌋

/-- `ztemp`; faure.hpp:156-158. -/
def ztemp (coeff : List Nat) (ytemp : List ℚ) (i hisum : Nat) : Option ℚ :=
  ytemp[i]?.bind fun y => (getUpper coeff i i hisum).bind fun u =>
  (List.range' (i + 1) (hisum - (i + 1))).foldlM (fun z j =>
    ytemp[j]?.bind fun y => (getUpper coeff i j hisum).map fun u => fl (z + fl (y * u))) (fl (y * u))

/-- The loop over `i` for one coordinate: the coordinate and the new `ytemp`; faure.hpp:151-164. -/
def faureCoord (base : Nat) (coeff : List Nat) (hisum : Nat) (ytemp : List ℚ) : Option (ℚ × List ℚ) :=
  ((List.range hisum).foldlM (fun (s : ℚ × ℚ × List ℚ) i =>
    (ztemp fl coeff s.2.2 i hisum).map fun z =>
      let y := fmod z (fl base)
      let r := fl (s.2.1 * fl base)
      (fl (s.1 + fl (y / r)), r, s.2.2.set i y)) (0, fl 1, ytemp)).map fun s => (s.1, s.2.2)

/-- The loop over the other coordinates, `count` of them; faure.hpp:148-165. -/
def faureCoords (base : Nat) (coeff : List Nat) (hisum : Nat) : (count : Nat) → (ytemp : List ℚ) → Option (List ℚ × List ℚ)
  | 0, ytemp => some ([], ytemp)
  | c + 1, ytemp =>
    (faureCoord fl base coeff hisum ytemp).bind fun r => (faureCoords base coeff hisum c r.2).map fun s => (r.1 :: s.1, s.2)

/-- `update(seq, first, last)` for a range of `dimension` elements: the new elements; faure.hpp:132-167. -/
def binomUpdate (digits : Nat) (l : Binom) (seq dimension : Nat) : Option (List ℚ × Binom) :=
  match dimension with
  | 0 => some ([], l)
  | count + 1 =>
    let ilog := integerLog l.base digits seq 0
    let hisum := ilog + 1
    (if l.coeff.length ≠ sizeHint hisum then
      (computeCoefficients l.base hisum).bind fun c => (integerPow (mulUnsigned digits) digits l.base ilog).map fun p =>
        (⟨l.base, c, l.ytemp.take hisum ++ List.replicate (hisum - l.ytemp.length) 0, some p⟩ : Binom)
    else some l).bind fun l =>
    l.pow.bind fun pow => (computeRecip fl digits l.base pow seq l.ytemp).bind fun r =>
    (faureCoords fl l.base l.coeff hisum count r.2).map fun s => (r.1 :: s.1, { l with ytemp := s.2 })

/-- `compute_seq(seq)`; faure.hpp:348-352. The sign check is empty for an unsigned type. -/
def faureCompute (digits : Nat) (l : Binom) (quasi : List ℚ) (seq : Nat) : Res (Binom × List ℚ) :=
  match binomUpdate fl digits l seq quasi.length with
  | some r => .ok (r.2, r.1)
  | none => .ub

/-- `faure_engine<RealType, SeqSizeT, PrimeTable>`; faure.hpp:267-354. -/
def faure (digits : Nat) (lowerBound : Nat → Res Nat) : Derived Binom ℚ where
  digits := digits
  zero := 0
  resize := binomResize lowerBound
  seed0 l quasi := faureCompute fl digits l quasi 0
  seed l quasi _ init := faureCompute fl digits l quasi init
  compute l quasi seq := faureCompute fl digits l quasi seq

end

end Qrng
end Boost.Random
