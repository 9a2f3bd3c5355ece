import Verif.Model.MersenneTwister
import Verif.Model.Polynomial

/-!
# Mersenne Twister: `discard`

Model of `discard` and what it calls in `include/boost/random/mersenne_twister.hpp`. `B` is the number of bits of `digit_t` of the
polynomials (`unsigned long`). `none` = access outside an array, a failed assertion, or what the polynomials cannot do.
-/

namespace Boost.Random
namespace Mt
open Gf2

section
variable (P : Params)

/-- `num_bits = w*n - r`; mersenne_twister.hpp:409, 428, 469. -/
def numBits : Nat := P.w * P.n - P.r

/-- `if(i >= n) twist(); ... x[i++]`; mersenne_twister.hpp:415-416, 436-441, 460-461. -/
def rawNext (st : BlockEng Nat) : Option (Nat × BlockEng Nat) :=
  (if st.i ≥ P.n then (twist P st.x).map fun x => (⟨x, 0⟩ : BlockEng Nat) else some st).bind fun st =>
    st.x[st.i]?.map fun z => (z, ⟨st.x, st.i + 1⟩)

/-- The first loop of `reconstruct_state(p)`, over the `cnt` values of `j` from `j` on; `p` is given by its coefficients (as read by
`operator[]` of a constant polynomial); mersenne_twister.hpp:470-471. -/
def fillLast (p : Nat → Option Bool) : (cnt j : Nat) → (x : List Nat) → Option (List Nat)
  | 0, _, x => some x
  | c + 1, j, x => (p j).bind fun b => if j % P.n < x.length then fillLast p c (j + 1) (x.set (j % P.n) b.toNat) else none

/-- `y1` in `reconstruct_state(p)`; mersenne_twister.hpp:476-479. -/
def unshift (b : Bool) (y : Nat) : Nat :=
  if b then (((y ^^^ P.a) <<< 1) % 2 ^ P.bits) ||| 1 else (y <<< 1) % 2 ^ P.bits

/-- The second loop of `reconstruct_state(p)`, for the `cnt` values of `j` from `cnt + n - 2` down to `n - 1`; mersenne_twister.hpp:473-482. `j - n + 1`
is computed modulo 2 to the width of `size_t`: for `j = n - 1` it is 0. -/
def reconstructLoop (p : Nat → Option Bool) : (cnt : Nat) → (y0 : Nat) → (x : List Nat) → Option (List Nat)
  | 0, _, x => some x
  | c + 1, y0, x =>
    let j := c + 1 + P.n - 2
    x[j % P.n]?.bind fun xj => x[(j + P.m) % P.n]?.bind fun xm => (p (j + 1 - P.n)).bind fun b =>
      let y1 := unshift P b (xj ^^^ xm)
      if (j + 1) % P.n < x.length then reconstructLoop p c y1 (x.set ((j + 1) % P.n) (mix P y0 y1)) else none

/-- `reconstruct_state(p)`; mersenne_twister.hpp:465-484. -/
def reconstruct (p : Nat → Option Bool) (x : List Nat) : Option (BlockEng Nat) :=
  let k := numBits P
  (fillLast P p P.n (k - P.n + 1) x).bind fun x => (reconstructLoop P p (k + 3 - P.n) 0 x).map fun x => ⟨x, 0⟩

variable (B : Nat)

/-- The loops of `as_polynomial` and of `discard_many` that take the low bits of `cnt` elements: coefficient `pos j` is the bit of
element `j`; mersenne_twister.hpp:459-462, 410-417. -/
def lowBits (pos : Nat → Nat) : (cnt j : Nat) → BlockEng Nat → Poly → Option (BlockEng Nat × Poly)
  | 0, _, st, p => some (st, p)
  | c + 1, j, st, p => (rawNext P st).bind fun r => (p.assign B (pos j) (decide (r.1 &&& 1 ≠ 0))).bind fun p => lowBits pos c (j + 1) r.2 p

/-- `as_polynomial(size)`; mersenne_twister.hpp:457-464. -/
def asPolynomial (size : Nat) (st : BlockEng Nat) : Option (BlockEng Nat × Poly) := lowBits P B id size 0 st Poly.empty

/-- The loop with the assertions; mersenne_twister.hpp:435-442. -/
def skipLoop : (cnt j : Nat) → BlockEng Nat → Option (BlockEng Nat)
  | 0, _, st => some st
  | c + 1, j, st =>
    (rawNext P st).bind fun r => if r.1 &&& 1 = (if j = numBits P - 1 then 1 else 0) then skipLoop c (j + 1) r.2 else none

/-- The inner loop, over `cnt` values of `k` from `k` on; mersenne_twister.hpp:450-452. The polynomials may grow. -/
def phiInner (j : Nat) : (cnt k : Nat) → (phi next : Poly) → Option (Poly × Poly)
  | 0, _, phi, next => some (phi, next)
  | c + 1, k, phi, next =>
    (next.getMut B (k - j - 1)).bind fun r => (phi.flip B (numBits P - k - 1) r.1).bind fun phi => phiInner j c (k + 1) phi r.2

/-- The outer loop, over `cnt` values of `j` from `j` on; mersenne_twister.hpp:446-454. -/
def phiLoop : (cnt j : Nat) → (phi next : Poly) → Option Poly
  | 0, _, phi, _ => some phi
  | c + 1, j, phi, next =>
    (next.getMut B j).bind fun r => (phi.getMut B (numBits P - j - 1)).bind fun s =>
      let val := r.1 ^^ s.1
      (s.2.assign B (numBits P - j - 1) val).bind fun phi =>
        (if val then phiInner P B j (numBits P - (j + 1)) (j + 1) phi r.2 else some (phi, r.2)).bind fun q => phiLoop c (j + 1) q.1 q.2

/-- `get_characteristic_polynomial()`; mersenne_twister.hpp:426-456. The engine `tmp` is constructed with the default seed, 5489
(mersenne_twister.hpp:89, 107, 133); all of its elements are overwritten. -/
def characteristicPolynomial : Option Poly :=
  let k := numBits P
  (Poly.empty.assign B (k - 1) true).bind fun helper =>
  (seed P (5489 % 2 ^ P.bits)).bind fun tmp =>
  (reconstruct P (helper.get B) tmp.x).bind fun tmp =>
  (skipLoop P k 0 tmp).bind fun tmp =>
  (Poly.empty.assign B k true).bind fun phi =>
  (asPolynomial P B k tmp).bind fun r => phiLoop P B k 0 phi r.2

/-- `result[j] = gh[2*num_bits - j - 1]` for `cnt` values of `j` from `j` on; mersenne_twister.hpp:421-423. -/
def resultLoop : (cnt j : Nat) → (result gh : Poly) → Option Poly
  | 0, _, result, _ => some result
  | c + 1, j, result, gh =>
    (gh.getMut B (2 * numBits P - j - 1)).bind fun r => (result.assign B j r.1).bind fun result => resultLoop c (j + 1) result r.2

/-- `discard_many(z)`; mersenne_twister.hpp:390-425. -/
def discardMany (z : Nat) (st : BlockEng Nat) : Option (BlockEng Nat) :=
  let k := numBits P
  (characteristicPolynomial P B).bind fun phi =>
  (phi.modPow B z).bind fun g =>
  (lowBits P B (fun j => 2 * k - j - 1) (k * 2) 0 st Poly.empty).bind fun h =>
  (g.mul B h.2).bind fun gh =>
  (resultLoop P B (k + 1) 0 Poly.empty gh).bind fun result => reconstruct P (result.get B) h.1.x

/-- `discard(z)`; mersenne_twister.hpp:203-215. `threshold` is `BOOST_RANDOM_MERSENNE_TWISTER_DISCARD_THRESHOLD`, 10000000 unless defined
before the file is included. -/
def discard (threshold z : Nat) (st : BlockEng Nat) : Option (BlockEng Nat) :=
  if z > threshold then discardMany P B z st
  else (List.range z).foldlM (fun st _ => (next P st).map (·.2)) st

end

end Mt
end Boost.Random
