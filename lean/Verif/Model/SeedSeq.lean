/-!
# `seed_seq`

Model of `include/boost/random/seed_seq.hpp`. The stored vector is a list of numbers below `2^32`; the destination
is an array of `n` elements of an unsigned type of `D >= 32` bits; `std::size_t` has 64 bits.
-/

namespace Boost.Random
namespace SeedSeq

/-- `value_type mask = 0xffffffffu`; seed_seq.hpp:80. -/
def mask : Nat := 0xffffffff

/-- `t`; seed_seq.hpp:71-76, for `n >= 1`. -/
def tOf (n : Nat) : Nat := if n ≥ 623 then 11 else if n ≥ 68 then 7 else if n ≥ 39 then 5 else if n ≥ 7 then 3 else (n - 1) / 2

/-- `p`; seed_seq.hpp:77. -/
def pOf (n : Nat) : Nat := (n - tOf n) / 2

/-- `q`; seed_seq.hpp:78. -/
def qOf (n : Nat) : Nat := pOf n + tOf n

/-- `*(first + i % n)`. -/
def el (xs : List Nat) (i : Nat) : Nat := xs.getD (i % xs.length) 0

/-- `*(first + i % n) = v`. -/
def put (xs : List Nat) (i v : Nat) : List Nat := xs.set (i % xs.length) v

/-- The body of the first loop; seed_seq.hpp:82-93. -/
def body1 (D : Nat) (v : List Nat) (xs : List Nat) (k : Nat) : List Nat :=
  let n := xs.length
  let p := pOf n
  let q := qOf n
  let s := v.length
  let r1 := (el xs k ^^^ el xs (k + p) ^^^ el xs (k + n - 1)) % 2 ^ D
  let r1 := r1 ^^^ (r1 >>> 27)
  let r1 := (r1 * 1664525) % 2 ^ D &&& mask
  let r2 := ((r1 + (if k = 0 then s else if k ≤ s then k % n + v.getD (k - 1) 0 else k % n)) % 2 ^ 64) % 2 ^ D
  let xs := put xs (k + p) ((el xs (k + p) + r1) % 2 ^ D &&& mask)
  let xs := put xs (k + q) ((el xs (k + q) + r2) % 2 ^ D &&& mask)
  put xs k r2

/-- The body of the second loop; seed_seq.hpp:95-104. -/
def body2 (D : Nat) (xs : List Nat) (k : Nat) : List Nat :=
  let n := xs.length
  let p := pOf n
  let q := qOf n
  let r3 := (el xs k + el xs (k + p) + el xs (k + n - 1)) % 2 ^ D &&& mask
  let r3 := r3 ^^^ (r3 >>> 27)
  let r3 := (r3 * 1566083941) % 2 ^ D &&& mask
  let r4 := ((r3 + (2 ^ 64 - k % n % 2 ^ 64)) % 2 ^ 64) % 2 ^ D
  let xs := put xs (k + p) (el xs (k + p) ^^^ r3)
  let xs := put xs (k + q) (el xs (k + q) ^^^ r4)
  put xs k r4

/-- `generate(first, last)` on a range of `n` elements; `none` = undefined behaviour: on an empty range the first
iteration computes `k % 0`; seed_seq.hpp:63-105. -/
def generate (D : Nat) (v : List Nat) (n : Nat) : Option (List Nat) :=
  if n = 0 then none
  else
    let m := max (v.length + 1) n
    let xs := (List.range m).foldl (body1 D v) (List.replicate n 0x8b8b8b8b)
    some (((List.range n).map (m + ·)).foldl (body2 D) xs)

end SeedSeq
end Boost.Random
