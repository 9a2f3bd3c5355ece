/-!
# Specification of `seed_seq::generate`

A transcription of the C++ standard, [rand.util.seedseq]: 32-bit arithmetic, indices of the range taken modulo its
length `n`.
-/

namespace Boost.Random.Spec.SeedSeqStd

/-- Contents of the range, index taken modulo `n`. -/
abbrev Range := Nat → BitVec 32

/-- `begin[i] = x`. -/
def store (n : Nat) (a : Range) (i : Nat) (x : BitVec 32) : Range := fun j => if j % n = i % n then x else a j

/-- `T(x) = x xor (x rshift 27)`. -/
def T (x : BitVec 32) : BitVec 32 := x ^^^ (x >>> 27)

/-- `t` as a function of the length. -/
def t (n : Nat) : Nat := if 623 ≤ n then 11 else if 68 ≤ n then 7 else if 39 ≤ n then 5 else if 7 ≤ n then 3 else (n - 1) / 2

/-- `p`. -/
def p (n : Nat) : Nat := (n - t n) / 2

/-- `q`. -/
def q (n : Nat) : Nat := p n + t n

/-- Step `k` of the first pass over a range of length `n` with the stored sequence `v`; index `k - 1` is written
`k + n - 1`. -/
def pass1 (n : Nat) (v : List (BitVec 32)) (a : Range) (k : Nat) : Range :=
  let r1 := 1664525#32 * T (a k ^^^ a (k + p n) ^^^ a (k + n - 1))
  let r2 := r1 + (if k = 0 then BitVec.ofNat 32 v.length
                  else if k ≤ v.length then BitVec.ofNat 32 (k % n) + v.getD (k - 1) 0
                  else BitVec.ofNat 32 (k % n))
  let a := store n a (k + p n) (a (k + p n) + r1)
  let a := store n a (k + q n) (a (k + q n) + r2)
  store n a k r2

/-- Step `k` of the second pass. -/
def pass2 (n : Nat) (a : Range) (k : Nat) : Range :=
  let r3 := 1566083941#32 * T (a k + a (k + p n) + a (k + n - 1))
  let r4 := r3 - BitVec.ofNat 32 (k % n)
  let a := store n a (k + p n) (a (k + p n) ^^^ r3)
  let a := store n a (k + q n) (a (k + q n) ^^^ r4)
  store n a k r4

/-- Passes `i`, `i + 1`, ..., `i + c - 1`. -/
def iter (f : Range → Nat → Range) : (c i : Nat) → Range → Range
  | 0, _, a => a
  | c + 1, i, a => iter f c (i + 1) (f a i)

/-- The contents of a range of length `n` after `generate`. -/
def generated (v : List (BitVec 32)) (n : Nat) : List (BitVec 32) :=
  let m := max (v.length + 1) n
  let a := iter (pass1 n v) m 0 fun _ => 0x8b8b8b8b#32
  let a := iter (pass2 n) n m a
  (List.range n).map a

end Boost.Random.Spec.SeedSeqStd
