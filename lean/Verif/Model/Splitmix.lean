import Mathlib.Data.Nat.Digits.Defs

/-!
# `splitmix64`

Model of `include/boost/random/splitmix64.hpp`. The state is `state_`, a number below `2^64`; all
arithmetic is on `std::uint64_t`. Streams are lists of characters here, since `operator>>` reads
single characters.
-/

namespace Boost.Random.Splitmix

/-- `concatenate(word1, word2)`; splitmix64.hpp:38-41. -/
def concatenate (word1 word2 : Nat) : Nat := (word1 <<< 32) % 2 ^ 64 ||| word2

/-- `seed(value)` for an integer; splitmix64.hpp:51-61. -/
def seed (value : Nat) : Nat := if value = 0 then 0xA164B43C8F634A13 else value

/-- `seed(seq)`: from the two words written by `seq.generate`; splitmix64.hpp:67-73. -/
def seedSeq (w0 w1 : Nat) : Nat := concatenate w0 w1

/-- The output function of `next()`; splitmix64.hpp:104-107. -/
def mix (z : Nat) : Nat :=
  let z := (z ^^^ z >>> 30) * 0xBF58476D1CE4E5B9 % 2 ^ 64
  let z := (z ^^^ z >>> 27) * 0x94D049BB133111EB % 2 ^ 64
  z ^^^ z >>> 31

/-- `next()`, `operator()`; splitmix64.hpp:101-114. Never undefined. -/
def next (s : Nat) : Option (Nat × Nat) :=
  let s := (s + 0x9E3779B97F4A7C15) % 2 ^ 64
  some (mix s, s)

/-- `discard(z)`; splitmix64.hpp:117-123. -/
def discard (z s : Nat) : Option Nat :=
  match z with
  | 0 => some s
  | z + 1 => (next s).bind fun p => discard z p.2

/-- `generate(first, last)` over `n` elements; splitmix64.hpp:174-180. -/
def generate (n s : Nat) : Option (List Nat × Nat) :=
  match n with
  | 0 => some ([], s)
  | n + 1 => (next s).bind fun p => (generate n p.2).map fun q => (p.1 :: q.1, q.2)

/-- `min()`, `max()`; splitmix64.hpp:186-198. -/
def minv : Nat := 0

/-- `max()`; splitmix64.hpp:186-189. -/
def maxv : Nat := 2 ^ 64 - 1

/-- A character input stream: characters left, and whether it is good. -/
structure CStream where
  chars : List Char
  ok : Bool
  deriving DecidableEq

/-- `os << n` for an unsigned integer in decimal (standard library, assumed). -/
def decimal (n : Nat) : List Char :=
  if n = 0 then ['0'] else ((Nat.digits 10 n).reverse).map Nat.digitChar

/-- `operator<<`; splitmix64.hpp:144-151. -/
def write (s : Nat) : List Char := decimal s

/-- White space skipped by `ist >> val` (classic locale). -/
def isSpace (c : Char) : Bool := c = ' ' || c = '\t' || c = '\n' || c = '\r' || c.toNat = 11 || c.toNat = 12

/-- `std::isdigit`. -/
def isDigit (c : Char) : Bool := 48 ≤ c.toNat && c.toNat ≤ 57

/-- The loop `while (ist >> val) if (isdigit(val)) sstate.push_back(val)`; splitmix64.hpp:158-165. It
ends only when the extraction fails, that is at the end of the stream. -/
def readLoop : List Char → List Char
  | [] => []
  | c :: cs => if isSpace c then readLoop cs else if isDigit c then c :: readLoop cs else readLoop cs

/-- `strtoull(str, nullptr, 10)` on a string of digits (standard library, assumed): the value, or the
largest value if it does not fit. -/
def strtoull (ds : List Char) : Nat :=
  Nat.min (2 ^ 64 - 1) (ds.foldl (fun n c => 10 * n + (c.toNat - 48)) 0)

/-- `operator>>`; splitmix64.hpp:154-170. The new state does not depend on the old one. -/
def read (s : CStream) : CStream × Nat :=
  if s.ok then (⟨[], false⟩, strtoull (readLoop s.chars)) else (s, strtoull [])

/-- `operator==`; splitmix64.hpp:129-132. -/
def eq (a b : Nat) : Bool := a == b

end Boost.Random.Splitmix
