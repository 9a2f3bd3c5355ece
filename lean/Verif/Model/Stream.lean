import Verif.Model.ConstMod

/-!
# Text streams

A `std::istream` is modelled as the list of whitespace-separated tokens that remain, plus the
fail bit. A token is a decimal number (possibly negative) or something else. Formatting flags,
character encoding and the `eofbit` are not modelled.
-/

namespace Boost.Random

/-- A whitespace-separated token of a stream. -/
inductive Tok where
  | num (v : Int)
  | junk
  deriving DecidableEq, Repr

/-- An input stream: remaining tokens, `ok = !fail()`. -/
structure IStream where
  toks : List Tok
  ok : Bool
  deriving DecidableEq, Repr

/-- `is >> x` for an integer type `T`: a failed stream is left alone (`none`); a number that does
not fit, a non-number or the end of the stream set the fail bit. As in the standard library a
negative number read into an unsigned type wraps. The value is returned as an `Int`. -/
def IStream.readInt (T : IntTy) (s : IStream) : Option Int × IStream :=
  if s.ok then
    match s.toks with
    | [] => (none, { s with ok := false })
    | Tok.junk :: _ => (none, { s with ok := false })
    | Tok.num v :: rest =>
      if T.signed then
        if -(T.maxv : Int) - 1 ≤ v ∧ v ≤ T.maxv then (some v, ⟨rest, true⟩)
        else (none, ⟨rest, false⟩)
      else
        if 0 ≤ v ∧ v ≤ T.maxv then (some v, ⟨rest, true⟩)
        else if -(T.maxv : Int) ≤ v ∧ v < 0 then (some (v + 2 ^ T.bits), ⟨rest, true⟩)
        else (none, ⟨rest, false⟩)
  else (none, s)

end Boost.Random
