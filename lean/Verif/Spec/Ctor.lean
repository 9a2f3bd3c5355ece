import Verif.Model.Ctor

/-!
# What constructing an engine from an argument should mean
-/

namespace Boost.Random.Spec
open Boost.Random.Ctor

/-- What the documentation says about a constructor call by the type of the argument. -/
inductive Meaning where
  /-- the new engine is a copy of the argument -/
  | copy
  /-- the base engine is a copy of the argument -/
  | copyBase
  /-- the argument is a number to seed with -/
  | value
  /-- the argument is a sequence to seed from -/
  | sequence
  deriving DecidableEq, Repr

/-- An engine is copied, also as a part of an object of a derived class, a base engine becomes the base of an adaptor, a number
and anything else seed. -/
def documented : Ty → Meaning
  | .self => .copy
  | .derived => .copy
  | .base => .copyBase
  | .arith => .value
  | .other => .sequence

/-- What a constructor does. Those of `shuffle_output` pass the argument on. -/
def meaning : Boost.Random.Ctor.Ctor → Option Meaning
  | .copy => some .copy
  | .move => some .copy
  | .base => some .copyBase
  | .baseMove => some .copyBase
  | .arith => some .value
  | .seq => some .sequence
  | .fwd => none
  | .fwdConst => none

end Boost.Random.Spec
