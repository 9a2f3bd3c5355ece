import Verif.Model.Adaptors
import Verif.Model.SeedAll

/-!
# Which constructor of an engine is called

Model of `include/boost/random/detail/seed.hpp` (with SFINAE, lines 20-61) together with the part of overload resolution
of C++ that decides among the one-argument constructors of an engine, and of what the chosen constructor of
`discard_block_engine`, `shuffle_order_engine` and `independent_bits_engine` does with a base engine, and of the constructors
of the deprecated `shuffle_output` (`shuffle_output.hpp`).

Of the language the following is modelled: binding of `const T&`, `T&&` and of a deduced `T&` to an argument of the type
`T`, the ranking of these bindings, and the preference for functions that are not templates. Not modelled: `const`
rvalues, types with conversion functions.
-/

namespace Boost.Random
namespace Ctor

/-- The type of the argument: the class constructed, a class derived from it, its base engine, an arithmetic type, any other
class with a member `generate` (a seed sequence). -/
inductive Ty where
  | self
  | derived
  | base
  | arith
  | other
  deriving DecidableEq, Repr

/-- What kind of expression the argument is. -/
inductive Cat where
  | lvalue
  | constLvalue
  | rvalue
  deriving DecidableEq, Repr

/-- The constructors that can be called with one argument. -/
inductive Ctor where
  /-- `Self(const Self&)` and `Self(Self&&)`, generated by the compiler -/
  | copy
  | move
  /-- `Self(const base_type&)`; discard_block.hpp:63, shuffle_order.hpp:99, independent_bits.hpp:91 -/
  | base
  /-- `Self(base_type&&)`; discard_block.hpp:67, shuffle_order.hpp:102 -/
  | baseMove
  /-- `explicit Self(const T& x)`; seed.hpp:55-56 -/
  | arith
  /-- `template<class SeedSeq> explicit Self(SeedSeq& seq, disable_constructor<Self, SeedSeq>::type* = 0)`;
  seed.hpp:47-49 -/
  | seq
  /-- `template<class T> explicit shuffle_output(T& arg)`; shuffle_output.hpp:33-34 -/
  | fwd
  /-- `template<class T> explicit shuffle_output(const T& arg)`; shuffle_output.hpp:35-36 -/
  | fwdConst
  deriving DecidableEq, Repr

/-- The constructors a class declares: those of seed.hpp or those of `shuffle_output`; those from its base engine. -/
structure Class where
  seeds : Bool
  base : Bool
  baseMove : Bool
  deriving DecidableEq, Repr

/-- An engine that is not an adaptor. -/
def plain : Class := ⟨true, false, false⟩
/-- discard_block.hpp:63-68. -/
def discardBlock : Class := ⟨true, true, true⟩
/-- shuffle_order.hpp:99-103. -/
def shuffleOrder : Class := ⟨true, true, true⟩
/-- independent_bits.hpp:91. -/
def independentBits : Class := ⟨true, true, false⟩
/-- shuffle_output.hpp:32-38. -/
def shuffleOutput : Class := ⟨false, false, false⟩

/-- All one-argument constructors of a class. -/
def Class.ctors (K : Class) : List Ctor :=
  [.copy, .move] ++ (if K.seeds then [.arith, .seq] else [.fwd, .fwdConst]) ++ (if K.base then [.base] else []) ++ (if K.baseMove then [.baseMove] else [])

/-- `disable_seed<T>`: there is no member `type` if `T` is arithmetic, `const` or not; seed.hpp:30-31. -/
def disableSeed (t : Ty) : Bool := t == .arith

/-- `disable_constructor<Engine, T>`: there is no member `type` if `T` is `Engine` itself, but there is one for
`const Engine`; seed.hpp:33-37. -/
def disableCtor (t : Ty) (const : Bool) : Bool := if t == .self && !const then true else disableSeed t

/-- How the reference parameter binds to the argument. -/
inductive Ref where
  | lval
  | constLval
  | rval
  deriving DecidableEq, Repr

/-- The deduced `SeedSeq&`: the type is deduced with the `const` of the argument, and the reference does not bind to an
rvalue. -/
def deduced : Cat → Option (Bool × Ref)
  | .lvalue => some (false, .lval)
  | .constLvalue => some (true, .constLval)
  | .rvalue => none

/-- The binding of the parameter of a constructor to an argument, and whether it is a reference to a base class of the
argument; `none` if the constructor cannot be called. -/
def bind (c : Ctor) (t : Ty) (k : Cat) : Option (Ref × Bool) :=
  match c with
  | .copy => if t = .self ∨ t = .derived then some (.constLval, t == .derived) else none
  | .move => if (t = .self ∨ t = .derived) ∧ k = .rvalue then some (.rval, t == .derived) else none
  | .base => if t = .base then some (.constLval, false) else none
  | .baseMove => if t = .base ∧ k = .rvalue then some (.rval, false) else none
  | .arith => if t = .arith then some (.constLval, false) else none
  | .seq => (deduced k).bind fun p => if disableCtor t p.1 then none else some (p.2, false)
  | .fwd => (deduced k).map fun p => (p.2, false)
  | .fwdConst => some (.constLval, false)

/-- Ranks of bindings to the same argument: `T&` before `const T&`, `T&&` before `const T&` (the first two are never both
possible), all before references to a base class. -/
def rank (r : Ref × Bool) : Nat :=
  (if r.2 then 2 else 0) +
  match r.1 with
  | .lval => 0
  | .rval => 0
  | .constLval => 1

/-- Which of two equally good constructors is preferred: those that are not templates, then the template that is more
specialized, which `const T&` is. -/
def Ctor.special : Ctor → Nat
  | .seq => 1
  | .fwdConst => 1
  | .fwd => 2
  | _ => 0

/-- The better of two constructors that can be called. -/
def better (c d : Ctor) (rc rd : Ref × Bool) : Bool := rank rc < rank rd || (rank rc == rank rd && c.special < d.special)

/-- The constructor called with an argument of type `t` and kind `k`: the one better than all others that can be called.
`none` if the program does not compile. -/
def resolve (K : Class) (t : Ty) (k : Cat) : Option Ctor :=
  let viable := K.ctors.filterMap fun c => (bind c t k).map fun r => (c, r)
  (viable.find? fun p => viable.all fun q => q.1 == p.1 || better p.1 q.1 p.2 q.2).map Prod.fst

/-! ## Two arguments -/

/-- The constructors that can be called with two arguments: two engines or seeds (xor_combine.hpp:57, additive_combine.hpp:108),
or the template `Self(It& first, It last)` (xor_combine.hpp:87, additive_combine.hpp:121). -/
inductive Ctor2 where
  | pair
  | range
  deriving DecidableEq, Repr

/-- How a parameter of a two-argument constructor is initialized: a reference to the argument, a copy of it, or a value
converted from it. -/
inductive Conv where
  | ref (r : Ref)
  | value
  | converted
  deriving DecidableEq, Repr

/-- Whether the first way is better than the second: both references: by the qualification; without a conversion rather than
with one; a reference and a copy are equally good. -/
def Conv.better : Conv → Conv → Bool
  | .ref r, .ref r' => rank (r, false) < rank (r', false)
  | .converted, _ => false
  | _, .converted => true
  | _, _ => false

/-- The two parameters of a constructor. `byRef`: the parameters of `pair` are `const T&`, otherwise they are values;
`exact`: the arguments have the parameter types of `pair`, otherwise they are arithmetic values to be converted; `same`: the
arguments have the same type. `It` is deduced from both arguments, from the first with its `const`, and the two results
have to be the same type. -/
def bind2 (byRef same exact : Bool) (k : Cat) : Ctor2 → Option (Conv × Conv)
  | .pair =>
    let c := if !exact then Conv.converted else if byRef then .ref .constLval else .value
    some (c, c)
  | .range =>
    match deduced k with
    | some (const, r) => if same && !const then some (.ref r, .value) else none
    | none => none

/-- The better of two constructors: not worse in any argument and better in one, or equally good and the only one that is not
a template. -/
def better2 (c d : Ctor2) (x y : Conv × Conv) : Bool :=
  let ge := !y.1.better x.1 && !y.2.better x.2
  ge && (x.1.better y.1 || x.2.better y.2 || (c == .pair && d == .range))

/-- The constructor called with two arguments for which `pair` is meant, the first being of the kind `k`; `none` if the call is
ambiguous. -/
def resolve2 (byRef same exact : Bool) (k : Cat) : Option Ctor2 :=
  let viable := [Ctor2.pair, .range].filterMap fun c => (bind2 byRef same exact k c).map fun r => (c, r)
  (viable.find? fun p => viable.all fun q => q.1 == p.1 || better2 p.1 q.1 p.2 q.2).map Prod.fst

/-! ## What the constructors do -/

variable {σ : Type}

/-- An engine as `generate_from_int` sees it: its values, and its result type and range. -/
structure Source (σ : Type) where
  engine : Engine σ
  info : EngInfo

/-- The next `n` values of an engine. -/
def Source.values (B : Source σ) : Nat → σ → Option (List Int)
  | 0, _ => some []
  | n + 1, s => (B.engine.next s).bind fun p => (B.values n p.2).map fun vs => p.1 :: vs

/-- `generate(first, last)` of an engine, which calls `generate_from_int`, for `n` elements: the words and the state after it.
`fuel` bounds the number of calls; `none` if it is too small or something is undefined;
linear_congruential.hpp:187-189, shuffle_order.hpp:170-173. -/
def Source.generate (B : Source σ) (fuel n : Nat) (s : σ) : Option (List Nat × σ) :=
  (B.values fuel s).bind fun vs =>
    match SeedImpl.generateFromInt B.info n vs with
    | .done ws rest => (B.engine.skip (fuel - rest.length) s).map fun s' => (ws, s')
    | _ => none

/-- A base engine as the adaptors see it: also the number of words `seed(seq)` asks the sequence for, and `seed(seq)`. -/
structure Base (σ : Type) extends Source σ where
  words : Nat
  seedSeq : (Nat → List Nat) → Option σ

/-- `seed(seq)` of the base engine with another engine in the state `s` as the sequence: the state of the seeded engine, and of
the one that was passed. -/
def Base.seedFrom {τ : Type} (B : Base σ) (A : Source τ) (fuel : Nat) (s : τ) : Option (σ × τ) :=
  (A.generate fuel B.words s).bind fun p => (B.seedSeq fun _ => p.1).map fun t => (t, p.2)

/-- The base engine constructed from another one of its type, `_rng(rng)`: its state, and that of the argument;
discard_block.hpp:63, 67. `rng` is an lvalue, also where it is declared `base_type&&`. -/
def Base.copy (B : Base σ) (fuel : Nat) (k : Cat) (s : σ) : Option (σ × σ) :=
  match resolve plain .self k with
  | some .copy => some (s, s)
  | some .move => some (s, s)
  | some .seq => B.seedFrom B.toSource fuel s
  | _ => none

/-- The member `_rng` of an adaptor constructed from a base engine in the state `s`, and the state of the argument;
discard_block.hpp:63, 67, 81-82, shuffle_order.hpp:88-89, 99, 102, independent_bits.hpp:86-91. -/
def Base.adapt (B : Base σ) (K : Class) (fuel : Nat) (k : Cat) (s : σ) : Option (σ × σ) :=
  match resolve K .base k with
  | some .base => B.copy fuel .constLvalue s
  | some .baseMove => B.copy fuel .lvalue s
  | some .seq => B.seedFrom B.toSource fuel s
  | _ => none

/-- `discard_block_engine(rng)`; discard_block.hpp:63, 67, 81-82. -/
def discardBlockFrom (B : Base σ) (fuel : Nat) (k : Cat) (s : σ) : Option (BlockState σ × σ) :=
  (B.adapt discardBlock fuel k s).map fun p => (⟨p.1, 0⟩, p.2)

/-- `shuffle_order_engine(rng)`; shuffle_order.hpp:88-89, 99, 102. -/
def shuffleOrderFrom (B : Base σ) (table : Nat) (fuel : Nat) (k : Cat) (s : σ) : Option (ShuffleState σ × σ) :=
  (B.adapt shuffleOrder fuel k s).bind fun p => (ShuffleOrder.init table B.engine p.1).map fun t => (t, p.2)

/-- `independent_bits_engine(rng)`, whose only member is the base engine; independent_bits.hpp:86-91. -/
def independentBitsFrom (B : Base σ) (fuel : Nat) (k : Cat) (s : σ) : Option (σ × σ) := B.adapt independentBits fuel k s

/-- A `shuffle_order_engine` as a source of words; shuffle_order.hpp:170-180. -/
def shuffleSource (B : Base σ) (table : Nat) : Source (ShuffleState σ) := ⟨ShuffleOrder.engine B.info table B.engine, B.info⟩

/-- `shuffle_order_engine(arg)` where `arg` is an object of a class derived from it, in the state `s`: the new engine, and the
state of the argument; shuffle_order.hpp:88-89. -/
def shuffleOrderFromDerived (B : Base σ) (table fuel : Nat) (k : Cat) (s : ShuffleState σ) :
    Option (ShuffleState σ × ShuffleState σ) :=
  match resolve shuffleOrder .derived k with
  | some .copy => some (s, s)
  | some .move => some (s, s)
  | some .seq => (B.seedFrom (shuffleSource B table) fuel s).bind fun p =>
    (ShuffleOrder.init table B.engine p.1).map fun t => (t, p.2)
  | _ => none

/-- `shuffle_output b(a);`: the state of `b` and of `a`. The constructor templates pass `arg`, an lvalue, to
`shuffle_order_engine`; shuffle_output.hpp:33-36. -/
def shuffleOutputCopy (B : Base σ) (table fuel : Nat) (k : Cat) (s : ShuffleState σ) :
    Option (ShuffleState σ × ShuffleState σ) :=
  match resolve shuffleOutput .self k with
  | some .copy => some (s, s)
  | some .move => some (s, s)
  | some .fwd => shuffleOrderFromDerived B table fuel .lvalue s
  | some .fwdConst => shuffleOrderFromDerived B table fuel .constLvalue s
  | _ => none

/-- The constructor of `shuffle_order_engine` that `shuffle_output(arg)` ends in, where `arg` is not a `shuffle_output`;
shuffle_output.hpp:33-36. `T` is deduced with the `const` of the argument. -/
def shuffleOutputForward (t : Ty) (k : Cat) : Option Ctor :=
  match resolve shuffleOutput t k with
  | some .fwd => resolve shuffleOrder t .lvalue
  | some .fwdConst => resolve shuffleOrder t .constLvalue
  | _ => none

/-- A linear congruential engine on an unsigned type as a base engine; linear_congruential.hpp:152-153, 187-189 and
seed_impl.hpp:225-241. -/
def lcgBase (E : Lcg) : Base Nat where
  engine := E.engine
  info := ⟨E.T, E.min, E.max⟩
  words := SeedImpl.wordCount E.T E.m + 3
  seedSeq gen := (E.seedSeq gen).map Int.toNat

end Ctor
end Boost.Random
