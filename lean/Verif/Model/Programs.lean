import Verif.Model.DrawBind
import Verif.Model.UniformInt

/-!
# Programs that call distributions

Model of `include/boost/random/uniform_int.hpp`, of the program `example/password.cpp`, of the function `roll_die` in `example/die.cpp`
called several times, and of the use of `random_number_generator` and `uniform_int` in `std::random_shuffle`
(test/test_random_number_generator.cpp, test/test_old_uniform_int_distribution.cpp). Engines are seen as in `UniformInt.lean`.
-/

namespace Boost.Random

namespace UniformIntOld

/-- The parameters of `uniform_int<IntType>`, those of the base class; uniform_int.hpp:50-63; the constructors and `param` copy them, lines 61-73. -/
structure Dist where
  mn : Int
  mx : Int
  deriving DecidableEq, Repr

/-- `operator()(eng)`; uniform_int.hpp:77-81: that of the base class. -/
def next (E : EngInfo) (T : IntTy) (d : Dist) (xs : List Int) : Draw Int := UniformInt.generate E T d.mn d.mx xs

/-- `operator()(eng, parm)`; uniform_int.hpp:83-87: that of the base class, with the parameters `parm`. -/
def nextParam (E : EngInfo) (T : IntTy) (_d p : Dist) (xs : List Int) : Draw Int := UniformInt.generate E T p.mn p.mx xs

/-- `operator()(eng, n)`; uniform_int.hpp:89-94 (`n - 1` is checked for signed overflow and converted back to the type, the
`BOOST_ASSERT` is not modelled). -/
def nextBelow (E : EngInfo) (T : IntTy) (d : Dist) (n : Int) (xs : List Int) : Draw Int :=
  if T.signed then
    match signedArith T.bits (n - 1) with
    | none => Draw.ub
    | some m => nextParam E T d ⟨0, wrapSigned T.bits m⟩ xs
  else nextParam E T d ⟨0, (n - 1) % 2 ^ T.bits⟩ xs

end UniformIntOld

namespace Program
variable {α : Type}

/-- Calls one after the other that share an engine, and the list of their results; the loops of example/die.cpp:57-59 and
example/password.cpp:43-45. -/
def inTurn : List (List Int → Draw α) → List Int → Draw (List α)
  | [], xs => Draw.done [] xs
  | q :: qs, xs => (q xs).bind fun v rest => (inTurn qs rest).bind fun vs rest => Draw.done (v :: vs) rest

/-- `chars`; example/password.cpp:29-34. -/
def chars : List Char :=
  "abcdefghijklmnopqrstuvwxyz".toList ++ "ABCDEFGHIJKLMNOPQRSTUVWXYZ".toList ++ "1234567890".toList ++ "!@#$%^&*()".toList ++
    "`~-_=+[{]}\\|;:'\",<.>/? ".toList

/-- `chars[index_dist(rng)]`; example/password.cpp:42, 44, with `uniform_int_distribution<int>` and `int` of 32 bits. An index
beyond the end is undefined. -/
def passwordChar (E : EngInfo) (xs : List Int) : Draw Char :=
  (UniformInt.generate E ⟨32, true⟩ 0 ((chars.length : Int) - 1) xs).bind fun i rest =>
    if i < 0 then Draw.ub
    else
      match chars[i.toNat]? with
      | none => Draw.ub
      | some c => Draw.done c rest

/-- `main`; example/password.cpp:24-47: what is written to `std::cout`, without the end of the line. -/
def password (E : EngInfo) : List Int → Draw (List Char) := inTurn (List.replicate 8 (passwordChar E))

/-- `iter_swap` of the elements `i` and `j`. -/
def swapAt (a : List α) (i j : Nat) : Option (List α) :=
  match a[i]?, a[j]? with
  | some x, some y => some ((a.set i y).set j x)
  | _, _ => none

/-- `std::random_shuffle(first, last, rand)` after `k` turns of its loop
`for(i = first + 1; i != last; ++i) iter_swap(i, first + rand((i - first) + 1));`. The algorithm belongs to the standard library and is
not in the repository; test/test_random_number_generator.cpp:33 and test/test_old_uniform_int_distribution.cpp:71-72 call it. An
index beyond the end is undefined. -/
def shuffleTo (rand : Int → List Int → Draw Int) (a : List α) : Nat → List Int → Draw (List α)
  | 0, xs => Draw.done a xs
  | k + 1, xs => (shuffleTo rand a k xs).bind fun b rest => (rand ((k : Int) + 2) rest).bind fun j rest =>
      if j < 0 then Draw.ub
      else
        match swapAt b (k + 1) j.toNat with
        | none => Draw.ub
        | some c => Draw.done c rest

/-- `std::random_shuffle(first, last, rand)`; see `shuffleTo`. -/
def shuffle (rand : Int → List Int → Draw Int) (a : List α) : List Int → Draw (List α) := shuffleTo rand a (a.length - 1)

end Program
end Boost.Random
