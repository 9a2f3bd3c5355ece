import Verif.Model.Stream
import Mathlib.Logic.Function.Iterate

/-!
# Quasi-random engines

Model of `include/boost/random/detail/qrng_base.hpp`, `include/boost/random/detail/gray_coded_qrng.hpp` and
`include/boost/random/sobol.hpp`. `size_type` is an unsigned type of at most 64 bits; `std::size_t` and `boost::uintmax_t` have 64 bits.
Memory exhaustion is not modelled.
-/

namespace Boost.Random
namespace Qrng

/-- Outcome of an operation: a value, an exception, or undefined behaviour. -/
inductive Res (α : Type) where
  | ok (a : α)
  | throw
  | ub
  deriving DecidableEq, Repr

/-- One operation after another: an exception or undefined behaviour ends the run, as throughout qrng_base.hpp and gray_coded_qrng.hpp. -/
def Res.bind {α β : Type} (r : Res α) (f : α → Res β) : Res β :=
  match r with
  | .ok a => f a
  | .throw => .throw
  | .ub => .ub

/-- `qrng_base`; qrng_base.hpp:264-270. -/
structure Q (L α : Type) where
  curr : Nat
  seq : Nat
  lattice : L
  quasi : List α
  deriving DecidableEq, Repr

/-- What `qrng_base` uses of the derived class and its lattice. An exception of these leaves the object as it was. -/
structure Derived (L α : Type) where
  /-- `std::numeric_limits<size_type>::digits` -/
  digits : Nat
  /-- the value elements of a new vector have -/
  zero : α
  /-- `LatticeT(dimension)` and `lattice.resize(dimension)` -/
  resize : (dimension : Nat) → Res L
  /-- `seed()` before `reset_seq(0)` -/
  seed0 : L → (quasi : List α) → Res (L × List α)
  /-- `seed(init)` before `reset_seq(init)` -/
  seed : L → (quasi : List α) → (seq init : Nat) → Res (L × List α)
  /-- `compute_seq(seq)` -/
  compute : L → (quasi : List α) → (seq : Nat) → Res (L × List α)

section
variable {L α : Type} (D : Derived L α)

/-- The constructor; qrng_base.hpp:64-70, 250-255. -/
def make (dimension : Nat) : Res (Q L α) :=
  if dimension = 0 then .throw
  else
    (D.resize dimension).bind fun l => (D.seed0 l (List.replicate dimension D.zero)).bind fun r => .ok ⟨0, 0, r.1, r.2⟩

/-- `seed()`. -/
def seed0 (q : Q L α) : Res (Q L α) := (D.seed0 q.lattice q.quasi).bind fun r => .ok ⟨0, 0, r.1, r.2⟩

/-- `seed(init)`. -/
def seed (q : Q L α) (init : Nat) : Res (Q L α) := (D.seed q.lattice q.quasi q.seq init).bind fun r => .ok ⟨0, init, r.1, r.2⟩

/-- `load_cached()`; qrng_base.hpp:218-221. -/
def loadCached (q : Q L α) : Res (α × Q L α) :=
  match q.quasi[q.curr]? with
  | some v => .ok (v, { q with curr := q.curr + 1 })
  | none => .ub

/-- `next_state()`; qrng_base.hpp:223-233. -/
def nextState (q : Q L α) : Res (α × Q L α) :=
  let new := (q.seq + 1) % 2 ^ D.digits
  if new > q.seq then (D.compute q.lattice q.quasi new).bind fun r => loadCached ⟨0, new, r.1, r.2⟩
  else .throw

/-- `operator()()`; qrng_base.hpp:87-90. -/
def next (q : Q L α) : Res (α × Q L α) := if q.curr ≠ q.quasi.length then loadCached q else nextState D q

/-- `discard_vector(z)`; qrng_base.hpp:237-248. -/
def discardVector (q : Q L α) (z : Nat) : Res (Q L α) :=
  if 2 ^ D.digits - 1 - q.seq < z then .throw
  else (seed D q ((q.seq + z) % 2 ^ D.digits)).bind fun q' => .ok { q' with curr := q.curr }

/-- `discard(z)`; qrng_base.hpp:103-138. -/
def discard (q : Q L α) (z : Nat) : Res (Q L α) :=
  let dimension := q.quasi.length
  let vecN := z / dimension
  let carry := (q.curr + z % dimension) % 2 ^ 64
  let vecN := (vecN + carry / dimension) % 2 ^ 64
  let carry := carry % dimension
  let corr := carry = 0 ∧ vecN ≠ 0
  (discardVector D q (vecN - if corr then 1 else 0)).bind fun q => .ok { q with curr := carry ^^^ if corr then dimension else 0 }

/-- `operator==`; qrng_base.hpp:171-189. The sums are formed in `std::size_t`. -/
def eq (x y : Q L α) : Bool :=
  let dimension := x.quasi.length
  decide (dimension = y.quasi.length) && decide (¬ (if x.seq < y.seq then y.seq - x.seq else x.seq - y.seq) > 1) &&
    decide ((x.seq + x.curr / dimension) % 2 ^ 64 = (y.seq + y.curr / dimension) % 2 ^ 64) &&
    decide (x.curr % dimension = y.curr % dimension)

/-- `operator<<`; qrng_base.hpp:141-145. -/
def write (q : Q L α) : List Tok := [.num q.quasi.length, .num q.seq, .num q.curr]

/-- Outcome of `operator>>`, with what the engine has become. -/
inductive ReadRes (L α : Type) where
  | ok (q : Q L α) (s : IStream)
  | threw (q : Q L α)
  | ub

/-- `operator>>`; qrng_base.hpp:148-168. -/
def read (s : IStream) (q : Q L α) : ReadRes L α :=
  match s.readInt ⟨64, false⟩ with
  | (some dim, s) =>
    match s.readInt ⟨D.digits, false⟩ with
    | (some sd, s) =>
      match s.readInt ⟨64, false⟩ with
      | (some z, s) =>
        let resized : Res (Q L α) :=
          if dim = 0 then .throw
          else if q.quasi.length = dim.toNat then .ok q
          else (D.resize dim.toNat).bind fun l =>
            .ok { q with lattice := l, quasi := q.quasi.take dim.toNat ++ List.replicate (dim.toNat - q.quasi.length) D.zero }
        match resized with
        | .throw => .threw q
        | .ub => .ub
        | .ok q =>
          match seed D q sd.toNat with
          | .throw => .threw q
          | .ub => .ub
          | .ok q =>
            if z ≠ 0 then
              match discard D q z.toNat with
              | .throw => .threw q
              | .ub => .ub
              | .ok q => .ok q s
            else .ok q s
      | (none, s) => .ok q s
    | (none, s) => .ok q s
  | (none, s) => .ok q s

end

/-! ## Gray-coded engines -/

/-- `boost::core::countr_zero` of a positive number of at most `fuel` bits. -/
def countrZero : (fuel x : Nat) → Nat
  | 0, _ => 0
  | f + 1, x => if x % 2 = 1 then 0 else countrZero f (x / 2) + 1

/-- `update_quasi(r)`; gray_coded_qrng.hpp:171-177, sobol.hpp:99-103. -/
def updateQuasi (l quasi : List Nat) (r : Nat) : Res (List Nat) :=
  if r * quasi.length + quasi.length ≤ l.length then .ok (List.zipWith (· ^^^ ·) quasi (l.drop (r * quasi.length))) else .ub

/-- The loop of `seed(init)`; gray_coded_qrng.hpp:147-151. -/
def seedLoop (l : List Nat) : (fuel r code : Nat) → (quasi : List Nat) → Res (List Nat)
  | 0, _, _, quasi => .ok quasi
  | f + 1, r, code, quasi =>
    if code = 0 then .ok quasi
    else if code % 2 = 1 then (updateQuasi l quasi r).bind fun quasi => seedLoop l f (r + 1) (code / 2) quasi
    else seedLoop l f (r + 1) (code / 2) quasi

/-- `gray_coded_qrng` with `bit_count` `w` and a `size_type` of `digits` bits; gray_coded_qrng.hpp:53-183. -/
def gray (w digits : Nat) (resize : Nat → Res (List Nat)) : Derived (List Nat) Nat where
  digits := digits
  zero := 0
  resize := resize
  seed0 l quasi := (updateQuasi l (quasi.map fun _ => 0) 0).bind fun quasi => .ok (l, quasi)
  seed l quasi seq init :=
    if init = seq then .ok (l, quasi)
    else
      let code := (init + 1) % 2 ^ digits
      if ¬ init < code then .throw
      else
        let code := code ^^^ (code >>> 1)
        if w < digits ∧ code > 2 ^ w - 1 then .throw
        else (seedLoop l digits 0 code (quasi.map fun _ => 0)).bind fun quasi => .ok (l, quasi)
  compute l quasi seq :=
    let x := seq ^^^ (2 ^ w - 1)
    if x = 0 then .throw
    else
      let r := countrZero digits x
      if w < digits ∧ r ≥ w then .throw
      else (updateQuasi l quasi r).bind fun quasi => .ok (l, quasi)

/-! ## The Sobol lattice -/

/-- A table of polynomials and initial values, as `SobolTables`; sobol_table.hpp:36-98. -/
structure SobolTable where
  maxDimension : Nat
  polynomial : Nat → Nat
  minit : Nat → Nat → Nat

/-- The inner loop of the recurrence: the exclusive or of the terms `k, k+1, ...` with the bits of `p` (`count` of them) selecting;
sobol.hpp:79-83. `rem = degree - k`. -/
def sobolTerms (digits : Nat) (m : List Nat) (degree : Nat) : (count k p acc : Nat) → Nat
  | 0, _, _, acc => acc
  | c + 1, k, p, acc =>
    let rem := degree - k
    sobolTerms digits m degree c (k + 1) (p / 2) (acc ^^^ ((p % 2) * m.getD (m.length - rem) 0 <<< rem) % 2 ^ digits)

/-- The next element of a column from those before it; sobol.hpp:78-83. -/
def sobolStep (digits poly degree : Nat) (m : List Nat) : List Nat :=
  m ++ [sobolTerms digits m degree degree 0 poly (m.getD (m.length - degree) 0)]

/-- The column of `dim >= 1` before the shifts; sobol.hpp:61-84. The column is held as a list of its own instead of the elements
`dim, dimension + dim, ...` of one vector; if there are more initial values than rows the vector is written past its end. -/
def sobolColumn (w digits : Nat) (T : SobolTable) (dim : Nat) : Res (List Nat) :=
  let poly := T.polynomial (dim - 1)
  if poly > 2 ^ digits - 1 then .throw
  else if poly = 0 then .throw
  else
    let degree := poly.log2
    if degree > w then .ub
    else .ok (Nat.iterate (sobolStep digits poly degree) (w - degree) ((List.range degree).map fun k => T.minit (dim - 1) k % 2 ^ digits))

/-- All columns of dimensions `dim, dim + 1, ..., dim + n - 1`. -/
def sobolColumns (w digits : Nat) (T : SobolTable) : (n dim : Nat) → Res (List (List Nat))
  | 0, _ => .ok []
  | n + 1, dim =>
    (if dim = 0 then .ok (List.replicate w 1) else sobolColumn w digits T dim).bind fun c =>
      (sobolColumns w digits T n (dim + 1)).bind fun cs => .ok (c :: cs)

/-- `sobol_lattice::resize`; sobol.hpp:47-97. Element `dimension*j + dim` is element `j` of column `dim`, shifted. -/
def sobolLattice (w digits : Nat) (T : SobolTable) (dimension : Nat) : Res (List Nat) :=
  if dimension = 0 ∨ dimension > T.maxDimension then .throw
  else (sobolColumns w digits T dimension 0).bind fun cols =>
    .ok ((List.range w).flatMap fun j => cols.map fun c => (c.getD j 0 <<< (w - 1 - j)) % 2 ^ digits)

/-- `sobol_engine<UIntType, w, SobolTables>`; sobol.hpp:139-216. -/
def sobol (w digits : Nat) (T : SobolTable) : Derived (List Nat) Nat := gray w digits (sobolLattice w digits T)

end Qrng
end Boost.Random
