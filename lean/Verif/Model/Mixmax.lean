import Verif.Model.Engine

/-!
# `mixmax_engine`

Model of `include/boost/random/mixmax.hpp`. All arithmetic is on `uint64_t`: numbers modulo `2^64`. The
template parameter `Ndim` is the length of the vector; `SPECIALMUL` is `mul`; `SPECIAL` is not used by the
code. The skip table of `apply_bigskip` is a parameter.
-/

namespace Boost.Random.Mixmax

/-- `M61`; mixmax.hpp:165. -/
def M61 : Nat := 2305843009213693951

/-- `min()`, `max()`; mixmax.hpp:63-66. -/
def minv : Nat := 0

/-- `max()`; mixmax.hpp:64, 66. -/
def maxv : Nat := 2 ^ 61 - 1

/-- `MOD_MERSENNE(k)`; mixmax.hpp:167. -/
def modMersenne (k : Nat) : Nat := ((k &&& M61) + k >>> 61) % 2 ^ 64

/-- `MULWU(k)`; mixmax.hpp:192. -/
def mulwu (mul k : Nat) : Nat := ((k <<< mul) % 2 ^ 64 &&& M61) ^^^ k >>> (61 - mul)

/-- `modadd(foo, bar)`; mixmax.hpp:303-305. -/
def modadd (foo bar : Nat) : Nat := modMersenne ((foo + bar) % 2 ^ 64)

/-- The state; mixmax.hpp:76-80. -/
structure State where
  V : List Nat
  sumtot : Nat
  counter : Nat
  deriving DecidableEq, Repr

/-- The loop of `iterate_raw_vec` over `Y[1..]`; mixmax.hpp:199-206. Returns the new elements and the final
`sumtot` and `ovflow`. -/
def iterLoop (mul : Nat) : (Y : List Nat) → (tempP tempV sumtot ovflow : Nat) → List Nat × Nat × Nat
  | [], _, _, sumtot, ovflow => ([], sumtot, ovflow)
  | y :: Y, tempP, tempV, sumtot, ovflow =>
    let tempPO := mulwu mul tempP
    let tempV := (tempV + tempPO) % 2 ^ 64
    let tempP := modadd tempP y
    let tempV := modadd tempV tempP
    let sumtot := (sumtot + tempV) % 2 ^ 64
    let ovflow := if sumtot < tempV then (ovflow + 1) % 2 ^ 64 else ovflow
    let r := iterLoop mul Y tempP tempV sumtot ovflow
    (tempV :: r.1, r.2)

/-- `iterate_raw_vec(Y, sumtotOld)`: new vector and new sum; mixmax.hpp:194-208. -/
def iterateRawVec (mul : Nat) (Y : List Nat) (sumtotOld : Nat) : List Nat × Nat :=
  let r := iterLoop mul Y.tail 0 sumtotOld sumtotOld 0
  (sumtotOld :: r.1, modMersenne ((modMersenne r.2.1 + (r.2.2 <<< 3) % 2 ^ 64) % 2 ^ 64))

/-- `operator()`; mixmax.hpp:104-112. `none` = access outside the array. -/
def next (mul : Nat) (S : State) : Option (Nat × State) :=
  if S.counter ≤ S.V.length - 1 then
    (S.V[S.counter]?).map fun v => (v, { S with counter := S.counter + 1 })
  else
    let r := iterateRawVec mul S.V S.sumtot
    (r.1[1]?).map fun v => (v, ⟨r.1, r.2, 2⟩)

/-- `discard(nsteps)`; mixmax.hpp:118. -/
def discard (mul : Nat) : (nsteps : Nat) → State → Option State
  | 0, S => some S
  | n + 1, S => (next mul S).bind fun p => discard mul n p.2

/-- `operator==`; mixmax.hpp:156-157. -/
def eq (x y : State) : Bool := x.counter == y.counter && x.sumtot == y.sumtot && x.V == y.V

/-- `operator<<`; mixmax.hpp:121-131. -/
def write (S : State) : List Tok :=
  [Tok.num S.V.length, Tok.num S.counter, Tok.num S.sumtot] ++ S.V.map fun v : Nat => Tok.num v

/-- The sum computed while reading; mixmax.hpp:142-145. -/
def checkSum (vec : List Nat) : Nat := vec.foldl (fun sum v => modMersenne ((sum + v) % 2 ^ 64)) 0

/-- `operator>>`; mixmax.hpp:134-154. The local array is not initialised; it is taken to hold zeros (this
only matters after a failed extraction). The assertion on the first number is not modelled. -/
def read (s : IStream) (S : State) : IStream × State :=
  let U : IntTy := ⟨64, false⟩
  let p0 := readInto U s 0
  let p1 := readInto U p0.1 p0.2
  let p2 := readInto U p1.1 0
  let p3 := readList U p2.1 (S.V.map fun _ => 0)
  let counter := p1.2.toNat
  let vec := p3.2.map Int.toNat
  if checkSum vec = p2.2.toNat ∧ 0 < counter ∧ counter < S.V.length then
    (p3.1, ⟨vec, p2.2.toNat, counter⟩)
  else ({ p3.1 with ok := false }, S)

/-- `seed_vielbein(X, index)`; mixmax.hpp:210-217. -/
def seedVielbein (N index : Nat) : State :=
  ⟨(List.replicate N 0).set (if index < N then index else 0) 1, 1, N⟩

/-- `fmodmulM61(cum, s, a)`; mixmax.hpp:288-301. -/
def fmodmulM61 (cum s a : Nat) : Nat :=
  let o := s * a % 2 ^ 64
  let ph := s >>> 32
  let pl := s &&& 0xFFFFFFFF
  let ah := a >>> 32
  let al := a &&& 0xFFFFFFFF
  let o := ((o &&& M61) + ((ph * ah % 2 ^ 64) <<< 3) % 2 ^ 64 +
    (((ah * pl % 2 ^ 64) + (al * ph % 2 ^ 64) + (al * pl % 2 ^ 64) >>> 32) % 2 ^ 64) >>> 29) % 2 ^ 64
  let o := (o + cum) % 2 ^ 64
  ((o &&& M61) + o >>> 61) % 2 ^ 64

/-- The sum `sumtot = modadd(sumtot, v)` over a vector; mixmax.hpp:258, 278, 284. -/
def sumVec (V : List Nat) : Nat := V.foldl modadd 0

/-- The loop over `j` applying one row of the table: `cum += coeff_j * Y`, then one iteration of `Y`;
mixmax.hpp:266-275. -/
def skipRow (mul : Nat) : (row : List Nat) → (cum Y : List Nat) → (sumtot : Nat) → List Nat
  | [], cum, _, _ => cum
  | coeff :: row, cum, Y, sumtot =>
    let cum := List.zipWith (fun c y => fmodmulM61 c coeff y) cum Y
    let r := iterateRawVec mul Y sumtot
    skipRow mul row cum r.1 r.2

/-- The `while(id)` loop; mixmax.hpp:262-281. `rows` are the rows of the table from the current bit on; the
sum of `Y` is kept up to date by the code and recomputed here. A missing row is an access outside the
table. -/
def skipId (mul : Nat) : (id : Nat) → (rows : List (List Nat)) → (Y : List Nat) → (sumtot : Nat) → Option (List Nat × Nat)
  | id, [], Y, sumtot => if id = 0 then some (Y, sumtot) else none
  | id, row :: rows, Y, sumtot =>
    if id = 0 then some (Y, sumtot)
    else if id % 2 = 1 then
      let Y := skipRow mul row (Y.map fun _ => 0) Y sumtot
      skipId mul (id / 2) rows Y (sumVec Y)
    else skipId mul (id / 2) rows Y sumtot

/-- `apply_bigskip`; mixmax.hpp:227-286. `table` has 128 rows, 32 for each identifier. -/
def applyBigskip (mul : Nat) (table : List (List Nat)) (V : List Nat) (cluster machine run stream : Nat) :
    Option (List Nat × Nat) := do
  let (Y, s) ← skipId mul stream table V (sumVec V)
  let (Y, s) ← skipId mul run (table.drop 32) Y s
  let (Y, s) ← skipId mul machine (table.drop 64) Y s
  let (Y, _) ← skipId mul cluster (table.drop 96) Y s
  some (Y, sumVec Y)

/-- `seed_uniquestream`; mixmax.hpp:220-224. -/
def seedUniquestream (mul : Nat) (table : List (List Nat)) (N cluster machine run stream : Nat) : Option State := do
  let X := seedVielbein N 0
  let (V, s) ← applyBigskip mul table X.V cluster machine run stream
  some ⟨V, s, 1⟩

/-- `seed(seedval)`, `mixmax_engine(seedval)`; mixmax.hpp:73, 181-184. -/
def seed (mul : Nat) (table : List (List Nat)) (N seedval : Nat) : Option State :=
  seedUniquestream mul table N 0 0 ((seedval >>> 32) % 2 ^ 32) (seedval % 2 ^ 32)

end Boost.Random.Mixmax
