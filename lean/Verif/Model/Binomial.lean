import Verif.Model.RealOps

/-!
# `binomial_distribution`

Model of `include/boost/random/binomial_distribution.hpp` for a signed `IntType` of `bits ≥ 32` bits. `none` is undefined behaviour.
-/

namespace Boost.Random
namespace Binomial

section
variable {K : Type} [Field K] [LinearOrder K] [FloorRing K] (o : RealOps K)

/-- `binomial_table::table`; binomial_distribution.hpp:36-47. The literals, before rounding to `RealType`. -/
def fcTable : List K :=
  [8106146679532726 / 10 ^ 17, 4134069595540929 / 10 ^ 17, 2767792568499834 / 10 ^ 17, 2079067210376509 / 10 ^ 17,
   1664469118982119 / 10 ^ 17, 1387612882307075 / 10 ^ 17, 1189670994589177 / 10 ^ 17, 1041126526197209 / 10 ^ 17,
   9255462182712733 / 10 ^ 18, 8330563433362871 / 10 ^ 18]

/-- `fc(k)`; binomial_distribution.hpp:259-268. Only called for `k ≥ 0`. -/
def fc (k : Nat) : K :=
  match (fcTable : List K)[k]? with
  | some x => o.fl x
  | none =>
    let i := o.fl (1 / o.fl ((k : K) + 1))
    let i2 := o.fl (i * i)
    o.fl (o.fl (o.fl (1 / 12) - o.fl (o.fl (o.fl (1 / 360) - o.fl (o.fl (1 / 1260) * i2)) * i2)) * i)

/-- The parameters of the transformed rejection method; binomial_distribution.hpp:407-417. -/
structure Btrd (K : Type) where
  r : K
  nr : K
  npq : K
  b : K
  a : K
  c : K
  alpha : K
  vr : K
  urvr : K

/-- The members of `binomial_distribution`; binomial_distribution.hpp:398-420. The union holds `q_n` or `btrd`. -/
structure Dist (K : Type) where
  t : Int
  p : K
  m : Int
  u : K ⊕ Btrd K

/-- The parameters set by `init` for rejection; binomial_distribution.hpp:283-292. -/
def btrd (t : Int) (p : K) : Btrd K :=
  let q := o.fl (1 - p)
  let r := o.fl (p / q)
  let npq := o.fl (o.fl (o.fl t * p) * q)
  let s := o.fl (o.sqrt npq)
  let b := o.fl (o.fl (115 / 100) + o.fl (o.fl (253 / 100) * s))
  let vr := o.fl (o.fl (92 / 100) - o.fl (o.fl (42 / 10) / b))
  { r := r
    nr := o.fl (o.fl (t + 1 : Int) * r)
    npq := npq
    b := b
    a := o.fl (o.fl (o.fl (-873 / 10000) + o.fl (o.fl (248 / 10000) * b)) + o.fl (o.fl (1 / 100) * p))
    c := o.fl (o.fl (o.fl t * p) + 1 / 2)
    alpha := o.fl (o.fl (o.fl (283 / 100) + o.fl (o.fl (51 / 10) / b)) * s)
    vr := vr
    urvr := o.fl (o.fl (86 / 100) * vr) }

/-- `binomial_distribution(t_arg, p_arg)` and `init()`; binomial_distribution.hpp:130-135, 251-255, 270-294. The sum `t + 1` of values of type
`IntType` may overflow. -/
def init (bits : Nat) (t : Int) (p : K) : Option (Dist K) :=
  if InSigned bits (t + 1) then
    let p' := if 1 / 2 < p then o.fl (1 - p) else p
    match castSigned bits (o.fl (o.fl (t + 1 : Int) * p')) with
    | none => none
    | some m => some ⟨t, p, m, if m < 11 then .inl (o.fl (o.pow (o.fl (1 - p')) (o.fl t))) else .inr (btrd o t p')⟩
  else none

/-- The loop of `invert`; binomial_distribution.hpp:377-394. `fuel` is the number of times that `x` can be incremented, so that `none` means
that `++x` overflows. `eps` is `numeric_limits<RealType>::epsilon()`. -/
def invertLoop (eps a s : K) : (fuel : Nat) → (x : Nat) → (u r : K) → Option Nat
  | 0, x, u, r => if u > r then none else some x
  | n + 1, x, u, r =>
    if u > r then
      let r1 := o.fl (o.fl (o.fl (a / o.fl (x + 1 : Nat)) - s) * r)
      if r1 < eps ∧ r1 < r then some (x + 1) else invertLoop eps a s n (x + 1) (o.fl (u - r)) r1
    else some x

/-- `invert(t, p, urng)` where the call of `uniform_01` on line 376 returns `u`; binomial_distribution.hpp:369-396. -/
def invert (bits : Nat) (eps : K) (t : Int) (p qn u : K) : Option Nat :=
  let q := o.fl (1 - p)
  let s := o.fl (p / q)
  let a := o.fl (o.fl (t + 1 : Int) * s)
  invertLoop o eps a s (2 ^ (bits - 1) - 1) 0 u qn

/-- The products over the `n` values of `i` above `i₀`; binomial_distribution.hpp:328-332, 334-338. -/
def ratioLoop (B : Btrd K) : (n i₀ : Nat) → (f : K) → K
  | 0, _, f => f
  | n + 1, i₀, f => ratioLoop B n (i₀ + 1) (o.fl (f * o.fl (o.fl (B.nr / o.fl (i₀ + 1 : Nat)) - B.r)))

/-- The test for candidates near the mode; binomial_distribution.hpp:326-341. -/
def acceptNear (B : Btrd K) (m k : Nat) (v : K) : Bool :=
  if m < k then decide (v ≤ ratioLoop o B (k - m) m 1) else if k < m then decide (ratioLoop o B (m - k) k v ≤ 1) else decide (v ≤ 1)

/-- The right-hand side of the last comparison; binomial_distribution.hpp:351-359. -/
def finalBound (B : Btrd K) (t m k : Nat) : K :=
  let nm := o.fl (t - m + 1 : Nat)
  let nk := o.fl (t - k + 1 : Nat)
  let h := o.fl (o.fl (o.fl (o.fl (m + 1 / 2) * o.fl (o.log (o.fl (o.fl (m + 1 : Nat) / o.fl (B.r * nm))))) + fc o m) + fc o (t - m))
  o.fl (o.fl (o.fl (o.fl (h + o.fl (o.fl (t + 1 : Nat) * o.fl (o.log (o.fl (nm / nk)))))
    + o.fl (o.fl (k + 1 / 2) * o.fl (o.log (o.fl (o.fl (nk * B.r) / o.fl (k + 1 : Nat)))))) - fc o k) - fc o (t - k))

/-- The bound `rho`; binomial_distribution.hpp:345-346. -/
def rho (B : Btrd K) (km : K) : K :=
  o.fl (o.fl (km / B.npq) * o.fl (o.fl (o.fl (o.fl (o.fl (o.fl (km / 3) + o.fl (625 / 1000)) * km) + o.fl (1 / 6)) / B.npq) + 1 / 2))

/-- The tests for candidates far from the mode; binomial_distribution.hpp:343-364. The logarithm of zero is minus infinity, which is below
every bound. -/
def acceptFar (B : Btrd K) (t m k : Nat) (v : K) : Bool :=
  if v = 0 then true
  else
    let km := o.fl |(k : K) - m|
    let v := o.fl (o.log v)
    let rho := rho o B km
    let t' := o.fl (o.fl (-km * km) / o.fl (2 * B.npq))
    if v < o.fl (t' - rho) then true
    else if v > o.fl (t' + rho) then false
    else decide (v ≤ finalBound o B t m k)

/-- The test of a candidate `k` with `0 ≤ k ≤ t`; binomial_distribution.hpp:324-365. -/
def accept (B : Btrd K) (t m k : Nat) (v : K) : Bool :=
  if k ≤ m + 15 ∧ m ≤ k + 15 then acceptNear o B m k v else acceptFar o B t m k v

/-- `(2*a/us + b)*u + c`; binomial_distribution.hpp:309, 321. -/
def candidate (B : Btrd K) (u us : K) : K := o.fl (o.fl (o.fl (o.fl (2 * B.a / us) + B.b) * u) + B.c)

/-- The values of `u` and `v` computed from the first value `v` and the second value `w` of `uniform_01`; binomial_distribution.hpp:312-318. -/
def second (B : Btrd K) (v w : K) : K × K :=
  if B.vr ≤ v then (o.fl (w - 1 / 2), v)
  else
    let u := o.fl (o.fl (v / B.vr) - o.fl (93 / 100))
    (o.fl ((if u < 0 then -(1 / 2) else 1 / 2) - u), o.fl (w * B.vr))

/-- `generate(urng)`; binomial_distribution.hpp:296-367. A division by `us = 0` gives an infinity, whose conversion to an integer on line 321
is undefined. `a` is not zero. -/
def generate (bits : Nat) (B : Btrd K) (t m : Int) : List K → Draws K Int
  | [] => .more
  | v :: vs =>
    if v ≤ B.urvr then
      let u := o.fl (o.fl (v / B.vr) - o.fl (43 / 100))
      match castSigned bits (⌊candidate o B u (o.fl (1 / 2 - |u|))⌋ : K) with
      | none => .ub
      | some k => .done k vs
    else
      match vs with
      | [] => .more
      | w :: vs =>
        let uv := second o B v w
        let us := o.fl (1 / 2 - |uv.1|)
        if us = 0 then .ub
        else
          match castSigned bits (⌊candidate o B uv.1 us⌋ : K) with
          | none => .ub
          | some k =>
            if k < 0 ∨ k > t then generate bits B t m vs
            else
              let v := o.fl (o.fl (uv.2 * B.alpha) / o.fl (o.fl (B.a / o.fl (us * us)) + B.b))
              if accept o B t.toNat m.toNat k.toNat v then .done k vs else generate bits B t m vs

/-- `operator()(urng)`; binomial_distribution.hpp:151-165. The subtraction `_t - k` may overflow. -/
def next (bits : Nat) (eps : K) (d : Dist K) (vs : List K) : Draws K Int :=
  let mirror := fun k : Int => if 1 / 2 < d.p then d.t - k else k
  match d.u with
  | .inl qn =>
    match vs with
    | [] => .more
    | u :: vs =>
      match invert o bits eps d.t (if 1 / 2 < d.p then o.fl (1 - d.p) else d.p) qn u with
      | none => .ub
      | some x => if InSigned bits (mirror x) then .done (mirror x) vs else .ub
  | .inr B =>
    (generate o bits B d.t d.m vs).bind fun k vs => if InSigned bits (mirror k) then .done (mirror k) vs else .ub

/-- `min()` and `max()`; binomial_distribution.hpp:182-185. -/
def min : Int := 0

/-- `max()`; binomial_distribution.hpp:185. -/
def max (d : Dist K) : Int := d.t

end

end Binomial
end Boost.Random
