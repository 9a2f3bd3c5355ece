import Verif.Spec.UniformInt

/-!
# Specification of the seeding helpers and of `generate`
-/

namespace Boost.Random.Spec

/-- The number whose base-`b` digits are `ds`, least significant first. -/
def number (b : Nat) : List Nat → Nat
  | [] => 0
  | d :: ds => d + b * number b ds

/-- The `n` low 32-bit words of `v`, least significant first. -/
def lowWords (n v : Nat) : List Nat := (List.range n).map fun k => v / 2 ^ (32 * k) % 2 ^ 32

/-- The values of an engine counted from its `min()`, without those from `lim` on. -/
def accepted (E : EngInfo) (lim : Nat) (xs : List Int) : List Nat :=
  (xs.map fun x => (x - E.min).toNat).filter (· < lim)

/-- `w` words from place `c * j` on. -/
def chunk (c : Nat) (ws : List Nat) (j : Nat) : List Nat := (ws.drop (c * j)).take c

end Boost.Random.Spec
