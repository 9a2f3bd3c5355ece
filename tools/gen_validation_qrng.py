#!/usr/bin/env python3
"""Write lean/Verif/ValidationQrng.lean from the tables in /repo/test/{sobol,niederreiter_base2,faure}_validate.cpp."""
import re

out = ["""import Verif.Model.SobolTable
import Verif.Model.NbTable
import Verif.Model.Faure

/-!
# The quasi-random engines against the library's own test values

Written by `tools/gen_validation_qrng.py`. These are tests of the transcription, not proofs: the tables of
`test/sobol_validate.cpp`, `test/niederreiter_base2_validate.cpp` and `test/faure_validate.cpp`, compared as
`test/test_qrng_functions.hpp:26-53` does (the values differ by at most 0.0006 percent). The entries are in units of
`10^-10`.
-/

namespace Boost.Random.Validation
open Qrng

/-- The next `n` values as multiples of `1/scale`. -/
def qvals {L α : Type} (D : Derived L α) : (n : Nat) → Q L α → Option (List α)
  | 0, _ => some []
  | n + 1, q => match next D q with
    | .ok r => (qvals D n r.2).map (r.1 :: ·)
    | _ => none

/-- Construct, seed with `skip`, draw `n` values. -/
def qrun {L α : Type} (D : Derived L α) (dim skip n : Nat) : Option (List α) :=
  match (make D dim).bind fun q => seed D q skip with
  | .ok q => qvals D n q
  | _ => none

/-- `|x / scale - e / 10^10| <= 6 * 10^-6 * min`. -/
def close (e : Nat) (x : ℚ) : Bool :=
  let y : ℚ := e / 10000000000
  decide (|x - y| * 1000000 ≤ 6 * min x y)

def allClose (es : List Nat) (xs : Option (List ℚ)) : Bool :=
  match xs with
  | some xs => es.length == xs.length && (List.zipWith close es xs).all id
  | none => false

def ofGray (xs : Option (List Nat)) : Option (List ℚ) := xs.map fun l => l.map fun (x : Nat) => (x : ℚ) / 18446744073709551615
"""]
for eng, D, conv in [("sobol", "sobol 64 64 defaultSobolTable", "ofGray"), ("niederreiter_base2", "niederreiter 64 64 defaultNbTable", "ofGray"),
                     ("faure", "faure id 64 faurePrime", "id")]:
    src = open(f"/repo/test/{eng}_validate.cpp").read()
    out.append(f"\n/-! ## test/{eng}_validate.cpp -/\n")
    for name, skip in re.findall(rf"test_{eng}_values\((\w+), (\d+)\)", src):
        n, dim = map(int, re.search(rf"{name}\[(\d+)\]\[(\d+)\]", src).groups())
        body = re.search(rf"{name}\[\d+\]\[\d+\] =\s*\{{(.*?)\}};", src, re.S).group(1)
        vals = re.findall(r"(\d)\.(\d{10})", body)
        assert len(vals) == n * dim, (name, len(vals))
        nums = [int(a + b) for a, b in vals]
        out.append(f"def {name} : List Nat := [\n" + ",\n".join("  " + ", ".join(map(str, nums[i:i + dim * (16 // dim)]))
                   for i in range(0, len(nums), dim * (16 // dim))) + "]\n")
        out.append(f"#guard allClose {name} ({conv} (qrun ({D}) {dim} {skip} {n * dim}))\n")
out.append("\nend Boost.Random.Validation\n")
open("/verif/lean/Verif/ValidationQrng.lean", "w").write("".join(out))
