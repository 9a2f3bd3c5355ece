import Verif.Model.SobolTable
import Verif.Model.NbTable
import Verif.Model.Faure

/-!
# The quasi-random engines against the library's own test values

Written by `tools/gen_validation_qrng.py`. These are tests of the transcription, not proofs: the tables of
`test/sobol_validate.cpp`, `test/niederreiter_base2_validate.cpp` and `test/faure_validate.cpp`, compared as
`test/test_qrng_functions.hpp:26-53` does (the values differ by at most 0.0006 percent). The entries are in units of
`10^-10`.
-/

namespace Boost.Random.Validation
open Qrng

/-- The next `n` values as multiples of `1/scale`. -/
def qvals {L α : Type} (D : Derived L α) : (n : Nat) → Q L α → Option (List α)
  | 0, _ => some []
  | n + 1, q => match next D q with
    | .ok r => (qvals D n r.2).map (r.1 :: ·)
    | _ => none

/-- Construct, seed with `skip`, draw `n` values. -/
def qrun {L α : Type} (D : Derived L α) (dim skip n : Nat) : Option (List α) :=
  match (make D dim).bind fun q => seed D q skip with
  | .ok q => qvals D n q
  | _ => none

/-- `|x / scale - e / 10^10| <= 6 * 10^-6 * min`. -/
def close (e : Nat) (x : ℚ) : Bool :=
  let y : ℚ := e / 10000000000
  decide (|x - y| * 1000000 ≤ 6 * min x y)

def allClose (es : List Nat) (xs : Option (List ℚ)) : Bool :=
  match xs with
  | some xs => es.length == xs.length && (List.zipWith close es xs).all id
  | none => false

def ofGray (xs : Option (List Nat)) : Option (List ℚ) := xs.map fun l => l.map fun (x : Nat) => (x : ℚ) / 18446744073709551615

/-! ## test/sobol_validate.cpp -/
def sobol_02_99 : List Nat := [
  5000000002, 5000000002, 7500000003, 2500000001, 2500000001, 7500000003, 3750000002, 3750000002, 8750000004, 8750000004, 6250000003, 1250000001, 1250000001, 6250000003, 1875000001, 3125000001,
  6875000003, 8125000004, 9375000004, 625000000, 4375000002, 5625000003, 3125000001, 1875000001, 8125000004, 6875000003, 5625000003, 4375000002, 625000000, 9375000004, 937500000, 4687500002,
  5937500003, 9687500005, 8437500004, 2187500001, 3437500002, 7187500003, 4687500002, 937500000, 9687500005, 5937500003, 7187500003, 3437500002, 2187500001, 8437500004, 1562500001, 1562500001,
  6562500003, 6562500003, 9062500004, 4062500002, 4062500002, 9062500004, 2812500001, 2812500001, 7812500004, 7812500004, 5312500002, 312500000, 312500000, 5312500002, 468750000, 2656250001,
  5468750003, 7656250004, 7968750004, 156250000, 2968750001, 5156250002, 4218750002, 1406250001, 9218750004, 6406250003, 6718750003, 3906250002, 1718750001, 8906250004, 2343750001, 781250000,
  7343750003, 5781250003, 9843750005, 3281250002, 4843750002, 8281250004, 3593750002, 4531250002, 8593750004, 9531250004, 6093750003, 2031250001, 1093750001, 7031250003, 781250000, 2343750001,
  5781250003, 7343750003, 8281250004, 4843750002, 3281250002, 9843750005, 4531250002, 3593750002, 9531250004, 8593750004, 7031250003, 1093750001, 2031250001, 6093750003, 1406250001, 4218750002,
  6406250003, 9218750004, 8906250004, 1718750001, 3906250002, 6718750003, 2656250001, 468750000, 7656250004, 5468750003, 5156250002, 2968750001, 156250000, 7968750004, 234375000, 3984375002,
  5234375002, 8984375004, 7734375004, 1484375001, 2734375001, 6484375003, 3984375002, 234375000, 8984375004, 5234375002, 6484375003, 2734375001, 1484375001, 7734375004, 2109375001, 2109375001,
  7109375003, 7109375003, 9609375004, 4609375002, 4609375002, 9609375004, 3359375002, 3359375002, 8359375004, 8359375004, 5859375003, 859375000, 859375000, 5859375003, 1171875001, 1171875001,
  6171875003, 6171875003, 8671875004, 3671875002, 3671875002, 8671875004, 4921875002, 4921875002, 9921875005, 9921875005, 7421875003, 2421875001, 2421875001, 7421875003, 1796875001, 3046875001,
  6796875003, 8046875004, 9296875004, 546875000, 4296875002, 5546875003, 3046875001, 1796875001, 8046875004, 6796875003, 5546875003, 4296875002, 546875000, 9296875004, 390625000, 1328125001,
  5390625003, 6328125003, 7890625004, 3828125002, 2890625001, 8828125004]
#guard allClose sobol_02_99 (ofGray (qrun (sobol 64 64 defaultSobolTable) 2 0 198))
def sobol_07_100 : List Nat := [
  117187500, 3320312500, 2929687500, 1914062500, 9023437500, 6757812500, 8632812500, 5117187500, 8320312500, 7929687500, 6914062500, 4023437500, 1757812500, 3632812500,
  7617187500, 820312500, 429687500, 4414062500, 1523437500, 4257812500, 6132812500, 2617187500, 5820312500, 5429687500, 9414062500, 6523437500, 9257812500, 1132812500,
  3867187500, 2070312500, 9179687500, 8164062500, 5273437500, 5507812500, 7382812500, 8867187500, 7070312500, 4179687500, 3164062500, 273437500, 507812500, 2382812500,
  6367187500, 4570312500, 6679687500, 5664062500, 2773437500, 3007812500, 9882812500, 1367187500, 9570312500, 1679687500, 664062500, 7773437500, 8007812500, 4882812500,
  1992187500, 195312500, 7304687500, 2539062500, 4648437500, 9882812500, 6757812500, 6992187500, 5195312500, 2304687500, 7539062500, 9648437500, 4882812500, 1757812500,
  9492187500, 2695312500, 9804687500, 39062500, 7148437500, 2382812500, 9257812500, 4492187500, 7695312500, 4804687500, 5039062500, 2148437500, 7382812500, 4257812500,
  3242187500, 3945312500, 1054687500, 6289062500, 898437500, 8632812500, 8007812500, 8242187500, 8945312500, 6054687500, 1289062500, 5898437500, 3632812500, 3007812500,
  5742187500, 1445312500, 3554687500, 8789062500, 8398437500, 1132812500, 5507812500, 742187500, 6445312500, 8554687500, 3789062500, 3398437500, 6132812500, 507812500,
  1054687500, 1757812500, 1992187500, 5976562500, 6835937500, 3320312500, 3320312500, 6054687500, 6757812500, 6992187500, 976562500, 1835937500, 8320312500, 8320312500,
  8554687500, 4257812500, 4492187500, 8476562500, 4335937500, 5820312500, 820312500, 3554687500, 9257812500, 9492187500, 3476562500, 9335937500, 820312500, 5820312500,
  4804687500, 3007812500, 5742187500, 4726562500, 8085937500, 4570312500, 2070312500, 9804687500, 8007812500, 742187500, 9726562500, 3085937500, 9570312500, 7070312500,
  7304687500, 507812500, 8242187500, 2226562500, 585937500, 7070312500, 4570312500, 2304687500, 5507812500, 3242187500, 7226562500, 5585937500, 2070312500, 9570312500,
  1679687500, 4882812500, 7617187500, 9101562500, 2460937500, 195312500, 1445312500, 6679687500, 9882812500, 2617187500, 4101562500, 7460937500, 5195312500, 6445312500,
  9179687500, 2382812500, 5117187500, 6601562500, 9960937500, 7695312500, 3945312500, 4179687500, 7382812500, 117187500, 1601562500, 4960937500, 2695312500, 8945312500,
  2929687500, 1132812500, 3867187500, 351562500, 3710937500, 1445312500, 2695312500, 7929687500, 6132812500, 8867187500, 5351562500, 8710937500, 6445312500, 7695312500,
  5429687500, 3632812500, 1367187500, 2851562500, 6210937500, 8945312500, 195312500, 429687500, 8632812500, 6367187500, 7851562500, 1210937500, 3945312500, 5195312500,
  585937500, 664062500, 9960937500, 7382812500, 7617187500, 2539062500, 664062500, 5585937500, 5664062500, 4960937500, 2382812500, 2617187500, 7539062500, 5664062500,
  8085937500, 3164062500, 7460937500, 9882812500, 117187500, 5039062500, 3164062500, 3085937500, 8164062500, 2460937500, 4882812500, 5117187500, 39062500, 8164062500,
  4335937500, 4414062500, 3710937500, 3632812500, 6367187500, 3789062500, 4414062500, 9335937500, 9414062500, 8710937500, 8632812500, 1367187500, 8789062500, 9414062500,
  6835937500, 1914062500, 1210937500, 1132812500, 3867187500, 6289062500, 1914062500, 1835937500, 6914062500, 6210937500, 6132812500, 8867187500, 1289062500, 6914062500,
  2460937500, 2539062500, 585937500, 8007812500, 3242187500, 664062500, 3789062500, 7460937500, 7539062500, 5585937500, 3007812500, 8242187500, 5664062500, 8789062500,
  9960937500, 39062500, 3085937500, 5507812500, 5742187500, 8164062500, 1289062500, 4960937500, 5039062500, 8085937500, 507812500, 742187500, 3164062500, 6289062500,
  3710937500, 1289062500, 6835937500, 1757812500, 1992187500, 1914062500, 39062500, 8710937500, 6289062500, 1835937500, 6757812500, 6992187500, 6914062500, 5039062500,
  6210937500, 3789062500, 9335937500, 4257812500, 9492187500, 9414062500, 2539062500, 1210937500, 8789062500, 4335937500, 9257812500, 4492187500, 4414062500, 7539062500,
  898437500, 4101562500, 5273437500, 820312500, 5429687500, 7226562500, 5976562500, 5898437500, 9101562500, 273437500, 5820312500, 429687500, 2226562500, 976562500,
  8398437500, 1601562500, 7773437500, 3320312500, 2929687500, 4726562500, 8476562500, 3398437500, 6601562500, 2773437500, 8320312500, 7929687500, 9726562500, 3476562500,
  4648437500, 351562500, 1523437500, 9570312500, 9179687500, 5976562500, 9726562500, 9648437500, 5351562500, 6523437500, 4570312500, 4179687500, 976562500, 4726562500,
  7148437500, 2851562500, 4023437500, 7070312500, 1679687500, 3476562500, 7226562500, 2148437500, 7851562500, 9023437500, 2070312500, 6679687500, 8476562500, 2226562500,
  1523437500, 2226562500, 4648437500, 3945312500, 1054687500, 9101562500, 9101562500, 6523437500, 7226562500, 9648437500, 8945312500, 6054687500, 4101562500, 4101562500,
  9023437500, 4726562500, 2148437500, 1445312500, 8554687500, 1601562500, 6601562500, 4023437500, 9726562500, 7148437500, 6445312500, 3554687500, 6601562500, 1601562500,
  2773437500, 3476562500, 8398437500, 5195312500, 4804687500, 7851562500, 5351562500, 7773437500, 8476562500, 3398437500, 195312500, 9804687500, 2851562500, 351562500,
  5273437500, 976562500, 5898437500, 7695312500, 7304687500, 351562500, 7851562500, 273437500, 5976562500, 898437500, 2695312500, 2304687500, 5351562500, 2851562500,
  195312500, 1992187500, 5976562500, 9023437500, 2539062500, 8710937500, 4648437500, 5195312500, 6992187500, 976562500, 4023437500, 7539062500, 3710937500, 9648437500,
  7695312500, 4492187500, 8476562500, 6523437500, 5039062500, 1210937500, 2148437500, 2695312500, 9492187500, 3476562500, 1523437500, 39062500, 6210937500, 7148437500,
  3945312500, 3242187500, 2226562500, 273437500, 1289062500, 9960937500, 898437500, 8945312500, 8242187500, 7226562500, 5273437500, 6289062500, 4960937500, 5898437500,
  6445312500, 742187500, 4726562500, 2773437500, 8789062500, 2460937500, 3398437500, 1445312500, 5742187500, 9726562500, 7773437500, 3789062500, 7460937500, 8398437500,
  2070312500, 3867187500, 4101562500, 5898437500, 8164062500, 5585937500, 273437500, 7070312500, 8867187500, 9101562500, 898437500, 3164062500, 585937500, 5273437500,
  9570312500, 1367187500, 1601562500, 8398437500, 664062500, 3085937500, 2773437500, 4570312500, 6367187500, 6601562500, 3398437500, 5664062500, 8085937500, 7773437500,
  3320312500, 117187500, 7851562500, 4648437500, 6914062500, 6835937500, 4023437500, 8320312500, 5117187500, 2851562500, 9648437500, 1914062500, 1835937500, 9023437500,
  5820312500, 2617187500, 5351562500, 2148437500, 4414062500, 4335937500, 1523437500, 820312500, 7617187500, 351562500, 7148437500, 9414062500, 9335937500, 6523437500,
  1132812500, 2929687500, 8789062500, 3085937500, 351562500, 1523437500, 9960937500, 6132812500, 7929687500, 3789062500, 8085937500, 5351562500, 6523437500, 4960937500,
  8632812500, 429687500, 6289062500, 585937500, 7851562500, 9023437500, 7460937500, 3632812500, 5429687500, 1289062500, 5585937500, 2851562500, 4023437500, 2460937500,
  4882812500, 1679687500, 2539062500, 6835937500, 4101562500, 273437500, 6210937500, 9882812500, 6679687500, 7539062500, 1835937500, 9101562500, 5273437500, 1210937500,
  7382812500, 4179687500, 39062500, 9335937500, 6601562500, 7773437500, 8710937500, 2382812500, 9179687500, 5039062500, 4335937500, 1601562500, 2773437500, 3710937500,
  1757812500, 1054687500, 664062500, 2460937500, 5976562500, 4648437500, 5585937500, 6757812500, 6054687500, 5664062500, 7460937500, 976562500, 9648437500, 585937500,
  9257812500, 3554687500, 3164062500, 4960937500, 3476562500, 7148437500, 8085937500, 4257812500, 8554687500, 8164062500, 9960937500, 8476562500, 2148437500, 3085937500,
  3007812500, 4804687500, 6914062500, 8710937500, 9726562500, 3398437500, 9335937500, 8007812500, 9804687500, 1914062500, 3710937500, 4726562500, 8398437500, 4335937500,
  5507812500, 2304687500, 9414062500, 6210937500, 2226562500, 5898437500, 6835937500, 507812500, 7304687500, 4414062500, 1210937500, 7226562500, 898437500, 1835937500,
  351562500, 4648437500, 1757812500, 4179687500, 3945312500, 1992187500, 7304687500, 5351562500, 9648437500, 6757812500, 9179687500, 8945312500, 6992187500, 2304687500,
  7851562500, 2148437500, 4257812500, 1679687500, 6445312500, 9492187500, 9804687500, 2851562500, 7148437500, 9257812500, 6679687500, 1445312500, 4492187500, 4804687500]
#guard allClose sobol_07_100 (ofGray (qrun (sobol 64 64 defaultSobolTable) 7 127 700))
def sobol_16_100 : List Nat := [
  117187500, 3320312500, 2929687500, 1914062500, 9023437500, 6757812500, 8632812500, 2460937500, 1054687500, 8164062500, 7382812500, 7382812500, 8164062500, 8789062500, 273437500, 7617187500,
  5117187500, 8320312500, 7929687500, 6914062500, 4023437500, 1757812500, 3632812500, 7460937500, 6054687500, 3164062500, 2382812500, 2382812500, 3164062500, 3789062500, 5273437500, 2617187500,
  7617187500, 820312500, 429687500, 4414062500, 1523437500, 4257812500, 6132812500, 9960937500, 8554687500, 664062500, 4882812500, 4882812500, 5664062500, 6289062500, 7773437500, 5117187500,
  2617187500, 5820312500, 5429687500, 9414062500, 6523437500, 9257812500, 1132812500, 4960937500, 3554687500, 5664062500, 9882812500, 9882812500, 664062500, 1289062500, 2773437500, 117187500,
  3867187500, 2070312500, 9179687500, 8164062500, 5273437500, 5507812500, 7382812500, 8710937500, 9804687500, 4414062500, 3632812500, 8632812500, 6914062500, 2539062500, 4023437500, 1367187500,
  8867187500, 7070312500, 4179687500, 3164062500, 273437500, 507812500, 2382812500, 3710937500, 4804687500, 9414062500, 8632812500, 3632812500, 1914062500, 7539062500, 9023437500, 6367187500,
  6367187500, 4570312500, 6679687500, 5664062500, 2773437500, 3007812500, 9882812500, 1210937500, 2304687500, 6914062500, 6132812500, 1132812500, 9414062500, 39062500, 6523437500, 3867187500,
  1367187500, 9570312500, 1679687500, 664062500, 7773437500, 8007812500, 4882812500, 6210937500, 7304687500, 1914062500, 1132812500, 6132812500, 4414062500, 5039062500, 1523437500, 8867187500,
  1992187500, 195312500, 7304687500, 2539062500, 4648437500, 9882812500, 6757812500, 8085937500, 9179687500, 5039062500, 507812500, 6757812500, 1289062500, 664062500, 8398437500, 1992187500,
  6992187500, 5195312500, 2304687500, 7539062500, 9648437500, 4882812500, 1757812500, 3085937500, 4179687500, 39062500, 5507812500, 1757812500, 6289062500, 5664062500, 3398437500, 6992187500,
  9492187500, 2695312500, 9804687500, 39062500, 7148437500, 2382812500, 9257812500, 585937500, 1679687500, 2539062500, 8007812500, 4257812500, 3789062500, 3164062500, 898437500, 4492187500,
  4492187500, 7695312500, 4804687500, 5039062500, 2148437500, 7382812500, 4257812500, 5585937500, 6679687500, 7539062500, 3007812500, 9257812500, 8789062500, 8164062500, 5898437500, 9492187500,
  3242187500, 3945312500, 1054687500, 6289062500, 898437500, 8632812500, 8007812500, 1835937500, 429687500, 1289062500, 9257812500, 8007812500, 2539062500, 6914062500, 7148437500, 8242187500,
  8242187500, 8945312500, 6054687500, 1289062500, 5898437500, 3632812500, 3007812500, 6835937500, 5429687500, 6289062500, 4257812500, 3007812500, 7539062500, 1914062500, 2148437500, 3242187500,
  5742187500, 1445312500, 3554687500, 8789062500, 8398437500, 1132812500, 5507812500, 9335937500, 7929687500, 8789062500, 1757812500, 507812500, 39062500, 9414062500, 4648437500, 5742187500,
  742187500, 6445312500, 8554687500, 3789062500, 3398437500, 6132812500, 507812500, 4335937500, 2929687500, 3789062500, 6757812500, 5507812500, 5039062500, 4414062500, 9648437500, 742187500,
  1054687500, 1757812500, 1992187500, 5976562500, 6835937500, 3320312500, 3320312500, 9023437500, 3867187500, 9726562500, 6445312500, 8320312500, 4726562500, 2851562500, 3710937500, 7929687500,
  6054687500, 6757812500, 6992187500, 976562500, 1835937500, 8320312500, 8320312500, 4023437500, 8867187500, 4726562500, 1445312500, 3320312500, 9726562500, 7851562500, 8710937500, 2929687500,
  8554687500, 4257812500, 4492187500, 8476562500, 4335937500, 5820312500, 820312500, 1523437500, 6367187500, 2226562500, 3945312500, 820312500, 2226562500, 351562500, 6210937500, 5429687500,
  3554687500, 9257812500, 9492187500, 3476562500, 9335937500, 820312500, 5820312500, 6523437500, 1367187500, 7226562500, 8945312500, 5820312500, 7226562500, 5351562500, 1210937500, 429687500,
  4804687500, 3007812500, 5742187500, 4726562500, 8085937500, 4570312500, 2070312500, 273437500, 5117187500, 3476562500, 2695312500, 7070312500, 976562500, 9101562500, 2460937500, 1679687500,
  9804687500, 8007812500, 742187500, 9726562500, 3085937500, 9570312500, 7070312500, 5273437500, 117187500, 8476562500, 7695312500, 2070312500, 5976562500, 4101562500, 7460937500, 6679687500,
  7304687500, 507812500, 8242187500, 2226562500, 585937500, 7070312500, 4570312500, 7773437500, 2617187500, 5976562500, 5195312500, 4570312500, 3476562500, 6601562500, 9960937500, 4179687500,
  2304687500, 5507812500, 3242187500, 7226562500, 5585937500, 2070312500, 9570312500, 2773437500, 7617187500, 976562500, 195312500, 9570312500, 8476562500, 1601562500, 4960937500, 9179687500,
  1679687500, 4882812500, 7617187500, 9101562500, 2460937500, 195312500, 1445312500, 898437500, 5742187500, 6601562500, 820312500, 7695312500, 5351562500, 7226562500, 5585937500, 2304687500,
  6679687500, 9882812500, 2617187500, 4101562500, 7460937500, 5195312500, 6445312500, 5898437500, 742187500, 1601562500, 5820312500, 2695312500, 351562500, 2226562500, 585937500, 7304687500,
  9179687500, 2382812500, 5117187500, 6601562500, 9960937500, 7695312500, 3945312500, 8398437500, 3242187500, 4101562500, 8320312500, 195312500, 7851562500, 9726562500, 3085937500, 4804687500,
  4179687500, 7382812500, 117187500, 1601562500, 4960937500, 2695312500, 8945312500, 3398437500, 8242187500, 9101562500, 3320312500, 5195312500, 2851562500, 4726562500, 8085937500, 9804687500,
  2929687500, 1132812500, 3867187500, 351562500, 3710937500, 1445312500, 2695312500, 9648437500, 4492187500, 351562500, 9570312500, 6445312500, 9101562500, 976562500, 9335937500, 8554687500,
  7929687500, 6132812500, 8867187500, 5351562500, 8710937500, 6445312500, 7695312500, 4648437500, 9492187500, 5351562500, 4570312500, 1445312500, 4101562500, 5976562500, 4335937500, 3554687500,
  5429687500, 3632812500, 1367187500, 2851562500, 6210937500, 8945312500, 195312500, 2148437500, 6992187500, 7851562500, 2070312500, 3945312500, 6601562500, 3476562500, 1835937500, 6054687500,
  429687500, 8632812500, 6367187500, 7851562500, 1210937500, 3945312500, 5195312500, 7148437500, 1992187500, 2851562500, 7070312500, 8945312500, 1601562500, 8476562500, 6835937500, 1054687500,
  585937500, 664062500, 9960937500, 7382812500, 7617187500, 2539062500, 664062500, 5742187500, 9023437500, 8632812500, 8476562500, 2851562500, 6445312500, 1132812500, 9804687500, 8710937500,
  5585937500, 5664062500, 4960937500, 2382812500, 2617187500, 7539062500, 5664062500, 742187500, 4023437500, 3632812500, 3476562500, 7851562500, 1445312500, 6132812500, 4804687500, 3710937500,
  8085937500, 3164062500, 7460937500, 9882812500, 117187500, 5039062500, 3164062500, 3242187500, 1523437500, 1132812500, 976562500, 5351562500, 8945312500, 3632812500, 2304687500, 6210937500,
  3085937500, 8164062500, 2460937500, 4882812500, 5117187500, 39062500, 8164062500, 8242187500, 6523437500, 6132812500, 5976562500, 351562500, 3945312500, 8632812500, 7304687500, 1210937500,
  4335937500, 4414062500, 3710937500, 3632812500, 6367187500, 3789062500, 4414062500, 4492187500, 273437500, 4882812500, 2226562500, 1601562500, 7695312500, 7382812500, 6054687500, 2460937500,
  9335937500, 9414062500, 8710937500, 8632812500, 1367187500, 8789062500, 9414062500, 9492187500, 5273437500, 9882812500, 7226562500, 6601562500, 2695312500, 2382812500, 1054687500, 7460937500,
  6835937500, 1914062500, 1210937500, 1132812500, 3867187500, 6289062500, 1914062500, 6992187500, 7773437500, 7382812500, 9726562500, 9101562500, 5195312500, 9882812500, 3554687500, 4960937500,
  1835937500, 6914062500, 6210937500, 6132812500, 8867187500, 1289062500, 6914062500, 1992187500, 2773437500, 2382812500, 4726562500, 4101562500, 195312500, 4882812500, 8554687500, 9960937500,
  2460937500, 2539062500, 585937500, 8007812500, 3242187500, 664062500, 3789062500, 3867187500, 898437500, 5507812500, 4101562500, 3476562500, 3320312500, 9257812500, 1679687500, 1835937500,
  7460937500, 7539062500, 5585937500, 3007812500, 8242187500, 5664062500, 8789062500, 8867187500, 5898437500, 507812500, 9101562500, 8476562500, 8320312500, 4257812500, 6679687500, 6835937500,
  9960937500, 39062500, 3085937500, 5507812500, 5742187500, 8164062500, 1289062500, 6367187500, 8398437500, 3007812500, 6601562500, 5976562500, 820312500, 6757812500, 9179687500, 4335937500,
  4960937500, 5039062500, 8085937500, 507812500, 742187500, 3164062500, 6289062500, 1367187500, 3398437500, 8007812500, 1601562500, 976562500, 5820312500, 1757812500, 4179687500, 9335937500,
  3710937500, 1289062500, 6835937500, 1757812500, 1992187500, 1914062500, 39062500, 5117187500, 9648437500, 1757812500, 5351562500, 2226562500, 2070312500, 3007812500, 2929687500, 8085937500,
  8710937500, 6289062500, 1835937500, 6757812500, 6992187500, 6914062500, 5039062500, 117187500, 4648437500, 6757812500, 351562500, 7226562500, 7070312500, 8007812500, 7929687500, 3085937500,
  6210937500, 3789062500, 9335937500, 4257812500, 9492187500, 9414062500, 2539062500, 2617187500, 2148437500, 9257812500, 2851562500, 9726562500, 4570312500, 507812500, 5429687500, 5585937500,
  1210937500, 8789062500, 4335937500, 9257812500, 4492187500, 4414062500, 7539062500, 7617187500, 7148437500, 4257812500, 7851562500, 4726562500, 9570312500, 5507812500, 429687500, 585937500,
  898437500, 4101562500, 5273437500, 820312500, 5429687500, 7226562500, 5976562500, 2929687500, 6210937500, 9570312500, 7539062500, 1289062500, 507812500, 7070312500, 6367187500, 8398437500,
  5898437500, 9101562500, 273437500, 5820312500, 429687500, 2226562500, 976562500, 7929687500, 1210937500, 4570312500, 2539062500, 6289062500, 5507812500, 2070312500, 1367187500, 3398437500,
  8398437500, 1601562500, 7773437500, 3320312500, 2929687500, 4726562500, 8476562500, 5429687500, 3710937500, 2070312500, 39062500, 8789062500, 3007812500, 9570312500, 3867187500, 5898437500,
  3398437500, 6601562500, 2773437500, 8320312500, 7929687500, 9726562500, 3476562500, 429687500, 8710937500, 7070312500, 5039062500, 3789062500, 8007812500, 4570312500, 8867187500, 898437500,
  4648437500, 351562500, 1523437500, 9570312500, 9179687500, 5976562500, 9726562500, 6679687500, 4960937500, 3320312500, 1289062500, 2539062500, 4257812500, 820312500, 7617187500, 2148437500,
  9648437500, 5351562500, 6523437500, 4570312500, 4179687500, 976562500, 4726562500, 1679687500, 9960937500, 8320312500, 6289062500, 7539062500, 9257812500, 5820312500, 2617187500, 7148437500,
  7148437500, 2851562500, 4023437500, 7070312500, 1679687500, 3476562500, 7226562500, 4179687500, 7460937500, 5820312500, 8789062500, 5039062500, 1757812500, 3320312500, 117187500, 4648437500,
  2148437500, 7851562500, 9023437500, 2070312500, 6679687500, 8476562500, 2226562500, 9179687500, 2460937500, 820312500, 3789062500, 39062500, 6757812500, 8320312500, 5117187500, 9648437500,
  1523437500, 2226562500, 4648437500, 3945312500, 1054687500, 9101562500, 9101562500, 7304687500, 4335937500, 6445312500, 4414062500, 1914062500, 9882812500, 2695312500, 4492187500, 1523437500,
  6523437500, 7226562500, 9648437500, 8945312500, 6054687500, 4101562500, 4101562500, 2304687500, 9335937500, 1445312500, 9414062500, 6914062500, 4882812500, 7695312500, 9492187500, 6523437500,
  9023437500, 4726562500, 2148437500, 1445312500, 8554687500, 1601562500, 6601562500, 4804687500, 6835937500, 3945312500, 6914062500, 9414062500, 7382812500, 195312500, 6992187500, 4023437500,
  4023437500, 9726562500, 7148437500, 6445312500, 3554687500, 6601562500, 1601562500, 9804687500, 1835937500, 8945312500, 1914062500, 4414062500, 2382812500, 5195312500, 1992187500, 9023437500,
  2773437500, 3476562500, 8398437500, 5195312500, 4804687500, 7851562500, 5351562500, 3554687500, 5585937500, 195312500, 5664062500, 3164062500, 6132812500, 8945312500, 742187500, 7773437500,
  7773437500, 8476562500, 3398437500, 195312500, 9804687500, 2851562500, 351562500, 8554687500, 585937500, 5195312500, 664062500, 8164062500, 1132812500, 3945312500, 5742187500, 2773437500,
  5273437500, 976562500, 5898437500, 7695312500, 7304687500, 351562500, 7851562500, 6054687500, 3085937500, 7695312500, 3164062500, 5664062500, 8632812500, 6445312500, 8242187500, 5273437500,
  273437500, 5976562500, 898437500, 2695312500, 2304687500, 5351562500, 2851562500, 1054687500, 8085937500, 2695312500, 8164062500, 664062500, 3632812500, 1445312500, 3242187500, 273437500,
  195312500, 1992187500, 5976562500, 9023437500, 2539062500, 8710937500, 4648437500, 351562500, 6445312500, 8085937500, 3085937500, 5273437500, 7460937500, 4023437500, 7851562500, 2539062500,
  5195312500, 6992187500, 976562500, 4023437500, 7539062500, 3710937500, 9648437500, 5351562500, 1445312500, 3085937500, 8085937500, 273437500, 2460937500, 9023437500, 2851562500, 7539062500,
  7695312500, 4492187500, 8476562500, 6523437500, 5039062500, 1210937500, 2148437500, 7851562500, 3945312500, 585937500, 5585937500, 2773437500, 9960937500, 1523437500, 351562500, 39062500,
  2695312500, 9492187500, 3476562500, 1523437500, 39062500, 6210937500, 7148437500, 2851562500, 8945312500, 5585937500, 585937500, 7773437500, 4960937500, 6523437500, 5351562500, 5039062500,
  3945312500, 3242187500, 2226562500, 273437500, 1289062500, 9960937500, 898437500, 9101562500, 2695312500, 4335937500, 6835937500, 9023437500, 8710937500, 7773437500, 6601562500, 6289062500,
  8945312500, 8242187500, 7226562500, 5273437500, 6289062500, 4960937500, 5898437500, 4101562500, 7695312500, 9335937500, 1835937500, 4023437500, 3710937500, 2773437500, 1601562500, 1289062500,
  6445312500, 742187500, 4726562500, 2773437500, 8789062500, 2460937500, 3398437500, 1601562500, 5195312500, 6835937500, 4335937500, 1523437500, 6210937500, 5273437500, 4101562500, 8789062500,
  1445312500, 5742187500, 9726562500, 7773437500, 3789062500, 7460937500, 8398437500, 6601562500, 195312500, 1835937500, 9335937500, 6523437500, 1210937500, 273437500, 9101562500, 3789062500,
  2070312500, 3867187500, 4101562500, 5898437500, 8164062500, 5585937500, 273437500, 9726562500, 3320312500, 6210937500, 9960937500, 5898437500, 3085937500, 5898437500, 976562500, 6914062500,
  7070312500, 8867187500, 9101562500, 898437500, 3164062500, 585937500, 5273437500, 4726562500, 8320312500, 1210937500, 4960937500, 898437500, 8085937500, 898437500, 5976562500, 1914062500,
  9570312500, 1367187500, 1601562500, 8398437500, 664062500, 3085937500, 2773437500, 2226562500, 5820312500, 3710937500, 2460937500, 3398437500, 585937500, 8398437500, 8476562500, 9414062500,
  4570312500, 6367187500, 6601562500, 3398437500, 5664062500, 8085937500, 7773437500, 7226562500, 820312500, 8710937500, 7460937500, 8398437500, 5585937500, 3398437500, 3476562500, 4414062500,
  3320312500, 117187500, 7851562500, 4648437500, 6914062500, 6835937500, 4023437500, 976562500, 7070312500, 2460937500, 1210937500, 9648437500, 1835937500, 2148437500, 4726562500, 3164062500,
  8320312500, 5117187500, 2851562500, 9648437500, 1914062500, 1835937500, 9023437500, 5976562500, 2070312500, 7460937500, 6210937500, 4648437500, 6835937500, 7148437500, 9726562500, 8164062500,
  5820312500, 2617187500, 5351562500, 2148437500, 4414062500, 4335937500, 1523437500, 8476562500, 4570312500, 9960937500, 8710937500, 2148437500, 4335937500, 4648437500, 7226562500, 664062500,
  820312500, 7617187500, 351562500, 7148437500, 9414062500, 9335937500, 6523437500, 3476562500, 9570312500, 4960937500, 3710937500, 7148437500, 9335937500, 9648437500, 2226562500, 5664062500,
  1132812500, 2929687500, 8789062500, 3085937500, 351562500, 1523437500, 9960937500, 8164062500, 8632812500, 9023437500, 3398437500, 9335937500, 898437500, 8085937500, 5664062500, 2851562500,
  6132812500, 7929687500, 3789062500, 8085937500, 5351562500, 6523437500, 4960937500, 3164062500, 3632812500, 4023437500, 8398437500, 4335937500, 5898437500, 3085937500, 664062500, 7851562500,
  8632812500, 429687500, 6289062500, 585937500, 7851562500, 9023437500, 7460937500, 664062500, 1132812500, 1523437500, 5898437500, 1835937500, 3398437500, 5585937500, 3164062500, 351562500,
  3632812500, 5429687500, 1289062500, 5585937500, 2851562500, 4023437500, 2460937500, 5664062500, 6132812500, 6523437500, 898437500, 6835937500, 8398437500, 585937500, 8164062500, 5351562500,
  4882812500, 1679687500, 2539062500, 6835937500, 4101562500, 273437500, 6210937500, 1914062500, 2382812500, 2773437500, 7148437500, 5585937500, 4648437500, 4335937500, 9414062500, 6601562500,
  9882812500, 6679687500, 7539062500, 1835937500, 9101562500, 5273437500, 1210937500, 6914062500, 7382812500, 7773437500, 2148437500, 585937500, 9648437500, 9335937500, 4414062500, 1601562500,
  7382812500, 4179687500, 39062500, 9335937500, 6601562500, 7773437500, 8710937500, 9414062500, 9882812500, 5273437500, 4648437500, 3085937500, 2148437500, 1835937500, 1914062500, 9101562500,
  2382812500, 9179687500, 5039062500, 4335937500, 1601562500, 2773437500, 3710937500, 4414062500, 4882812500, 273437500, 9648437500, 8085937500, 7148437500, 6835937500, 6914062500, 4101562500,
  1757812500, 1054687500, 664062500, 2460937500, 5976562500, 4648437500, 5585937500, 1289062500, 1757812500, 7148437500, 9023437500, 9960937500, 9023437500, 2460937500, 2539062500, 7226562500,
  6757812500, 6054687500, 5664062500, 7460937500, 976562500, 9648437500, 585937500, 6289062500, 6757812500, 2148437500, 4023437500, 4960937500, 4023437500, 7460937500, 7539062500, 2226562500,
  9257812500, 3554687500, 3164062500, 4960937500, 3476562500, 7148437500, 8085937500, 8789062500, 9257812500, 4648437500, 1523437500, 2460937500, 6523437500, 4960937500, 5039062500, 9726562500,
  4257812500, 8554687500, 8164062500, 9960937500, 8476562500, 2148437500, 3085937500, 3789062500, 4257812500, 9648437500, 6523437500, 7460937500, 1523437500, 9960937500, 39062500, 4726562500,
  3007812500, 4804687500, 6914062500, 8710937500, 9726562500, 3398437500, 9335937500, 7539062500, 8007812500, 898437500, 273437500, 6210937500, 5273437500, 6210937500, 1289062500, 3476562500,
  8007812500, 9804687500, 1914062500, 3710937500, 4726562500, 8398437500, 4335937500, 2539062500, 3007812500, 5898437500, 5273437500, 1210937500, 273437500, 1210937500, 6289062500, 8476562500,
  5507812500, 2304687500, 9414062500, 6210937500, 2226562500, 5898437500, 6835937500, 39062500, 507812500, 8398437500, 7773437500, 3710937500, 7773437500, 8710937500, 8789062500, 976562500,
  507812500, 7304687500, 4414062500, 1210937500, 7226562500, 898437500, 1835937500, 5039062500, 5507812500, 3398437500, 2773437500, 8710937500, 2773437500, 3710937500, 3789062500, 5976562500,
  351562500, 4648437500, 1757812500, 4179687500, 3945312500, 1992187500, 7304687500, 6445312500, 3476562500, 7617187500, 1679687500, 4492187500, 7929687500, 6054687500, 2070312500, 3632812500,
  5351562500, 9648437500, 6757812500, 9179687500, 8945312500, 6992187500, 2304687500, 1445312500, 8476562500, 2617187500, 6679687500, 9492187500, 2929687500, 1054687500, 7070312500, 8632812500,
  7851562500, 2148437500, 4257812500, 1679687500, 6445312500, 9492187500, 9804687500, 3945312500, 5976562500, 117187500, 9179687500, 6992187500, 5429687500, 8554687500, 9570312500, 1132812500,
  2851562500, 7148437500, 9257812500, 6679687500, 1445312500, 4492187500, 4804687500, 8945312500, 976562500, 5117187500, 4179687500, 1992187500, 429687500, 3554687500, 4570312500, 6132812500]
#guard allClose sobol_16_100 (ofGray (qrun (sobol 64 64 defaultSobolTable) 16 127 1600))

/-! ## test/niederreiter_base2_validate.cpp -/
def niederreiter_base2_02_100 : List Nat := [
  3662109, 4705810548, 5003662111, 9705810549, 7503662111, 2205810547, 2503662110, 7205810549, 3753662110, 955810547, 8753662111, 5955810548, 6253662111, 3455810548, 1253662110, 8455810549,
  1878662110, 1580810547, 6878662111, 6580810548, 9378662112, 4080810548, 4378662110, 9080810549, 3128662110, 2830810548, 8128662111, 7830810549, 5628662111, 330810547, 628662110, 5330810548,
  941162110, 18310547, 5941162111, 5018310548, 8441162111, 2518310547, 3441162110, 7518310549, 4691162110, 3768310548, 9691162112, 8768310549, 7191162111, 1268310547, 2191162110, 6268310548,
  1566162110, 3143310548, 6566162111, 8143310549, 9066162111, 643310547, 4066162110, 5643310548, 2816162110, 1893310547, 7816162111, 6893310548, 5316162111, 4393310548, 316162109, 9393310549,
  472412109, 2362060547, 5472412111, 7362060549, 7972412111, 4862060548, 2972412110, 9862060549, 4222412110, 3612060548, 9222412112, 8612060549, 6722412111, 1112060547, 1722412110, 6112060548,
  2347412110, 4237060548, 7347412111, 9237060549, 9847412112, 1737060547, 4847412111, 6737060548, 3597412110, 487060547, 8597412111, 5487060548, 6097412111, 2987060548, 1097412110, 7987060549,
  784912110, 2674560547, 5784912111, 7674560549, 8284912111, 174560547, 3284912110, 5174560548, 4534912110, 1424560547, 9534912112, 6424560548, 7034912111, 3924560548, 2034912110, 8924560549,
  1409912110, 799560547, 6409912111, 5799560548, 8909912111, 3299560548, 3909912110, 8299560549, 2659912110, 4549560548, 7659912111, 9549560549, 5159912111, 2049560547, 159912109, 7049560549,
  238037109, 1190185547, 5238037111, 6190185548, 7738037111, 3690185548, 2738037110, 8690185549, 3988037110, 4940185548, 8988037111, 9940185549, 6488037111, 2440185547, 1488037110, 7440185549,
  2113037110, 3065185548, 7113037111, 8065185549, 9613037112, 565185547, 4613037110, 5565185548, 3363037110, 1815185547, 8363037111, 6815185548, 5863037111, 4315185548, 863037110, 9315185549,
  1175537110, 4002685548, 6175537111, 9002685549, 8675537111, 1502685547, 3675537110, 6502685548, 4925537111, 252685547, 9925537112, 5252685548, 7425537111, 2752685548, 2425537110, 7752685549,
  1800537110, 2127685547, 6800537111, 7127685549, 9300537112, 4627685548, 4300537110, 9627685549, 3050537110, 3377685548, 8050537111, 8377685549, 5550537111, 877685547, 550537110, 5877685548,
  394287109, 3533935548, 5394287111, 8533935549, 7894287111, 1033935547, 2894287110, 6033935548]
#guard allClose niederreiter_base2_02_100 (ofGray (qrun (niederreiter 64 64 defaultNbTable) 2 4095 200))
def niederreiter_base2_07_100 : List Nat := [
  3662109, 4705810548, 6358642580, 9561767580, 6715087892, 9793701174, 6053466798, 5003662111, 9705810549, 3858642579, 811767578, 2965087891, 418701172, 4178466798,
  7503662111, 2205810547, 9483642580, 8155517580, 5621337892, 9207763674, 5467529298, 2503662110, 7205810549, 1983642579, 1905517579, 4371337892, 1082763672, 4842529298,
  3753662110, 955810547, 2608642579, 7374267580, 7652587892, 8465576174, 6600341798, 8753662111, 5955810548, 5108642579, 3624267579, 1402587891, 1590576172, 3475341798,
  6253662111, 3455810548, 733642578, 5968017580, 9058837893, 7879638674, 7264404299, 1253662110, 8455810549, 8233642580, 4718017579, 308837891, 2254638672, 2889404298,
  1878662110, 1580810547, 1514892578, 2686767579, 3590087891, 7449951174, 9334716799, 6878662111, 6580810548, 9014892580, 6436767580, 7340087892, 3074951173, 1209716797,
  9378662112, 4080810548, 4639892579, 3780517579, 4996337892, 6864013673, 9998779299, 4378662110, 9080810549, 7139892580, 5030517579, 6246337892, 3739013673, 623779297,
  3128662110, 2830810548, 7764892580, 499267578, 2027587891, 6121826173, 8631591799, 8128662111, 7830810549, 264892578, 9249267580, 8277587893, 4246826173, 1756591797,
  5628662111, 330810547, 5889892579, 1593017578, 933837891, 5535888673, 8045654299, 628662110, 5330810548, 3389892579, 7843017580, 9683837893, 4910888673, 2420654297,
  941162110, 18310547, 9171142580, 5635986329, 4195556642, 3856201173, 3865966798, 5941162111, 5018310548, 1671142579, 4385986329, 5445556642, 5731201173, 5740966798,
  8441162111, 2518310547, 7296142580, 7042236330, 3101806641, 4520263673, 4530029298, 3441162110, 7518310549, 4796142579, 3292236329, 6851806642, 5145263673, 5155029298,
  4691162110, 3768310548, 421142578, 8448486330, 133056641, 2528076172, 3162841798, 9691162112, 8768310549, 7921142580, 2198486329, 8883056643, 6903076173, 6287841798,
  7191162111, 1268310547, 3546142579, 9854736330, 1539306641, 3192138673, 2576904297, 2191162110, 6268310548, 6046142580, 1104736328, 7789306642, 6317138673, 6951904298,
  1566162110, 3143310548, 4327392579, 1260986328, 6070556642, 1512451172, 897216797, 6566162111, 8143310549, 6827392580, 7510986330, 4820556642, 8387451174, 9022216799,
  9066162111, 643310547, 2452392579, 167236328, 7476806642, 2176513672, 311279297, 4066162110, 5643310548, 9952392580, 8917236330, 3726806641, 7801513674, 9686279299,
  2816162110, 1893310547, 5577392579, 4073486329, 9508056643, 184326172, 1444091797, 7816162111, 6893310548, 3077392579, 5323486329, 758056641, 9559326174, 8319091799,
  5316162111, 4393310548, 8702392580, 2979736329, 8414306643, 848388672, 2108154297, 316162109, 9393310549, 1202392578, 6729736330, 2164306641, 8973388674, 7733154299,
  472412109, 2362060547, 4522705079, 1007080078, 426025391, 7955322267, 4801025392, 5472412111, 7362060549, 7022705080, 9757080080, 9176025393, 2330322266, 5426025392,
  7972412111, 4862060548, 1397705078, 2413330079, 1832275391, 8541259768, 4215087892, 2972412110, 9862060549, 8897705080, 8663330080, 8082275393, 1666259766, 6090087892,
  4222412110, 3612060548, 5772705079, 3194580079, 3863525392, 9127197268, 2847900391, 9222412112, 8612060549, 3272705079, 6944580080, 5113525392, 1002197266, 7222900392,
  6722412111, 1112060547, 7647705080, 4600830079, 2769775391, 9713134768, 3511962891, 1722412110, 6112060548, 147705078, 5850830079, 6519775392, 338134766, 6636962892,
  2347412110, 4237060548, 9678955080, 6632080080, 9801025393, 5611572267, 582275391, 7347412111, 9237060549, 2178955079, 2882080079, 1051025391, 4986572267, 9957275393,
  9847412112, 1737060547, 6553955080, 5538330079, 8707275393, 6197509767, 1246337891, 4847412111, 6737060548, 4053955079, 4288330079, 2457275391, 4322509767, 9371337893,
  3597412110, 487060547, 928955078, 8819580080, 5738525392, 6783447267, 2379150391, 8597412111, 5487060548, 8428955080, 69580078, 4488525392, 3658447266, 8004150392,
  6097412111, 2987060548, 2803955079, 7725830080, 7144775392, 7369384767, 1793212891, 1097412110, 7987060549, 5303955079, 1475830078, 3394775391, 2994384766, 8668212893,
  784912110, 2674560547, 2335205079, 4893798829, 7906494142, 3267822266, 5113525392, 5784912111, 7674560549, 9835205080, 6143798830, 1656494141, 6392822267, 4488525392,
  8284912111, 174560547, 4210205079, 3487548829, 9312744143, 2603759766, 5777587892, 3284912110, 5174560548, 6710205080, 7237548830, 562744141, 6978759767, 3902587892,
  4534912110, 1424560547, 8585205080, 2081298829, 6343994142, 4439697267, 6910400392, 9534912112, 6424560548, 1085205078, 8331298830, 2593994141, 5064697267, 2535400391,
  7034912111, 3924560548, 5460205079, 675048828, 5250244142, 3775634767, 6324462892, 2034912110, 8924560549, 2960205079, 9425048830, 4000244142, 5650634767, 3199462891,
  1409912110, 799560547, 7491455080, 8018798830, 2281494141, 924072266, 9644775393, 6409912111, 5799560548, 4991455079, 1768798829, 8531494143, 9049072268, 269775391,
  8909912111, 3299560548, 9366455080, 9112548830, 1187744141, 260009766, 9058837893, 3909912110, 8299560549, 1866455079, 362548828, 9937744143, 9635009768, 933837891,
  2659912110, 4549560548, 3741455079, 5206298829, 3218994141, 2095947266, 7691650392, 7659912111, 9549560549, 6241455080, 3956298829, 6968994142, 7720947267, 2066650391,
  5159912111, 2049560547, 616455078, 6300048830, 4625244142, 1431884766, 8355712893, 159912109, 7049560549, 8116455080, 2550048829, 5875244142, 8306884768, 1480712891,
  238037109, 1190185547, 186767578, 1827392579, 9136962893, 5960693361, 2923583985, 5238037111, 6190185548, 7686767580, 8077392580, 386962891, 4085693360, 7298583986,
  7738037111, 3690185548, 3311767579, 421142578, 8043212892, 5374755861, 3587646485, 2738037110, 8690185549, 5811767579, 9171142580, 1793212891, 4749755860, 6712646486,
  3988037110, 4940185548, 8936767580, 4014892579, 5074462892, 7288818361, 4720458985, 8988037111, 9940185549, 1436767578, 5264892579, 3824462892, 2913818360, 5345458986,
  6488037111, 2440185547, 7061767580, 2608642579, 6480712892, 6702880861, 4134521485, 1488037110, 7440185549, 4561767579, 6358642580, 2730712891, 3577880860, 6009521486,
  2113037110, 3065185548, 5030517579, 6202392580, 1011962891, 8616943361, 2454833985, 7113037111, 8065185549, 2530517579, 4952392579, 9761962893, 1741943360, 8079833986,
  9613037112, 565185547, 8155517580, 7296142580, 2418212891, 8031005861, 1868896485, 4613037110, 5565185548, 655517578, 3546142579, 8668212893, 2406005860, 8743896486,
  3363037110, 1815185547, 3780517579, 8389892580, 4449462892, 9945068362, 501708984, 8363037111, 6815185548, 6280517580, 2139892579, 5699462892, 570068360, 9876708987,
  5863037111, 4315185548, 1905517579, 9483642580, 3355712891, 9359130862, 1165771485, 863037110, 9315185549, 9405517580, 733642578, 7105712892, 1234130860, 9290771487,
  1175537110, 4002685548, 2999267579, 2901611329, 1617431641, 23193359, 6986083986, 6175537111, 9002685549, 5499267579, 6651611330, 7867431642, 9398193362, 2611083985,
  8675537111, 1502685547, 1124267578, 4307861329, 523681641, 687255860, 6400146486, 3675537110, 6502685548, 8624267580, 5557861329, 9273681643, 8812255861, 3275146485,
  4925537111, 252685547, 6749267580, 89111328, 2554931641, 1351318360, 5032958986, 9925537112, 5252685548, 4249267579, 8839111330, 6304931642, 8226318361, 4407958985,
  7425537111, 2752685548, 9874267580, 1495361328, 3961181642, 2015380860, 5697021486, 2425537110, 7752685549, 2374267579, 7745361330, 5211181642, 7640380861, 3822021485,
  1800537110, 2127685547, 7843017580, 9776611330, 8492431643, 2679443360, 7767333986, 6800537111, 7127685549, 343017578, 1026611328, 2242431641, 7054443361, 2142333985,
  9300537112, 4627685548, 5968017580, 8682861330, 9898681643, 3343505860, 8431396486, 4300537110, 9627685549, 3468017579, 2432861329, 1148681641, 6468505861, 1556396485,
  3050537110, 3377685548, 1593017578, 6964111330, 6929931642, 4007568360, 9564208987, 8050537111, 8377685549, 9093017580, 3214111329, 3179931641, 5882568361, 189208984,
  5550537111, 877685547, 4718017579, 5870361329, 5836181642, 4671630860, 8978271486, 550537110, 5877685548, 7218017580, 4620361329, 4586181642, 5296630861, 853271485,
  394287109, 3533935548, 8350830080, 7647705080, 2847900391, 6622314455, 6671142580, 5394287111, 8533935549, 850830078, 1397705078, 6597900392, 3497314454, 3546142579,
  7894287111, 1033935547, 5225830079, 9053955080, 4254150392, 7208251955, 7335205080, 2894287110, 6033935548, 2725830079, 303955078, 5504150392, 2833251954, 2960205079]
#guard allClose niederreiter_base2_07_100 (ofGray (qrun (niederreiter 64 64 defaultNbTable) 7 4095 700))
def niederreiter_base2_16_100 : List Nat := [
  3662109, 4705810548, 6358642580, 9561767580, 6715087892, 9793701174, 6053466798, 1983642579, 2217731476, 3769855500, 5390644075, 4707050325, 2744159699, 9942340853, 5396728517, 626220703,
  5003662111, 9705810549, 3858642579, 811767578, 2965087891, 418701172, 4178466798, 7608642580, 7530231478, 5957355501, 4453144075, 5019550325, 7431659700, 254840851, 4615478517, 9219970705,
  7503662111, 2205810547, 9483642580, 8155517580, 5621337892, 9207763674, 5467529298, 1397705078, 1895465851, 4092121125, 5087909700, 4404315950, 3046894074, 9639606478, 5555419923, 784912110,
  2503662110, 7205810549, 1983642579, 1905517579, 4371337892, 1082763672, 4842529298, 8272705080, 7832965853, 5654621126, 4775409700, 5341815950, 7109394075, 577106476, 4461669923, 9066162111,
  3753662110, 955810547, 2608642579, 7374267580, 7652587892, 8465576174, 6600341798, 30517578, 1573200226, 4375324250, 6035175325, 3750019074, 3701190949, 8985309603, 5079345704, 943603516,
  8753662111, 5955810548, 5108642579, 3624267579, 1402587891, 1590576172, 3475341798, 9405517580, 8135700228, 5312824251, 3847675324, 5937519075, 6513690950, 1172809601, 4923095704, 8912353518,
  6253662111, 3455810548, 733642578, 5968017580, 9058837893, 7879638674, 7264404299, 694580078, 1250934601, 4697589875, 5732440950, 4072284699, 3378925324, 9307575228, 5238037111, 1102294922,
  1253662110, 8455810549, 8233642580, 4718017579, 308837891, 2254638672, 2889404298, 8819580080, 8438434603, 5010089875, 4169940949, 5634784700, 6816425325, 870075226, 4769287110, 8758544924,
  1878662110, 1580810547, 1514892578, 2686767579, 3590087891, 7449951174, 9334716799, 3389892579, 1006793976, 2871418000, 6367206575, 2558612824, 4658222200, 8106403353, 6031494142, 10986328,
  6878662111, 6580810548, 9014892580, 6436767580, 7340087892, 3074951173, 1209716797, 6514892580, 8819293978, 6933918001, 3554706574, 7246112825, 5595722200, 2168903351, 4000244142, 9854736330,
  9378662112, 4080810548, 4639892579, 3780517579, 4996337892, 6864013673, 9998779299, 2803955079, 684528351, 2568683625, 6689472200, 2880878449, 4960956575, 7803668978, 6190185548, 169677734,
  4378662110, 9080810549, 7139892580, 5030517579, 6246337892, 3739013673, 623779297, 7178955080, 9122028353, 7256183626, 3251972199, 6943378450, 5273456575, 2491168976, 3846435548, 9700927737,
  3128662110, 2830810548, 7764892580, 499267578, 2027587891, 6121826173, 8631591799, 3936767579, 362262726, 3476886750, 7011737825, 3476581574, 4365253450, 8399372103, 5714111329, 328369141,
  8128662111, 7830810549, 264892578, 9249267580, 8277587893, 4246826173, 1756591797, 5811767579, 9424762728, 6289386751, 2949237824, 6289081575, 5927753450, 1836872101, 4307861329, 9547119143,
  5628662111, 330810547, 5889892579, 1593017578, 933837891, 5535888673, 8045654299, 4600830079, 39997101, 3174152375, 7334003450, 3173847199, 4042987824, 8721637728, 5872802736, 487060547,
  628662110, 5330810548, 3389892579, 7843017580, 9683837893, 4910888673, 2420654297, 5225830079, 9727497103, 6611652376, 2646503449, 6611347200, 6230487825, 1534137726, 4154052735, 9393310549,
  941162110, 18310547, 9171142580, 5635986329, 4195556642, 3856201173, 3865966798, 9796142580, 4483356477, 1972980500, 8125019075, 410175324, 1728534699, 6114215852, 6666259767, 2052001954,
  5941162111, 5018310548, 1671142579, 4385986329, 5445556642, 5731201173, 5740966798, 421142578, 5420856477, 7910480501, 1562519074, 9472675326, 8291034700, 3926715852, 3385009766, 7833251955,
  8441162111, 2518310547, 7296142580, 7042236330, 3101806641, 4520263673, 4530029298, 9210205080, 4786090852, 2295246125, 8447284700, 107440949, 1406269074, 5811481477, 6824951173, 1898193360,
  3441162110, 7518310549, 4796142579, 3292236329, 6851806642, 5145263673, 5155029298, 1085205078, 5098590852, 7607746126, 1259784699, 9794940951, 8593769075, 4248981477, 3231201173, 7991943361,
  4691162110, 3768310548, 421142578, 8448486330, 133056641, 2528076172, 3162841798, 7843017580, 3838825227, 1328449250, 7519550325, 703144074, 2060565949, 5157184602, 6348876955, 2369384766,
  9691162112, 8768310549, 7921142580, 2198486329, 8883056643, 6903076173, 6287841798, 2218017579, 6026325227, 8515949251, 2207050324, 9140644076, 7998065950, 4844684602, 3692626954, 7525634767,
  7191162111, 1268310547, 3546142579, 9854736330, 1539306641, 3192138673, 2576904297, 8507080080, 4141559602, 1650714875, 7841815950, 1025409699, 2363300324, 5479450227, 6507568361, 2215576172,
  2191162110, 6268310548, 6046142580, 1104736328, 7789306642, 6317138673, 6951904298, 1632080079, 5704059602, 8213214876, 1904315949, 8837909701, 7675800325, 4541950227, 3538818360, 7684326174,
  1566162110, 3143310548, 4327392579, 1260986328, 6070556642, 1512451172, 897216797, 6202392580, 3272418977, 1074543000, 9726581576, 2011737824, 1142597199, 6778278352, 7301025392, 1436767578,
  6566162111, 8143310549, 6827392580, 7510986330, 4820556642, 8387451174, 9022216799, 4327392579, 6709918977, 8887043001, 39081573, 7949237825, 8955097201, 3340778352, 2769775391, 8468017580,
  9066162111, 643310547, 2452392579, 167236328, 7476806642, 2176513672, 311279297, 5616455079, 3575153352, 771808624, 9423847201, 2334003449, 820331574, 6475543977, 7459716799, 1282958985,
  4066162110, 5643310548, 9952392580, 8917236330, 3726806641, 7801513674, 9686279299, 4991455079, 6387653352, 9209308626, 361347199, 7646503450, 9257831576, 3663043977, 2615966797, 8626708986,
  2816162110, 1893310547, 5577392579, 4073486329, 9508056643, 184326172, 1444091797, 6749267580, 2627887726, 430011749, 9121112826, 1679706574, 224628449, 7071247102, 6983642580, 1754150391,
  7816162111, 6893310548, 3077392579, 5323486329, 758056641, 9559326174, 8319091799, 3624267579, 7315387728, 9492511751, 683612824, 8242206575, 9912128451, 3008747102, 3077392579, 8160400393,
  5316162111, 4393310548, 8702392580, 2979736329, 8414306643, 848388672, 2108154297, 7413330080, 2930622102, 127277374, 8818378451, 1376972199, 527362824, 7393512728, 7142333986, 1600341797,
  316162109, 9393310549, 1202392578, 6729736330, 2164306641, 8973388674, 7733154299, 3038330079, 6993122102, 9814777377, 1005878449, 8564472200, 9589862826, 2706012726, 2923583985, 8319091799,
  472412109, 2362060547, 4522705079, 1007080078, 426025391, 7955322267, 4801025392, 7025146486, 6748981477, 7988605501, 2421894074, 6113300325, 5712909700, 1973590851, 7935791017, 3477783204,
  5472412111, 7362060549, 7022705080, 9757080080, 9176025393, 2330322266, 5426025392, 2650146485, 3311481477, 2051105500, 7734394075, 3925800324, 4150409699, 7911090853, 2154541016, 6446533205,
  7972412111, 4862060548, 1397705078, 2413330079, 1832275391, 8541259768, 4215087892, 6361083986, 6426715852, 7685871126, 2119159699, 5810565950, 6015644075, 2295856476, 8094482424, 3636474610,
  2972412110, 9862060549, 8897705080, 8663330080, 8082275393, 1666259766, 6090087892, 3236083985, 3614215852, 2373371125, 8056659700, 4248065949, 3828144074, 7608356478, 2000732422, 6292724611,
  4222412110, 3612060548, 5772705079, 3194580079, 3863525392, 9127197268, 2847900391, 5072021486, 7354450228, 8594074251, 1816425324, 5156269075, 5419940950, 1641559601, 7618408205, 3170166016,
  9222412112, 8612060549, 3272705079, 6944580080, 5113525392, 1002197266, 7222900392, 4447021485, 2666950226, 1406574250, 8378925325, 4843769075, 4482440950, 8204059603, 2462158204, 6763916017,
  6722412111, 1112060547, 7647705080, 4600830079, 2769775391, 9713134768, 3511962891, 5657958986, 7032184602, 8291339876, 1513690949, 5478534700, 5097675325, 1338825226, 7777099611, 3328857423,
  1722412110, 6112060548, 147705078, 5850830079, 6519775392, 338134766, 6636962892, 3782958985, 2969684602, 1728839875, 8701190951, 4541034700, 4785175325, 8526325228, 2308349610, 6610107423,
  2347412110, 4237060548, 9678955080, 6632080080, 9801025393, 5611572267, 582275391, 8431396486, 5538043977, 8965168001, 898456574, 6464862825, 6376972200, 137653351, 8570556643, 2862548829,
  7347412111, 9237060549, 2178955079, 2882080079, 1051025391, 4986572267, 9957275393, 1556396485, 4600543977, 1152668000, 9335956576, 3652362824, 3564472199, 9825153353, 1539306641, 7081298830,
  9847412112, 1737060547, 6553955080, 5538330079, 8707275393, 6197509767, 1246337891, 7767333986, 5215778352, 9287433626, 1220722199, 6787128450, 6679706575, 459918976, 8729248049, 3021240235,
  4847412111, 6737060548, 4053955079, 4288330079, 2457275391, 4322509767, 9371337893, 2142333985, 4903278352, 849933624, 9033222201, 3349628449, 3242206574, 9522418978, 1385498047, 6927490236,
  3597412110, 487060547, 928955078, 8819580080, 5738525392, 6783447267, 2379150391, 8978271486, 6143512727, 9570636751, 292987824, 7382831575, 7334003450, 1055622101, 8253173830, 2554931641,
  8597412111, 5487060548, 8428955080, 69580078, 4488525392, 3658447266, 8004150392, 853271485, 3956012727, 508136749, 9980487826, 2695331574, 2646503449, 8868122103, 1846923829, 7398681642,
  6097412111, 2987060548, 2803955079, 7725830080, 7144775392, 7369384767, 1793212891, 9564208987, 5821247102, 9892902377, 615253449, 7080097200, 7011737825, 752887726, 8411865236, 2713623048,
  1097412110, 7987060549, 5303955079, 1475830078, 3394775391, 2994384766, 8668212893, 189208984, 4258747102, 205402374, 9677753451, 3017597199, 2949237824, 9190387728, 1693115235, 7244873049,
  784912110, 2674560547, 2335205079, 4893798829, 7906494142, 3267822266, 5113525392, 4837646486, 9014606478, 6191730501, 3906269074, 9316425326, 9697284701, 3145465852, 9205322268, 4903564454,
  5784912111, 7674560549, 9835205080, 6143798830, 1656494141, 6392822267, 4488525392, 5462646486, 1202106476, 4004230500, 6093769075, 878925324, 9784698, 6582965852, 924072266, 5059814454,
  8284912111, 174560547, 4210205079, 3487548829, 9312744143, 2603759766, 5777587892, 4173583985, 9317340853, 5888996126, 4228534699, 9013690951, 9375019076, 3467731477, 9364013674, 4749755860,
  3284912110, 5174560548, 6710205080, 7237548830, 562744141, 6978759767, 3902587892, 6048583986, 879840851, 4326496125, 5791034700, 1201190949, 312519074, 6280231477, 770263672, 5218505861,
  4534912110, 1424560547, 8585205080, 2081298829, 6343994142, 4439697267, 6910400392, 2884521485, 9620075228, 5547199251, 4550800325, 9609394076, 8779315951, 2813434601, 8887939455, 4595947267,
  9534912112, 6424560548, 1085205078, 8331298830, 2593994141, 5064697267, 2535400391, 7259521486, 557575226, 4609699250, 5488300325, 546894074, 966815949, 6875934602, 1231689453, 5377197267,
  7034912111, 3924560548, 5460205079, 675048828, 5250244142, 3775634767, 6324462892, 3470458985, 9922809603, 5244464875, 4873065950, 9931659701, 9082050326, 2510700226, 9046630861, 4442138673,
  2034912110, 8924560549, 2960205079, 9425048830, 4000244142, 5650634767, 3199462891, 6595458986, 235309601, 4931964875, 5185565950, 244159699, 644550324, 7198200228, 1077880860, 5535888673,
  1409912110, 799560547, 7491455080, 8018798830, 2281494141, 924072266, 9644775393, 1243896485, 7803668978, 7168293001, 3007831574, 8417987825, 7861347200, 3809528352, 9840087893, 4288330079,
  6409912111, 5799560548, 4991455079, 1768798829, 8531494143, 9049072268, 269775391, 9368896487, 2491168976, 3105793000, 7070331575, 1855487824, 1923847199, 5997028352, 308837891, 5694580079,
  8909912111, 3299560548, 9366455080, 9112548830, 1187744141, 260009766, 9058837893, 579833985, 8106403353, 7490558626, 2705097199, 8740253451, 7539081575, 4131793977, 9998779299, 4134521485,
  3909912110, 8299560549, 1866455079, 362548828, 9937744143, 9635009768, 933837891, 9954833987, 2168903351, 2803058625, 7392597200, 1552753449, 2226581574, 5694293977, 155029297, 5853271486,
  2659912110, 4549560548, 3741455079, 5206298829, 3218994141, 2095947266, 7691650392, 1790771485, 8409137728, 6523761751, 3652362824, 8085956575, 8193378450, 4727497102, 9522705080, 3980712892,
  7659912111, 9549560549, 6241455080, 3956298829, 6968994142, 7720947267, 2066650391, 8665771486, 1846637726, 3711261750, 6464862825, 2148456574, 1630878449, 5039997102, 616455078, 6011962892,
  5159912111, 2049560547, 616455078, 6300048830, 4625244142, 1431884766, 8355712893, 2376708985, 8711872103, 6846027376, 3349628449, 7783222200, 8496112825, 4424762727, 9681396487, 3826904298,
  159912109, 7049560549, 8116455080, 2550048829, 5875244142, 8306884768, 1480712891, 8001708986, 1524372101, 3408527375, 6787128450, 2470722199, 1308612824, 5362262727, 462646484, 6170654298,
  238037109, 1190185547, 186767578, 1827392579, 9136962893, 5960693361, 2923583985, 1285400391, 645160675, 2207050324, 8828449251, 6894855501, 9297199251, 4326801301, 474853516, 5079345704,
  5238037111, 6190185548, 7686767580, 8077392580, 386962891, 4085693360, 7298583986, 8160400393, 9082660677, 7519550325, 1015949250, 2832355500, 859699249, 5889301301, 9381103518, 4923095704,
  7738037111, 3690185548, 3311767579, 421142578, 8043212892, 5374755861, 3587646485, 1949462891, 967426300, 1904315949, 9150714876, 7217121126, 8994464876, 4004535676, 321044922, 5238037111,
  2738037110, 8690185549, 5811767579, 9171142580, 1793212891, 4749755860, 6712646486, 7574462892, 8779926302, 7841815950, 713214874, 2529621125, 1181964875, 6192035676, 9539794924, 4769287110,
  3988037110, 4940185548, 8936767580, 4014892579, 5074462892, 7288818361, 4720458985, 738525391, 629425, 1562519074, 9472980501, 6562824251, 9629230502, 4619770051, 157470703, 5396728517,
  8988037111, 9940185549, 1436767578, 5264892579, 3824462892, 2913818360, 5345458986, 8863525393, 9688129427, 8125019075, 410480499, 3125324250, 566730499, 5557270051, 9688720705, 4615478517,
  6488037111, 2440185547, 7061767580, 2608642579, 6480712892, 6702880861, 4134521485, 152587891, 322895050, 1259784699, 9795246127, 6260089876, 9951496127, 4922504426, 3662109, 5555419923,
  1488037110, 7440185549, 4561767579, 6358642580, 2730712891, 3577880860, 6009521486, 9527587893, 9385395052, 8447284700, 107746124, 3447589875, 263996124, 5235004426, 9847412112, 4461669923,
  2113037110, 3065185548, 5030517579, 6202392580, 1011962891, 8616943361, 2454833985, 2691650391, 1934223175, 683612824, 7930011751, 5371418001, 8711261751, 3740863801, 1109619141, 5714111329,
  7113037111, 8065185549, 2530517579, 4952392579, 9761962893, 1741943360, 8079833986, 7066650392, 7871723177, 9121112826, 1992511750, 4433918000, 1523761750, 6553363802, 8765869143, 4307861329,
  9613037112, 565185547, 8155517580, 7296142580, 2418212891, 8031005861, 1868896485, 3355712891, 2256488801, 1005878449, 7627277376, 5068683625, 8408527376, 3418598176, 955810547, 5872802736,
  4613037110, 5565185548, 655517578, 3546142579, 8668212893, 2406005860, 8743896486, 6480712892, 7568988802, 8818378451, 2314777375, 4756183625, 1846027375, 6856098177, 8924560549, 4154052735,
  3363037110, 1815185547, 3780517579, 8389892580, 4449462892, 9945068362, 501708984, 4644775392, 1289691925, 39081573, 8574543001, 5664386751, 7793293001, 2783832551, 792236328, 6031494142,
  8363037111, 6815185548, 6280517580, 2139892579, 5699462892, 570068360, 9876708987, 5269775392, 8477191927, 9726581576, 1387043000, 4101886750, 2480793000, 7471332552, 9073486330, 4000244142,
  5863037111, 4315185548, 1905517579, 9483642580, 3355712891, 9359130862, 1165771485, 4058837892, 1611957550, 361347199, 8271808626, 5986652376, 8115558626, 3086566926, 638427735, 6190185548,
  863037110, 9315185549, 9405517580, 733642578, 7105712892, 1234130860, 9290771487, 5933837892, 8174457552, 9423847201, 1709308625, 3799152375, 2178058625, 7149066927, 9232177737, 3846435548,
  1175537110, 4002685548, 2999267579, 2901611329, 1617431641, 23193359, 6986083986, 9097900393, 3535785676, 4160175324, 7187824251, 7597980501, 5156574250, 498676300, 1744384766, 6505126955,
  6175537111, 9002685549, 5499267579, 6651611330, 7867431642, 9398193362, 2611083985, 972900391, 6348285677, 5722675325, 2500324250, 2285480500, 4844074250, 9561176302, 8150634768, 3536376954,
  8675537111, 1502685547, 1124267578, 4307861329, 523681641, 687255860, 6400146486, 9761962893, 3233051301, 3857440949, 6885089876, 7920246126, 5478839876, 176410675, 1590576172, 6351318361,
  3675537110, 6502685548, 8624267580, 5557861329, 9273681643, 8812255861, 3275146485, 386962891, 6670551302, 6044940950, 2822589875, 1982746125, 4541339875, 9863910677, 8309326174, 3695068360,
  4925537111, 252685547, 6749267580, 89111328, 2554931641, 1351318360, 5032958986, 8551025393, 2891254426, 4765644075, 6582355501, 8515949251, 6113605501, 791645050, 1427001953, 6822509767,
  9925537112, 5252685548, 4249267579, 8839111330, 6304931642, 8226318361, 4407958985, 1676025391, 6953754427, 5078144075, 3144855500, 1328449250, 3926105500, 9229145052, 8458251955, 3228759766,
  7425537111, 2752685548, 9874267580, 1495361328, 3961181642, 2015380860, 5697021486, 7965087892, 2588520051, 4462909700, 6279621126, 8213214876, 5810871126, 1094379425, 1273193360, 6668701173,
  2425537110, 7752685549, 2374267579, 7745361330, 5211181642, 7640380861, 3822021485, 2340087891, 7276020052, 5400409700, 3467121125, 1650714875, 4248371125, 8906879427, 8616943361, 3387451173,
  1800537110, 2127685547, 7843017580, 9776611330, 8492431643, 2679443360, 7767333986, 5504150392, 4824848176, 2636737824, 5664386751, 9824543002, 7070636751, 2412738801, 2379150391, 7139892580,
  6800537111, 7127685549, 343017578, 1026611328, 2242431641, 7054443361, 2142333985, 4879150392, 5137348176, 7324237825, 4101886750, 137042999, 3008136750, 7725238802, 7535400392, 2921142579,
  9300537112, 4627685548, 5968017580, 8682861330, 9898681643, 3343505860, 8431396486, 6168212892, 4522113801, 2959003449, 5986652376, 9521808626, 7392902376, 2090473176, 2225341797, 6986083986,
  4300537110, 9627685549, 3468017579, 2432861329, 1148681641, 6468505861, 1556396485, 4293212892, 5459613801, 7021503450, 3799152375, 459308624, 2705402375, 8027973177, 7694091799, 3079833985,
  3050537110, 3377685548, 1593017578, 6964111330, 6929931642, 4007568360, 9564208987, 7457275392, 4180316926, 3242206574, 5058918000, 8867511751, 6777668001, 1455707550, 2061767579, 7457275392,
  8050537111, 8377685549, 9093017580, 3214111329, 3179931641, 5882568361, 189208984, 3082275391, 5742816926, 6679706575, 4746418000, 1055011750, 3340168000, 8643207552, 7843017580, 2613525391,
  5550537111, 877685547, 4718017579, 5870361329, 5836181642, 4671630860, 8978271486, 6871337892, 3877582551, 3564472199, 5381183626, 9189777376, 6474933626, 1758441925, 1907958985, 7303466799,
  550537110, 5877685548, 7218017580, 4620361329, 4586181642, 5296630861, 853271485, 3746337891, 6065082551, 6376972200, 4443683625, 752277374, 3662433625, 8320941927, 8001708986, 2772216798,
  394287109, 3533935548, 8350830080, 7647705080, 2847900391, 6622314455, 6671142580, 6326904298, 5176410676, 5800800325, 3359699250, 3301105500, 2265949250, 6358051302, 3013916016, 7930908205,
  5394287111, 8533935549, 850830078, 1397705078, 6597900392, 3497314454, 3546142579, 3201904298, 4863910676, 4238300324, 6797199251, 6738605501, 7578449251, 3545551301, 6920166017, 2149658204,
  7894287111, 1033935547, 5225830079, 9053955080, 4254150392, 7208251955, 7335205080, 6912841798, 5498676301, 6123065950, 3681964875, 3623371125, 1963214875, 6660785677, 2860107423, 8089599611,
  2894287110, 6033935548, 2725830079, 303955078, 5504150392, 2833251954, 2960205079, 2537841797, 4561176301, 3935565949, 6494464876, 6435871126, 7900714876, 3223285676, 7078857424, 1995849610]
#guard allClose niederreiter_base2_16_100 (ofGray (qrun (niederreiter 64 64 defaultNbTable) 16 4095 1600))

/-! ## test/faure_validate.cpp -/
def faure_02_100 : List Nat := [
  9375000000, 625000000, 312500000, 5312500000, 5312500000, 312500000, 2812500000, 2812500000, 7812500000, 7812500000, 1562500000, 1562500000, 6562500000, 6562500000, 4062500000, 9062500000,
  9062500000, 4062500000, 937500000, 4687500000, 5937500000, 9687500000, 3437500000, 7187500000, 8437500000, 2187500000, 2187500000, 8437500000, 7187500000, 3437500000, 4687500000, 937500000,
  9687500000, 5937500000, 156250000, 7968750000, 5156250000, 2968750000, 2656250000, 468750000, 7656250000, 5468750000, 1406250000, 4218750000, 6406250000, 9218750000, 3906250000, 6718750000,
  8906250000, 1718750000, 781250000, 2343750000, 5781250000, 7343750000, 3281250000, 9843750000, 8281250000, 4843750000, 2031250000, 6093750000, 7031250000, 1093750000, 4531250000, 3593750000,
  9531250000, 8593750000, 468750000, 2656250000, 5468750000, 7656250000, 2968750000, 5156250000, 7968750000, 156250000, 1718750000, 8906250000, 6718750000, 3906250000, 4218750000, 1406250000,
  9218750000, 6406250000, 1093750000, 7031250000, 6093750000, 2031250000, 3593750000, 4531250000, 8593750000, 9531250000, 2343750000, 781250000, 7343750000, 5781250000, 4843750000, 8281250000,
  9843750000, 3281250000, 78125000, 6640625000, 5078125000, 1640625000, 2578125000, 4140625000, 7578125000, 9140625000, 1328125000, 390625000, 6328125000, 5390625000, 3828125000, 7890625000,
  8828125000, 2890625000, 703125000, 3515625000, 5703125000, 8515625000, 3203125000, 6015625000, 8203125000, 1015625000, 1953125000, 9765625000, 6953125000, 4765625000, 4453125000, 2265625000,
  9453125000, 7265625000, 390625000, 1328125000, 5390625000, 6328125000, 2890625000, 8828125000, 7890625000, 3828125000, 1640625000, 5078125000, 6640625000, 78125000, 4140625000, 2578125000,
  9140625000, 7578125000, 1015625000, 8203125000, 6015625000, 3203125000, 3515625000, 703125000, 8515625000, 5703125000, 2265625000, 4453125000, 7265625000, 9453125000, 4765625000, 6953125000,
  9765625000, 1953125000, 234375000, 3984375000, 5234375000, 8984375000, 2734375000, 6484375000, 7734375000, 1484375000, 1484375000, 7734375000, 6484375000, 2734375000, 3984375000, 234375000,
  8984375000, 5234375000, 859375000, 5859375000, 5859375000, 859375000, 3359375000, 3359375000, 8359375000, 8359375000, 2109375000, 2109375000, 7109375000, 7109375000, 4609375000, 9609375000,
  9609375000, 4609375000, 546875000, 9296875000, 5546875000, 4296875000, 3046875000, 1796875000]
#guard allClose faure_02_100 (id (qrun (faure id 64 faurePrime) 2 15 200))
def faure_07_100 : List Nat := [
  9995835069, 4602249063, 9412744690, 3202832153, 9850062474, 8334027489, 1103706789, 594990, 2437079788, 3765692866, 6493722854, 6685309692, 3582435890, 2228833224,
  1429166419, 3865651217, 5194264295, 7922294282, 8113881121, 5011007318, 3657404653, 2857737847, 5294222645, 6622835723, 9350865711, 9542452550, 6439578747, 5085976081,
  4286309276, 6722794074, 8051407152, 779437139, 971023978, 7868150176, 6514547510, 5714880704, 8151365502, 9479978580, 2208008568, 2399595407, 9296721604, 7943118939,
  7143452133, 9579936931, 908550009, 3636579996, 3828166835, 725293033, 9371690367, 8572023562, 1008508360, 2337121437, 5065151425, 5256738264, 2153864461, 800261796,
  204676623, 4069732849, 6826917356, 983518772, 2603677039, 929374665, 1004343428, 1633248051, 5498304278, 8255488784, 2412090201, 4032248468, 2357946094, 2432914857,
  3061819480, 6926875707, 9684060213, 3840661629, 5460819896, 3786517522, 3861486285, 4490390909, 8355447135, 1112631642, 5269233058, 6889391325, 5215088951, 5290057714,
  5918962337, 9784018564, 2541203070, 6697804486, 8317962754, 6643660380, 6718629143, 7347533766, 1212589992, 3969774499, 8126375915, 9746534182, 8072231808, 8147200571,
  8776105194, 2641161421, 5398345927, 9554947343, 1175105611, 9500803237, 9575772000, 408758255, 5702385911, 9888141846, 5473314690, 8522044386, 8276313441, 9779853632,
  1837329684, 7130957339, 1316713274, 6901886119, 9950615815, 9704884869, 1208425061, 3265901113, 8559528768, 2745284703, 8330457547, 1379187243, 1133456298, 2636996490,
  4694472541, 9988100196, 4173856131, 9759028976, 2807758672, 2562027727, 4065567918, 6123043970, 1416671625, 5602427560, 1187600405, 4236330101, 3990599155, 5494139347,
  7551615398, 2845243053, 7030998989, 2616171833, 5664901529, 5419170584, 6922710775, 8980186827, 4273814482, 8459570417, 4044743262, 7093472958, 6847742012, 8351282204,
  612839888, 5906467543, 1520794907, 9963110609, 3011840305, 5623252216, 8555363836, 2041411317, 7335038972, 2949366335, 1391682037, 4440411733, 7051823645, 9983935265,
  3469982745, 8763610400, 4377937764, 2820253466, 5868983162, 8480395073, 1412506694, 4898554174, 192181829, 5806509193, 4248824894, 7297554590, 9908966502, 2841078122,
  6327125602, 1620753258, 7235080621, 5677396323, 8726126019, 1337537931, 4269649551, 7755697031, 3049324686, 8663652050, 7105967752, 154697447, 2766109359, 5698220979,
  9184268460, 4477896115, 92223478, 8534539180, 1583268876, 4194680788, 7126792408, 816921521, 7539120605, 4582019397, 3024335098, 8930207652, 1541619563, 5902302612,
  2245492949, 8967692033, 6010590825, 4452906527, 358779080, 2970190992, 7330874041, 3674064378, 396263462, 7439162254, 5881477956, 1787350509, 4398762420, 8759445469,
  5102635807, 1824834890, 8867733682, 7310049384, 3215921937, 5827333849, 188016898, 6531207235, 3253406319, 296305111, 8738620813, 4644493366, 7255905278, 1616588326,
  7959778664, 4681977747, 1724876540, 167192241, 6073064794, 8684476706, 3045159755, 9388350092, 6110549176, 3153447968, 1595763670, 7501636223, 113048135, 4473731183,
  1021003153, 9171773666, 7643243886, 7514131017, 4848574999, 8888558339, 4677812816, 2449574582, 600345094, 9071815315, 8942702445, 6277146427, 317129767, 6106384245,
  3878146011, 2028916523, 500386744, 371273874, 7705717856, 1745701196, 7534955673, 5306717439, 3457487951, 1928958172, 1799845303, 9134289284, 3174272625, 8963527102,
  6735288868, 4886059380, 3357529601, 3228416731, 562860713, 4602844053, 392098530, 8163860296, 6314630809, 4786101029, 4656988160, 1991432141, 6031415482, 1820669959,
  9592431725, 7743202237, 6214672458, 6085559588, 3420003570, 7459986910, 3249241388, 1225084786, 804426727, 704468376, 2003926935, 766942345, 6235497114, 3453323020,
  2653656215, 2232998156, 2133039805, 3432498364, 2195513774, 7664068543, 4881894449, 4082227643, 3661569584, 3561611233, 4861069792, 3624085203, 9092639971, 6310465877,
  5510799072, 5090141013, 4990182662, 6289641221, 5052656631, 521211400, 7739037306, 6939370500, 6518712441, 6418754091, 7718212649, 6481228060, 1949782829, 9167608734,
  8367941929, 7947283870, 7847325519, 9146784078, 7909799488, 3378354257, 596180163, 9796513358, 9375855298, 9275896948, 575355507, 9338370917, 4806925686, 2024751592,
  29749509, 4098887368, 8896888201, 9175938597, 9775688701, 9938121021, 3074314274, 1458320938, 5527458797, 325459630, 604510026, 1204260130, 1366692450, 4502885702,
  2886892366, 6956030226, 1754031058, 2033081454, 2632831558, 2795263878, 5931457131, 4315463795, 8384601654, 3182602487, 3461652883, 4061402987, 4223835307, 7360028560,
  5744035223, 9813173083, 4611173916, 4890224311, 5489974415, 5652406735, 8788599988, 7172606652, 1241744511, 6039745344, 6318795740, 6918545844, 7080978164, 217171417,
  8601178081, 2670315940, 7468316773, 7747367168, 8347117273, 8509549592, 1645742845, 233831142, 4302969001, 1958112691, 3665734515, 5694056048, 5856488368, 1849824478,
  1662402570, 5731540430, 3386684120, 5094305944, 7122627477, 7285059797, 3278395906, 3090973999, 7160111858, 4815255548, 6522877373, 8551198905, 8713631225, 4706967335,
  4519545428, 8588683287, 6243826977, 7951448801, 9979770334, 142202654, 6135538764, 5948116856, 17254715, 7672398405, 9380020230, 1408341762, 1570774082, 7564110192,
  7376688285, 1445826144, 9100969834, 808591658, 2836913191, 2999345511, 8992681621, 8805259713, 2874397572, 529541263, 2237163087, 4265484620, 4427916939, 421253049,
  437912774, 5935622062, 5019337181, 8155530434, 183851966, 3203427143, 625334682, 1866484203, 7364193491, 6447908610, 9584101862, 1612423395, 4631998572, 2053906111,
  3295055632, 8792764919, 7876480038, 1012673291, 3040994824, 6060570001, 3482477539, 4723627060, 221336348, 9305051467, 2441244719, 4469566252, 7489141429, 4911048968,
  6152198489, 1649907777, 733622895, 3869816148, 5898137681, 8917712858, 6339620396, 7580769917, 3078479205, 2162194324, 5298387577, 7326709109, 346284286, 7768191825,
  9009341346, 4507050634, 3590765752, 6726959005, 8755280538, 1774855715, 9196763253, 641994407, 7568275123, 8080561671, 2645326352, 6102219313, 550365919, 9400844886,
  2070565836, 8996846552, 9509133099, 4073897781, 7530790742, 1978937348, 829416315, 3499137264, 425417981, 937704528, 5502469209, 8959362171, 3407508776, 2257987743,
  4927708693, 1853989409, 2366275956, 6931040638, 387933599, 4836080205, 3686559172, 6356280121, 3282560838, 3794847385, 8359612066, 1816505028, 6264651633, 5115130600,
  7784851550, 4711132266, 5223418814, 9788183495, 3245076456, 7693223062, 6543702029, 9213422979, 6139703695, 6651990242, 1216754924, 4673647885, 9121794490, 7972273457,
  846076040, 9200928185, 1141786161, 7135122270, 2020586660, 7897304694, 8176355090, 2274647468, 629499613, 2570357589, 8563693699, 3449158089, 9325876123, 9604926519,
  3703218897, 2058071042, 3998929018, 9992265128, 4877729517, 754447552, 1033497947, 5131790325, 3486642470, 5427500446, 1420836556, 6306300946, 2183018980, 2462069376,
  6560361754, 4915213899, 6856071875, 2849407985, 7734872375, 3611590409, 3890640804, 7988933183, 6343785328, 8284643303, 4277979413, 9163443803, 5040161837, 5319212233,
  9417504611, 7772356756, 9713214732, 5706550842, 592015232, 6468733266, 6747783662, 1050157672, 833581246, 4203010650, 196346760, 7938954007, 5244243470, 6951865294,
  2478729101, 2262152674, 5631582079, 1624918189, 9367525436, 6672814899, 8380436723, 3907300530, 3690724103, 7060153507, 3053489617, 796096864, 8101386327, 9809008151,
  5335871958, 5119295532, 8488724936, 4482061046, 2224668293, 9529957756, 1237579580, 6764443387, 6547866960, 9917296365, 5910632475, 3653239722, 958529184, 2666151009,
  8193014815, 7976438389, 1345867793, 7339203903, 5081811150, 2387100613, 4094722437, 9621586244, 9405009817, 2774439222, 8767775332, 6510382579, 3815672041, 5523293866,
  1254239305, 2466234307, 5835663712, 4686142679, 3857321354, 2591182245, 4298804070, 2682810734, 3894805736, 7264235140, 6114714107, 5285892783, 4019753674, 5727375498,
  4111382162, 5323377164, 8692806569, 7543285536, 6714464211, 5448325103, 7155946927, 5539953591, 6751948593, 121377997, 8971856964, 8143035640, 6876896531, 8584518355,
  6968525019, 8180520021, 1549949426, 400428393, 9571607068, 8305467960, 13089784, 8397096448, 9609091450, 2978520854, 1828999822, 1000178497, 9734039388, 1441661213,
  9825667876, 1037662879, 4407092283, 3257571250, 2428749926, 1162610817, 2870232641, 58904028, 4536205153, 5456654965, 1654072708, 2661986077, 4865234724, 5552448385]
#guard allClose faure_07_100 (id (qrun (faure id 64 faurePrime) 7 2400 700))
def faure_16_100 : List Nat := [
  9999880270, 8056057758, 1198740437, 6486751835, 390680188, 8792878438, 8198536895, 5009039643, 6317812287, 8007207768, 6547814322, 8998455478, 1276086254, 370326026, 2198129812, 3230085847,
  7043, 739342061, 9946008647, 7862221336, 647149678, 7918135418, 2862640393, 2779667248, 9710738476, 9743784057, 2536854063, 2482376746, 8023258680, 1164384864, 8034393604, 9496301388,
  588242337, 1327577355, 534243941, 8450456630, 1235384972, 8506370712, 3450875687, 3367902542, 298973770, 332019351, 3125089358, 3070612041, 8611493974, 1752620158, 8622628899, 84536682,
  1176477631, 1915812649, 1122479236, 9038691925, 1823620266, 9094606006, 4039110981, 3956137836, 887209064, 920254645, 3713324652, 3658847335, 9199729269, 2340855452, 9210864193, 672771976,
  1764712925, 2504047943, 1710714530, 9626927219, 2411855560, 9682841300, 4627346275, 4544373131, 1475444358, 1508489939, 4301559946, 4247082629, 9787964563, 2929090746, 9799099487, 1261007270,
  2352948219, 3092283237, 2298949824, 215162513, 3000090854, 271076594, 5215581569, 5132608425, 2063679652, 2096725234, 4889795240, 4835317923, 376199857, 3517326041, 387334781, 1849242565,
  2941183514, 3680518531, 2887185118, 803397807, 3588326148, 859311888, 5803816863, 5720843719, 2651914946, 2684960528, 5478030534, 5423553217, 964435151, 4105561335, 975570075, 2437477859,
  3529418808, 4268753825, 3475420412, 1391633101, 4176561442, 1447547183, 6392052157, 6309079013, 3240150240, 3273195822, 6066265828, 6011788511, 1552670445, 4693796629, 1563805369, 3025713153,
  4117654102, 4856989119, 4063655706, 1979868395, 4764796737, 2035782477, 6980287451, 6897314307, 3828385535, 3861431116, 6654501122, 6600023805, 2140905739, 5282031923, 2152040663, 3613948447,
  4705889396, 5445224413, 4651891000, 2568103689, 5353032031, 2624017771, 7568522746, 7485549601, 4416620829, 4449666410, 7242736416, 7188259099, 2729141033, 5870267217, 2740275957, 4202183741,
  5294124690, 6033459708, 5240126294, 3156338983, 5941267325, 3212253065, 8156758040, 8073784895, 5004856123, 5037901704, 7830971711, 7776494393, 3317376327, 6458502511, 3328511251, 4790419035,
  5882359984, 6621695002, 5828361589, 3744574278, 6529502619, 3800488359, 8744993334, 8662020189, 5593091417, 5626136998, 8419207005, 8364729688, 3905611621, 7046737805, 3916746546, 5378654329,
  6470595278, 7209930296, 6416596883, 4332809572, 7117737913, 4388723653, 9333228628, 9250255483, 6181326711, 6214372292, 9007442299, 8952964982, 4493846916, 7634973099, 4504981840, 5966889623,
  7058830572, 7798165590, 7004832177, 4921044866, 7705973207, 4976958947, 9921463922, 9838490778, 6769562005, 6802607587, 9595677593, 9541200276, 5082082210, 8223208394, 5093217134, 6555124918,
  7647065866, 8386400884, 7593067471, 5509280160, 8294208501, 5565194241, 509699216, 426726072, 7357797299, 7390842881, 183912887, 129435570, 5670317504, 8811443688, 5681452428, 7143360212,
  8235301161, 8974636178, 8181302765, 6097515454, 8882443795, 6153429536, 1097934510, 1014961366, 7946032593, 7979078175, 772148181, 717670864, 6258552798, 9399678982, 6269687722, 7731595506,
  8823536455, 9562871472, 8769538059, 6685750748, 9470679090, 6741664830, 1686169804, 1603196660, 8534267888, 8567313469, 1360383475, 1305906158, 6846788092, 9987914276, 6857923016, 8319830800,
  9411771749, 151106766, 9357773353, 7273986042, 58914384, 7329900124, 2274405099, 2191431954, 9122503182, 9155548763, 1948618769, 1894141452, 7435023386, 576149570, 7446158310, 8908066094,
  34609119, 1362179431, 1157081312, 9661529295, 3034692930, 893913965, 6426654233, 6931916383, 4451222905, 5072503780, 8453809081, 8987567058, 5116684286, 8257810470, 6304289798, 8354432876,
  622844413, 1950414725, 1745316606, 249764589, 3622928224, 1482149259, 7014889528, 7520151677, 5039458199, 5660739074, 9042044375, 9575802352, 5704919580, 8846045764, 6892525092, 8942668170,
  1211079707, 2538650019, 2333551900, 837999883, 4211163519, 2070384553, 7603124822, 8108386971, 5627693493, 6248974369, 9630279669, 164037646, 6293154874, 9434281058, 7480760386, 9530903464,
  1799315001, 3126885313, 2921787194, 1426235177, 4799398813, 2658619847, 8191360116, 8696622265, 6215928787, 6837209663, 218514963, 752272940, 6881390168, 22516352, 8068995681, 119138758,
  2387550296, 3715120607, 3510022488, 2014470471, 5387634107, 3246855141, 8779595410, 9284857560, 6804164081, 7425444957, 806750257, 1340508234, 7469625462, 610751646, 8657230975, 707374052,
  2975785590, 4303355901, 4098257782, 2602705765, 5975869401, 3835090435, 9367830704, 9873092854, 7392399375, 8013680251, 1394985551, 1928743528, 8057860756, 1198986940, 9245466269, 1295609347,
  3564020884, 4891591195, 4686493076, 3190941060, 6564104695, 4423325729, 9956065998, 461328148, 7980634670, 8601915545, 1983220845, 2516978823, 8646096051, 1787222234, 9833701563, 1883844641,
  4152256178, 5479826490, 5274728371, 3779176354, 7152339989, 5011561023, 544301292, 1049563442, 8568869964, 9190150839, 2571456140, 3105214117, 9234331345, 2375457528, 421936857, 2472079935,
  4740491472, 6068061784, 5862963665, 4367411648, 7740575283, 5599796318, 1132536586, 1637798736, 9157105258, 9778386133, 3159691434, 3693449411, 9822566639, 2963692823, 1010172151, 3060315229,
  5328726766, 6656297078, 6451198959, 4955646942, 8328810577, 6188031612, 1720771881, 2226034030, 9745340552, 366621427, 3747926728, 4281684705, 410801933, 3551928117, 1598407445, 3648550523,
  5916962060, 7244532372, 7039434253, 5543882236, 8917045872, 6776266906, 2309007175, 2814269324, 333575846, 954856721, 4336162022, 4869919999, 999037227, 4140163411, 2186642739, 4236785817,
  6505197354, 7832767666, 7627669547, 6132117530, 9505281166, 7364502200, 2897242469, 3402504618, 921811140, 1543092016, 4924397316, 5458155293, 1587272521, 4728398705, 2774878033, 4825021111,
  7093432648, 8421002960, 8215904841, 6720352824, 93516460, 7952737494, 3485477763, 3990739913, 1510046434, 2131327310, 5512632610, 6046390587, 2175507815, 5316633999, 3363113328, 5413256405,
  7681667943, 9009238254, 8804140135, 7308588118, 681751754, 8540972788, 4073713057, 4578975207, 2098281728, 2719562604, 6100867904, 6634625881, 2763743109, 5904869293, 3951348622, 6001491700,
  8269903237, 9597473548, 9392375429, 7896823412, 1269987048, 9129208082, 4661948351, 5167210501, 2686517022, 3307797898, 6689103198, 7222861175, 3351978403, 6493104587, 4539583916, 6589726994,
  8858138531, 185708843, 9980610723, 8485058707, 1858222342, 9717443376, 5250183645, 5755445795, 3274752317, 3896033192, 7277338493, 7811096470, 3940213698, 7081339881, 5127819210, 7177962288,
  9446373825, 773944137, 568846018, 9073294001, 2446457636, 305678670, 5838418939, 6343681089, 3862987611, 4484268486, 7865573787, 8399331764, 4528448992, 7669575176, 5716054504, 7766197582,
  69211195, 1985016801, 1779918682, 1460837253, 5422236183, 3869692511, 9990668074, 1084165518, 9191707334, 401223503, 4370764098, 5492757369, 2210109891, 5939471369, 4574185992, 7212564364,
  657446489, 2573252095, 2368153976, 2049072547, 6010471477, 4457927805, 578903368, 1672400812, 9779942628, 989458798, 4958999392, 6080992663, 2798345185, 6527706663, 5162421286, 7800799658,
  1245681783, 3161487389, 2956389270, 2637307842, 6598706771, 5046163100, 1167138663, 2260636106, 368177922, 1577694092, 5547234686, 6669227957, 3386580480, 7115941958, 5750656580, 8389034952,
  1833917078, 3749722683, 3544624564, 3225543136, 7186942065, 5634398394, 1755373957, 2848871400, 956413216, 2165929386, 6135469980, 7257463252, 3974815774, 7704177252, 6338891874, 8977270246,
  2422152372, 4337957977, 4132859858, 3813778430, 7775177359, 6222633688, 2343609251, 3437106695, 1544648510, 2754164680, 6723705275, 7845698546, 4563051068, 8292412546, 6927127168, 9565505540,
  3010387666, 4926193272, 4721095153, 4402013724, 8363412654, 6810868982, 2931844545, 4025341989, 2132883804, 3342399974, 7311940569, 8433933840, 5151286362, 8880647840, 7515362463, 153740834,
  3598622960, 5514428566, 5309330447, 4990249018, 8951647948, 7399104276, 3520079839, 4613577283, 2721119099, 3930635268, 7900175863, 9022169134, 5739521656, 9468883134, 8103597757, 741976129,
  4186858254, 6102663860, 5897565741, 5578484312, 9539883242, 7987339570, 4108315133, 5201812577, 3309354393, 4518870562, 8488411157, 9610404428, 6327756950, 57118428, 8691833051, 1330211423,
  4775093548, 6690899154, 6485801035, 6166719606, 128118536, 8575574864, 4696550427, 5790047871, 3897589687, 5107105856, 9076646451, 198639722, 6915992244, 645353722, 9280068345, 1918446717,
  5363328842, 7279134448, 7074036329, 6754954900, 716353830, 9163810158, 5284785721, 6378283165, 4485824981, 5695341151, 9664881745, 786875016, 7504227538, 1233589016, 9868303639, 2506682011,
  5951564136, 7867369742, 7662271623, 7343190195, 1304589124, 9752045452, 5873021015, 6966518459, 5074060275, 6283576445, 253117039, 1375110310, 8092462833, 1821824310, 456538933, 3094917305,
  6539799431, 8455605036, 8250506917, 7931425489, 1892824418, 340280747, 6461256310, 7554753753, 5662295569, 6871811739, 841352333, 1963345605, 8680698127, 2410059605, 1044774227, 3683152599,
  7128034725, 9043840330, 8838742211, 8519660783, 2481059712, 928516041, 7049491604, 8142989047, 6250530863, 7460047033, 1429587627, 2551580899, 9268933421, 2998294899, 1633009521, 4271387893,
  7716270019, 9632075625, 9426977505, 9107896077, 3069295006, 1516751335, 7637726898, 8731224342, 6838766157, 8048282327, 2017822922, 3139816193, 9857168715, 3586530193, 2221244815, 4859623187,
  8304505313, 220310919, 15212800, 9696131371, 3657530301, 2104986629, 8225962192, 9319459636, 7427001452, 8636517621, 2606058216, 3728051487, 445404009, 4174765487, 2809480110, 5447858482,
  8892740607, 808546213, 603448094, 284366665, 4245765595, 2693221923, 8814197486, 9907694930, 8015236746, 9224752915, 3194293510, 4316286781, 1033639303, 4763000781, 3397715404, 6036093776,
  9480975901, 1396781507, 1191683388, 872601959, 4834000889, 3281457217, 9402432780, 495930224, 8603472040, 9812988209, 3782528804, 4904522075, 1621874597, 5351236075, 3985950698, 6624329070,
  103813271, 2607854171, 2990991346, 3260145212, 7809779436, 6845471058, 2966446621, 5236414653, 3932191763, 5729943227, 287719115, 1997947681, 9303535497, 3621132269, 2844082186, 6070695852,
  692048565, 3196089465, 3579226640, 3848380506, 8398014730, 7433706352, 3554681915, 5824649947, 4520427057, 6318178521, 875954409, 2586182975, 9891770791, 4209367563, 3432317480, 6658931146,
  1280283860, 3784324759, 4167461935, 4436615800, 8986250024, 8021941646, 4142917209, 6412885241, 5108662351, 6906413815, 1464189704, 3174418269, 480006085, 4797602857, 4020552774, 7247166440,
  1868519154, 4372560054, 4755697229, 5024851094, 9574485318, 8610176940, 4731152503, 7001120535, 5696897645, 7494649109, 2052424998, 3762653563, 1068241379, 5385838151, 4608788068, 7835401734,
  2456754448, 4960795348, 5343932523, 5613086388, 162720612, 9198412234, 5319387798, 7589355829, 6285132939, 8082884403, 2640660292, 4350888857, 1656476673, 5974073445, 5197023362, 8423637028,
  3044989742, 5549030642, 5932167817, 6201321682, 750955906, 9786647529, 5907623092, 8177591124, 6873368234, 8671119697, 3228895586, 4939124151, 2244711967, 6562308740, 5785258656, 9011872322,
  3633225036, 6137265936, 6520403111, 6789556977, 1339191200, 374882823, 6495858386, 8765826418, 7461603528, 9259354991, 3817130880, 5527359445, 2832947262, 7150544034, 6373493950, 9600107616,
  4221460330, 6725501230, 7108638405, 7377792271, 1927426494, 963118117, 7084093680, 9354061712, 8049838822, 9847590286, 4405366174, 6115594739, 3421182556, 7738779328, 6961729245, 188342911,
  4809695624, 7313736524, 7696873699, 7966027565, 2515661788, 1551353411, 7672328974, 9942297006, 8638074116, 435825580, 4993601468, 6703830034, 4009417850, 8327014622, 7549964539, 776578205,
  5397930918, 7901971818, 8285108993, 8554262859, 3103897083, 2139588705, 8260564268, 530532300, 9226309410, 1024060874, 5581836762, 7292065328, 4597653144, 8915249916, 8138199833, 1364813499,
  5986166213, 8490207112, 8873344287, 9142498153, 3692132377, 2727823999, 8848799562, 1118767594, 9814544704, 1612296168, 6170072057, 7880300622, 5185888438, 9503485210, 8726435127, 1953048793,
  6574401507, 9078442407, 9461579582, 9730733447, 4280367671, 3316059293, 9437034856, 1707002888, 402779998, 2200531462, 6758307351, 8468535916, 5774123732, 91720504, 9314670421, 2541284087,
  7162636801, 9666677701, 49814876, 318968741, 4868602965, 3904294587, 25270150, 2295238182, 991015292, 2788766756, 7346542645, 9056771210, 6362359026, 679955798, 9902905715, 3129519381,
  7750872095, 254912995, 638050170, 907204035, 5456838259, 4492529882, 613505445, 2883473477, 1579250587, 3377002050, 7934777939, 9645006504, 6950594320, 1268191092, 491141009, 3717754675,
  8339107389, 843148289, 1226285464, 1495439329, 6045073553, 5080765176, 1201740739, 3471708771, 2167485881, 3965237344, 8523013233, 233241798, 7538829615, 1856426387, 1079376303, 4305989969,
  8927342683, 1431383583, 1814520758, 2083674624, 6633308847, 5669000470, 1789976033, 4059944065, 2755721175, 4553472638, 9111248527, 821477092, 8127064909, 2444661681, 1667611598, 4894225264,
  9515577977, 2019618877, 2402756052, 2671909918, 7221544141, 6257235764, 2378211327, 4648179359, 3343956469, 5141707933, 9699483821, 1409712387, 8715300203, 3032896975, 2255846892, 5482460558,
  138415347, 3230691541, 4202064011, 5059453170, 197322688, 9821249605, 6530460462, 9388663788, 8672676192, 1058662950, 6204674133, 8503137992, 6396961102, 1302793169, 1113978380, 4928827340,
  726650642, 3818926836, 4790299305, 5647688464, 785557982, 409484899, 7118695756, 9976899082, 9260911486, 1646898244, 6792909427, 9091373286, 6985196397, 1891028463, 1702213674, 5517062634,
  1314885936, 4407162130, 5378534599, 6235923759, 1373793276, 997720193, 7706931050, 565134376, 9849146780, 2235133538, 7381144721, 9679608580, 7573431691, 2479263757, 2290448968, 6105297928,
  1903121230, 4995397424, 5966769893, 6824159053, 1962028570, 1585955487, 8295166344, 1153369670, 437382074, 2823368832, 7969380015, 267843874, 8161666985, 3067499051, 2878684262, 6693533222,
  2491356524, 5583632718, 6555005187, 7412394347, 2550263865, 2174190781, 8883401638, 1741604964, 1025617369, 3411604126, 8557615309, 856079169, 8749902279, 3655734345, 3466919556, 7281768516,
  3079591818, 6171868012, 7143240481, 8000629641, 3138499159, 2762426075, 9471636932, 2329840259, 1613852663, 3999839420, 9145850603, 1444314463, 9338137573, 4243969639, 4055154850, 7870003810,
  3667827112, 6760103306, 7731475775, 8588864935, 3726734453, 3350661369, 59872227, 2918075553, 2202087957, 4588074715, 9734085897, 2032549757, 9926372867, 4832204933, 4643390144, 8458239104,
  4256062406, 7348338600, 8319711069, 9177100229, 4314969747, 3938896664, 648107521, 3506310847, 2790323251, 5176310009, 322321192, 2620785051, 514608161, 5420440227, 5231625438, 9046474398,
  4844297700, 7936573894, 8907946364, 9765335523, 4903205041, 4527131958, 1236342815, 4094546141, 3378558545, 5764545303, 910556486, 3209020345, 1102843455, 6008675522, 5819860732, 9634709693,
  5432532995, 8524809189, 9496181658, 353570817, 5491440335, 5115367252, 1824578109, 4682781435, 3966793839, 6352780597, 1498791780, 3797255639, 1691078749, 6596910816, 6408096027, 222944987,
  6020768289, 9113044483, 84416952, 941806111, 6079675629, 5703602546, 2412813403, 5271016729, 4555029133, 6941015891, 2087027074, 4385490933, 2279314044, 7185146110, 6996331321, 811180281,
  6609003583, 9701279777, 672652246, 1530041406, 6667910923, 6291837840, 3001048697, 5859252023, 5143264427, 7529251185, 2675262368, 4973726227, 2867549338, 7773381404, 7584566615, 1399415575,
  7197238877, 289515071, 1260887540, 2118276700, 7256146218, 6880073134, 3589283991, 6447487317, 5731499721, 8117486479, 3263497662, 5561961521, 3455784632, 8361616698, 8172801909, 1987650869,
  7785474171, 877750365, 1849122834, 2706511994, 7844381512, 7468308428, 4177519285, 7035722612, 6319735016, 8705721773, 3851732956, 6150196816, 4044019926, 8949851992, 8761037203, 2575886163,
  8373709465, 1465985659, 2437358128, 3294747288, 8432616806, 8056543722, 4765754580, 7623957906, 6907970310, 9293957068, 4439968250, 6738432110, 4632255220, 9538087286, 9349272497, 3164121457,
  8961944759, 2054220953, 3025593422, 3882982582, 9020852100, 8644779016, 5353989874, 8212193200, 7496205604, 9882192362, 5028203544, 7326667404, 5220490514, 126322580, 9937507791, 3752356751,
  9550180053, 2642456247, 3613828717, 4471217876, 9609087394, 9233014311, 5942225168, 8800428494, 8084440898, 470427656, 5616438839, 7914902698, 5808725808, 714557874, 525743085, 4340592046,
  173017424, 3853528912, 5413136675, 6858761129, 2584865941, 2797028151, 94474303, 2952677629, 3413160621, 6387382673, 2121629150, 5008328303, 3490386708, 8984454068, 9383874573, 3786958828,
  761252718, 4441764206, 6001371969, 7446996423, 3173101235, 3385263446, 682709597, 3540912923, 4001395915, 6975617967, 2709864444, 5596563598, 4078622002, 9572689362, 9972109867, 4375194122,
  1349488012, 5029999500, 6589607263, 8035231717, 3761336529, 3973498740, 1270944891, 4129148217, 4589631209, 7563853261, 3298099738, 6184798892, 4666857296, 160924656, 560345162, 4963429416,
  1937723306, 5618234794, 7177842557, 8623467011, 4349571823, 4561734034, 1859180185, 4717383511, 5177866503, 8152088555, 3886335032, 6773034186, 5255092590, 749159951, 1148580456, 5551664710,
  2525958600, 6206470088, 7766077852, 9211702305, 4937807117, 5149969328, 2447415479, 5305618805, 5766101798, 8740323850, 4474570326, 7361269480, 5843327884, 1337395245, 1736815750, 6139900004,
  3114193894, 6794705382, 8354313146, 9799937599, 5526042411, 5738204622, 3035650773, 5893854099, 6354337092, 9328559144, 5062805621, 7949504774, 6431563179, 1925630539, 2325051044, 6728135298,
  3702429188, 7382940676, 8942548440, 388172893, 6114277705, 6326439916, 3623886067, 6482089394, 6942572386, 9916794438, 5651040915, 8537740068, 7019798473, 2513865833, 2913286338, 7316370592,
  4290664482, 7971175971, 9530783734, 976408188, 6702513000, 6914675210, 4212121362, 7070324688, 7530807680, 505029732, 6239276209, 9125975362, 7608033767, 3102101127, 3501521632, 7904605886,
  4878899777, 8559411265, 119019028, 1564643482, 7290748294, 7502910504, 4800356656, 7658559982, 8119042974, 1093265026, 6827511503, 9714210656, 8196269061, 3690336421, 4089756926, 8492841180,
  5467135071, 9147646559, 707254322, 2152878776, 7878983588, 8091145798, 5388591950, 8246795276, 8707278268, 1681500320, 7415746797, 302445951, 8784504355, 4278571715, 4677992220, 9081076475,
  6055370365, 9735881853, 1295489616, 2741114070, 8467218882, 8679381093, 5976827244, 8835030570, 9295513562, 2269735614, 8003982091, 890681245, 9372739649, 4866807009, 5266227514, 9669311769,
  6643605659, 324117147, 1883724910, 3329349364, 9055454176, 9267616387, 6565062538, 9423265864, 9883748856, 2857970908, 8592217385, 1478916539, 9960974943, 5455042304, 5854462809, 257547063,
  7231840953, 912352441, 2471960204, 3917584658, 9643689470, 9855851681, 7153297832, 11501158, 471984151, 3446206202, 9180452679, 2067151833, 549210237, 6043277598, 6442698103, 845782357,
  7820076247, 1500587735, 3060195499, 4505819952, 231924764, 444086975, 7741533126, 599736452, 1060219445, 4034441497, 9768687974, 2655387127, 1137445531, 6631512892, 7030933397, 1434017651]
#guard allClose faure_16_100 (id (qrun (faure id 64 faurePrime) 16 83520 1600))

end Boost.Random.Validation
