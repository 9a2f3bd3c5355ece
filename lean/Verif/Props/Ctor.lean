import Verif.Proofs.Ctor
import Verif.Spec.Ctor

/-!
# C157: which constructor of an engine is called, and what becomes of its argument

A class `K` is given by the constructors it has from its base engine. The state of the argument is part of the result, because
a seed sequence is passed by reference.
-/

namespace Boost.Random
namespace Ctor
open Spec SeedImpl

/-- **C157 (one argument).** For every class of engines and every argument except lvalues of a derived class and lvalues of the
base engine that are not `const`, the constructor called is the one the documentation describes for arguments of this type.
Only a temporary seed sequence is rejected. For classes without a constructor from a base engine nothing is said about base
engines. -/
theorem c157_resolve_partial (K : Class) (hK : K.seeds = true) (t : Ty) (k : Cat)
    (hb : t = .base → K.base = true ∧ k ≠ .lvalue) (hd : t = .derived → k = .rvalue) (hs : ¬ (t = .other ∧ k = .rvalue)) :
    (resolve K t k).bind meaning = some (documented t) := by
  obtain ⟨s, b, bm⟩ := K
  revert s b bm
  cases t <;> cases k <;> revert hs hd <;> decide

example : resolve discardBlock .self .lvalue = some .copy ∧ resolve discardBlock .self .constLvalue = some .copy ∧
    resolve discardBlock .self .rvalue = some .move ∧ resolve plain .arith .lvalue = some .arith ∧
    resolve plain .derived .rvalue = some .move ∧
    resolve plain .other .constLvalue = some .seq ∧ resolve independentBits .base .rvalue = some .base := by decide

/-- C157: a temporary seed sequence cannot be passed. -/
theorem c157_temporary (K : Class) (hK : K.seeds = true) : resolve K .other .rvalue = none := by
  obtain ⟨s, b, bm⟩ := K
  revert s b bm
  decide

example : discardBlock.seeds = true ∧ plain.seeds = true := by decide

/-- C157: outside that guard: a variable of a class derived from an engine, with which an engine is constructed, is taken for a
seed sequence. -/
theorem c157_derived_false (K : Class) (hK : K.seeds = true) :
    resolve K .derived .lvalue = some .seq ∧ resolve K .derived .constLvalue = some .seq := by
  obtain ⟨s, b, bm⟩ := K
  revert s b bm
  decide

example : plain.seeds = true := rfl

/-- **C157 (base engines).** Whatever the base engine and its state: an adaptor constructed from a base engine that is
`const` or a temporary has a copy of it in the same state, and the argument keeps its state. -/
theorem c157_base_partial {σ : Type} (B : Base σ) (table fuel : Nat) (k : Cat) (hk : k ≠ .lvalue) (s : σ) :
    discardBlockFrom B fuel k s = some (⟨s, 0⟩, s) ∧ independentBitsFrom B fuel k s = some (s, s) ∧
    shuffleOrderFrom B table fuel k s = (ShuffleOrder.init table B.engine s).map fun t => (t, s) := by
  have h (K : Class) (hS : K.seeds = true) (hK : K.base = true) : B.adapt K fuel k s = some (s, s) := by
    obtain ⟨sd, b, bm⟩ := K
    have hb : b = true := hK
    have hsd : sd = true := hS
    subst hb hsd
    have hcopy : resolve plain .self .constLvalue = some .copy := by decide
    have hcopy' : resolve plain .self .lvalue = some .copy := by decide
    cases k with
    | lvalue => exact absurd rfl hk
    | constLvalue =>
      have : resolve ⟨true, true, bm⟩ .base .constLvalue = some .base := by cases bm <;> decide
      simp only [Base.adapt, this, Base.copy, hcopy]
    | rvalue =>
      cases bm with
      | true =>
        have : resolve ⟨true, true, true⟩ .base .rvalue = some .baseMove := by decide
        simp only [Base.adapt, this, Base.copy, hcopy']
      | false =>
        have : resolve ⟨true, true, false⟩ .base .rvalue = some .base := by decide
        simp only [Base.adapt, this, Base.copy, hcopy]
  refine ⟨?_, h _ rfl rfl, ?_⟩
  · unfold discardBlockFrom; rw [h _ rfl rfl]; rfl
  · unfold shuffleOrderFrom; rw [h _ rfl rfl]; rfl

example : discardBlockFrom (lcgBase minstdRand0) 0 .constLvalue 42 = some (⟨42, 0⟩, 42) ∧
    discardBlockFrom (lcgBase minstdRand0) 0 .rvalue 42 = some (⟨42, 0⟩, 42) := by decide +kernel

/-- C157: an lvalue of the base engine that is not `const` is taken for a seed sequence, by every adaptor. -/
theorem c157_base_lvalue (K : Class) (hK : K.seeds = true) : resolve K .base .lvalue = some .seq := by
  obtain ⟨s, b, bm⟩ := K
  revert s b bm
  decide

example : shuffleOrder.seeds = true ∧ independentBits.seeds = true := by decide

/-- **C157 (base engines that are not `const`).** What happens instead, for every linear congruential base engine on an
unsigned type and every state: when `generate` of the argument returns, the adaptor's engine has been seeded from the words it
stored, without the first three, and the argument has moved on by the number `j >= 1` of its values that were used. -/
theorem c157_base_reseeded (E : Lcg) (hT : AnyTy E.T) (hu : E.T.signed = false) (hm : E.m ≤ E.T.maxv) (h1 : E.m ≠ 1)
    (hw : WideOK E.m) (K : Class) (hK : K.seeds = true) (fuel : Nat) (x x' : Nat) (ws : List Nat)
    (hg : (lcgBase E).generate fuel (Nat.clog (2 ^ 32) (modulus E.T E.m) + 3) x = some (ws, x')) :
    ∃ y : Nat, (lcgBase E).adapt K fuel .lvalue x = some (y, x') ∧ E.seedRange (ws.drop 3) = .ok (y : Int) [] ∧
      E.min ≤ y ∧ y ≤ E.max ∧
      ∃ j vs rest, 1 ≤ j ∧ (lcgBase E).values fuel x = some vs ∧
        generateFromInt ⟨E.T, E.min, E.max⟩ (Nat.clog (2 ^ 32) (modulus E.T E.m) + 3) vs = .done ws rest ∧
        j + rest.length = fuel ∧ E.engine.skip j x = some x' := by
  obtain ⟨hl, j, vs, rest, g1, g2, g3, g4, g5⟩ := generate_spec _ fuel _ x x' ws hg
  rw [← wordCount_clog E.T E.m hT hm h1] at hg hl
  obtain ⟨y, e1, e2, e3, e4⟩ := lcg_seedSeq E hT hu hm h1 hw ws hl
  refine ⟨y, ?_, e2, e3, e4, j, vs, rest, g1, g2, g3, g4, g5⟩
  have hs : (lcgBase E).seedSeq (fun _ => ws) = some y := by
    change (E.seedSeq fun _ => ws).map Int.toNat = some y
    rw [e1]; rfl
  have hg' : (lcgBase E).generate fuel (lcgBase E).words x = some (ws, x') := hg
  unfold Base.adapt
  rw [c157_base_lvalue K hK]
  simp only [Base.seedFrom, hg', Option.bind_some, hs, Option.map_some]

example : (lcgBase minstdRand0).generate 5 4 1 = some ([3221242278, 3447937259, 1124748154, 834109869], 1144108930) ∧
    (lcgBase minstdRand0).adapt shuffleOrder 5 .lvalue 1 = some (834109869, 1144108930) := by decide +kernel

/-- **C157 is false for base engines that are not `const`**: `minstd_rand0 rng(1); discard_block_engine<minstd_rand0, p, r>
e(rng);` does not copy `rng` but seeds a new engine from it, whose state is 834109869, and moves `rng` on by five values. With
`const minstd_rand0 rng(1)` the same line makes a copy. -/
theorem c157_base_false : resolve discardBlock .base .lvalue = some .seq ∧
    discardBlockFrom (lcgBase minstdRand0) 5 .lvalue 1 = some (⟨834109869, 0⟩, 1144108930) ∧
    minstdRand0.engine.skip 5 1 = some 1144108930 ∧
    discardBlockFrom (lcgBase minstdRand0) 5 .constLvalue 1 = some (⟨1, 0⟩, 1) := by decide +kernel

/-! ## `shuffle_output` -/

/-- C157 (`shuffle_output`, other arguments): numbers, sequences and base engines end in the same constructors of
`shuffle_order_engine` as without `shuffle_output`; temporaries count as `const`, so that a temporary sequence is accepted. -/
theorem c157_shuffle_output (t : Ty) (k : Cat) (ht : t = .base ∨ t = .arith ∨ t = .other) :
    shuffleOutputForward t k = resolve shuffleOrder t (if k = .rvalue then .constLvalue else k) := by
  rcases ht with rfl | rfl | rfl <;> cases k <;> decide

example : shuffleOutputForward .arith .rvalue = some .arith ∧ shuffleOutputForward .other .rvalue = some .seq ∧
    shuffleOutputForward .base .constLvalue = some .base := by decide

/-- **C157 (`shuffle_output`, copies).** A `shuffle_output` that is `const` or a temporary is copied, whatever its base engine
and state. -/
theorem c157_shuffle_output_copy_partial {σ : Type} (B : Base σ) (table fuel : Nat) (k : Cat) (hk : k ≠ .lvalue)
    (s : ShuffleState σ) : shuffleOutputCopy B table fuel k s = some (s, s) := by
  have h1 : resolve shuffleOutput .self .constLvalue = some .copy := by decide
  have h2 : resolve shuffleOutput .self .rvalue = some .move := by decide
  cases k with
  | lvalue => exact absurd rfl hk
  | constLvalue => simp only [shuffleOutputCopy, h1]
  | rvalue => simp only [shuffleOutputCopy, h2]

example : shuffleOutputCopy (lcgBase minstdRand0) 2 0 .rvalue ⟨7, [8, 9], 10⟩ = some (⟨7, [8, 9], 10⟩, ⟨7, [8, 9], 10⟩) := by
  decide +kernel

/-- **C157 is false for variables of the class `shuffle_output`**: after `shuffle_output<minstd_rand0, 2> a(1), b(a);` the
engine `b` is not a copy of `a` but seeded from it, and `a` has moved on by five values. This is also how
`variate_generator` initializes its engine (variate_generator.hpp:69-70). -/
theorem c157_shuffle_output_copy_false :
    ShuffleOrder.init 2 (lcgBase minstdRand0).engine 1 = some ⟨1622650073, [16807, 282475249], 1622650073⟩ ∧
    shuffleOutputCopy (lcgBase minstdRand0) 2 5 .lvalue ⟨1622650073, [16807, 282475249], 1622650073⟩ =
      some (⟨1869900145, [90911327, 1085799872], 1869900145⟩, ⟨1457850878, [1457850878, 101027544], 470211272⟩) := by decide +kernel

/-- **C157 (two arguments).** Two engines or two seeds are taken as such, if the first is `const` or a temporary, or if the
types of the arguments differ; two seeds also if they have exactly the parameter types. -/
theorem c157_pair_partial (byRef same exact : Bool) (k : Cat)
    (h : k ≠ .lvalue ∨ same = false ∨ (byRef = false ∧ exact = true)) : resolve2 byRef same exact k = some .pair := by
  revert byRef same exact
  cases k <;> decide

example : resolve2 false true true .lvalue = some .pair ∧ resolve2 true true true .constLvalue = some .pair := by decide

/-- C157: outside that guard they are taken for a pair of iterators, which does not compile:
`xor_combine_engine<T, s1, T, s2> e(a, b)` with two variables of type `T`, `ecuyer1988 e(i, j)` with two variables of type
`int`. -/
theorem c157_pair_false : resolve2 true true true .lvalue = some .range ∧ resolve2 false true false .lvalue = some .range := by decide

end Ctor
end Boost.Random
