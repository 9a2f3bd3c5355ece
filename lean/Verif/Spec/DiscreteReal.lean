import Verif.Model.RealOps
import Verif.Spec.RealDist
import Mathlib.Algebra.BigOperators.Group.Finset.Basic
import Mathlib.Data.Nat.Choose.Basic
import Mathlib.Analysis.SpecialFunctions.Pow.Real
import Mathlib.Analysis.SpecialFunctions.Log.Basic

/-!
# Discrete distributions with real parameters
-/

namespace Boost.Random.Spec
open Finset

/-- Exact arithmetic. -/
noncomputable def exactOps : RealOps ℝ := ⟨id, Real.sqrt, Real.exp, Real.log, fun x y => x ^ y⟩

/-- The probability of `k` successes in `t` trials. -/
def binPmf {K : Type} [Field K] (t : Nat) (p : K) (k : Nat) : K := (t.choose k : K) * p ^ k * (1 - p) ^ (t - k)

/-- The probability of `k` events when `μ` are expected. -/
noncomputable def poissonPmf (μ : ℝ) (k : Nat) : ℝ := Real.exp (-μ) * μ ^ k / k.factorial

/-- The probability of `k` failures before the first success. -/
def geomPmf {K : Type} [Field K] (p : K) (k : Nat) : K := p * (1 - p) ^ k

/-- The probability of at most `k`. -/
def cdf {K : Type} [Field K] (f : Nat → K) (k : Nat) : K := ∑ i ∈ range (k + 1), f i

/-- Probabilities below `eps` that have begun to decrease. -/
def Cut {K : Type} [Field K] [LinearOrder K] (f : Nat → K) (eps : K) (k : Nat) : Prop := 1 ≤ k ∧ f k < eps ∧ f k < f (k - 1)

/-- `y` is a floating-point number nearest to the real number `x`. -/
def CorrectlyRounded (digits : Nat) (x : ℝ) (y : ℚ) : Prop := Representable digits y ∧ ∀ z, Representable digits z → |x - y| ≤ |x - z|

end Boost.Random.Spec
