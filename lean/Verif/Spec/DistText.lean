import Verif.Model.DistText
import Verif.Spec.RealDist

/-!
# Text representation and comparison of the distributions: specification
-/

namespace Boost.Random.Spec
open DistText

variable {D : Type}

/-- An object is written, and the text, followed by anything, is read into any other object: that becomes equal to the first, member by
member, and what followed the text remains to be read. `I` describes the objects that there are. -/
def RoundTrip (io : Io D) (I : D → Prop) (d : D) : Prop :=
  ∀ old, I old → ∀ rest, ∃ t, io.write d = some t ∧ io.read ⟨t ++ rest, true⟩ old = some (⟨rest, true⟩, d)

/-- Reading that fails does not change the object. -/
def Unchanged (io : Io D) : Prop := ∀ s d s' d', io.read s d = some (s', d') → s'.ok = false → d' = d

/-- Reading from a stream that has failed before takes nothing and does not change the object. -/
def Idle (io : Io D) (I : D → Prop) : Prop := ∀ r d, I d → io.read ⟨r, false⟩ d = some (⟨r, false⟩, d)

/-- Reading any text ends without undefined behaviour. -/
def Total (io : Io D) : Prop := ∀ s d, ∃ r, io.read s d = some r

/-- Any text that is read without failure makes an object as described by `V`. -/
def Accepts (io : Io D) (V : D → Prop) : Prop := ∀ s d s' d', io.read s d = some (s', d') → s'.ok = true → V d'

/-- Comparison is equality of all members, also of those that are computed from others. -/
def Compares (io : Io D) (I : D → Prop) : Prop := ∀ d e, I d → I e → (io.eq d e = true ↔ d = e)

/-- The text written for a number has `n` significant digits: the error is at most half a unit of the last one. -/
def Prints (n : Nat) (pr : ℚ → ℚ) : Prop := ∀ x, |pr x - x| * (2 * 10 ^ (n - 1)) ≤ |x|

end Boost.Random.Spec
