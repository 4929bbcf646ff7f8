import Verif.Spec.Sorted1D
import Verif.Spec.Samples

/-!
# Specification of order and sign of samples
-/

namespace Sedaman.Spec

/-- Both samples are numbers (finite or infinite, but not NaN), and the first is not greater than the
second. -/
def AtMost (x y : Dbl) : Prop := ∃ a b, dblNumber x = some a ∧ dblNumber y = some b ∧ a ≤ b

/-- The sample with the other sign: adding `2^63` modulo `2^64` changes just the first bit, which is the
sign. -/
def opposite (x : Dbl) : Dbl := x + 0x8000000000000000#64

/-- The sample is a number other than zero (finite or infinite). -/
def Nonzero (x : Dbl) : Prop := ∃ a, dblNumber x = some a ∧ a ≠ ((0 : ℚ) : WithTop ℚ)

end Sedaman.Spec
