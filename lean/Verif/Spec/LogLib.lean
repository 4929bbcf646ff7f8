import Verif.Model.LogLib
import Verif.Model.Samples
import Verif.Spec.Samples
import Mathlib.Analysis.SpecialFunctions.Log.Basic

/-!
# What the C library's logarithm is expected to do
-/

namespace Sedaman.Spec

/-- The function `log` of the C library is accurate: it is off by at most 0.6 units of the last place (an
error of at most `0.6 * 2^-52` of the result, as the logarithm of every positive `double` but 1 is a normal
number, and log(1) = 0), and log(2) is the `double` nearest to the logarithm of 2. -/
structure AccurateLog (log : Dbl → Dbl) : Prop where
  near : ∀ (d : Dbl) (x : ℚ), dblRat d = some x → 0 < x →
    ∃ y, dblRat (log d) = some y ∧ |(y : ℝ) - Real.log x| ≤ 3 / 5 * (2 ^ 52)⁻¹ * |Real.log x|
  two : ∀ y, dblRat (log 0x4000000000000000) = some y → |(y : ℝ) - Real.log 2| ≤ (2 ^ 54)⁻¹

/-- The platform estimates the exponent of IBM floats with an accurate logarithm. -/
def UsesLog (est : LogEst) : Prop := ∃ log, AccurateLog log ∧ ∀ a, est a = ibmEstimate log a

end Sedaman.Spec
