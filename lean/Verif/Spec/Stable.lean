import Verif.Spec.Copy

/-!
# Specification of files that are written, read and written again
-/

namespace Sedaman.Spec

/-- The sample `x` can be written, and the library writes the bytes it is stored as once more after it has
read them. (What is read may differ from `x`.) -/
def Stable (est : LogEst) (fmt : Int) (bo : ByteOrder) (x : Dbl) : Prop :=
  ∃ w bs, sampleWriter est fmt = .ok w ∧ w bo x = .ok bs ∧ Rewrites est fmt bo bs

/-- The logarithm estimate is exact for every number, other than zero, in the range of IBM floats. -/
def ExactLog (est : LogEst) : Prop :=
  ∀ (a : Dbl) (x : ℚ), dblRat a = some x → 0 < x → (16 : ℚ) ^ (-65 : Int) ≤ x → x < (16 : ℚ) ^ (63 : Int) →
    IbmExponent x (est a)

end Sedaman.Spec
