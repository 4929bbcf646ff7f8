import Verif.Spec.SampleOrder
import Verif.Spec.SegdSample

/-!
# Specification of order and sign of SEG-D samples
-/

namespace Sedaman.Spec

/-- The samples `xs` of a trace, written in a format with the descale factor `c` whatever was written
before, are read back as `ys`. -/
def SamplesBack (est : PackEst) (fmt : Int) (c : Dbl) (xs ys : List Dbl) : Prop :=
  ∃ bs, (∀ m, ∃ m', writeSamplesD est fmt c xs m = .ok (bs, m')) ∧
    ∀ rest, readSamplesD fmt c xs.length (bs ++ rest) = .ok (ys, rest)

/-- There are as many samples as before, and samples that were in order still are. -/
def OrderKept (xs ys : List Dbl) : Prop :=
  ys.length = xs.length ∧ ∀ (i j : Nat) (x y x' y' : Dbl), xs[i]? = some x → xs[j]? = some y →
    ys[i]? = some x' → ys[j]? = some y' → AtMost x y → AtMost x' y'

end Sedaman.Spec
