import Verif.Spec.SEGY
import Verif.Spec.Samples

/-!
# Specification of the conversion between sample formats
-/

namespace Sedaman.Spec

/-- The bytes `bs` are a sample in the format `fmt`, and the library reads the number `x` from them. -/
def SampleOf (fmt : Int) (bo : ByteOrder) (bs : Bytes) (x : Dbl) : Prop :=
  ∃ r, sampleReader fmt = .ok r ∧ ∀ rest, r bo (bs ++ rest) = .ok (x, rest)

/-- Samples read from format `a` and written in format `b` always come back unchanged, whatever the
byte orders. -/
def KeepsSamples (a b : Int) : Prop :=
  ∀ est boA boB bs x, SampleOf a boA bs x → Survives est b boB x

/-- There is a sample in format `a` which, written in format `b`, does not come back: writing it is
undefined or it comes back as another number. The sample can be chosen without knowing how the host
computes logarithms; undefined conversions have no result. -/
def LosesSample (a b : Int) : Prop :=
  ∀ boA boB, ∃ bs x, SampleOf a boA bs x ∧ ∀ est : LogEst, est.Strict → ¬ Survives est b boB x

/-- For each format the ones that keep all its samples. Unsigned integers are kept by integers that
are wide enough, and by floating point numbers with enough digits. Signed integers are kept by
floating point numbers only. Format 1 keeps nothing. -/
def keptBy : Int → List Int
  | 16 => [16, 11, 15, 10, 12, 3, 7, 2, 9, 5, 6]
  | 11 => [11, 15, 10, 12, 7, 2, 9, 5, 6]
  | 15 => [15, 10, 12, 2, 9, 5, 6]
  | 10 => [10, 12, 9, 6]
  | 8 | 3 | 7 => [5, 6]
  | 5 => [5, 6]
  | 1 | 2 | 6 | 9 | 12 => [6]
  | _ => []

end Sedaman.Spec
