import Verif.Spec.LogLib
import Verif.Spec.Copy
import Verif.Spec.Platform

/-!
# Specification of files with samples in IBM format
-/

namespace Sedaman.Spec

/-- A sample for which the IBM format works: zero, or of a magnitude between `16^-31` (about 5e-38) and the
largest IBM number `(2^24 - 1) * 16^57` (about 7e75). -/
def IbmFit (d : Dbl) : Prop :=
  ∃ x, dblRat d = some x ∧
    (x = 0 ∨ (16 : ℚ) ^ (-31 : Int) ≤ |x| ∧ |x| ≤ ((2 ^ 24 - 1 : Nat) : ℚ) * (16 : ℚ) ^ (57 : Int))

/-- `y` is the number `d` with an error of at most one part in `2^20 - 1`, towards zero. -/
def IbmNear (d y : Dbl) : Prop :=
  ∃ x v, dblRat d = some x ∧ dblRat y = some v ∧ |v| ≤ |x| ∧ |x - v| ≤ |x| / (2 ^ 20 - 1)

/-- A trace for a file in IBM format: integers for all names of the map (for fields of type IBM integers
that are doubles), and samples for which the format works. -/
structure IbmTrace (fields : List HField) (t : Trace) : Prop where
  ints : ∀ f ∈ fields, ∃ v, headerInt t.header f.name v ∧ (f.ty = .ibm → v.natAbs ≤ 2 ^ 53)
  samples : ∀ x ∈ t.samples, IbmFit x
  size : t.samples.length < 2 ^ 60

/-- The samples of a trace that was read are near to the ones of the trace that was written, and the header
is what the fields can hold. -/
def IbmBack (est : LogEst) (bo : ByteOrder) (fields : List HField) (orig back : Trace) : Prop :=
  List.Forall₂ IbmNear orig.samples back.samples ∧ HeaderBack est bo fields orig.header back.header

/-- Four bytes of an IBM number that is zero, or normalised and not one of the powers of 16 below
`16^-31`. -/
def IbmWord (bo : ByteOrder) (p : Bytes) : Prop :=
  p = [0, 0, 0, 0] ∨ p.length = 4 ∧ ibmNormalised (decNat bo p) ∧
    (34 ≤ decNat bo p / 2 ^ 24 % 128 ∨ decNat bo p % 2 ^ 24 ≠ 2 ^ 20)

end Sedaman.Spec
