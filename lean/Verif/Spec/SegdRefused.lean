import Verif.Spec.SegdDisk
import Verif.Spec.OSEGYFail

/-!
# Specification of SEG-D traces that are refused
-/

namespace Sedaman.Spec

/-- Integer and floating point values are different kinds. -/
def SameKind : Value → Value → Prop
  | .int _, .int _ => True
  | .dbl _, .dbl _ => True
  | _, _ => False

/-- One of the values for the 20 byte trace header is of the wrong kind: a floating point number where
an integer belongs, or an integer where a floating point number belongs. -/
def WrongKindD (h : Header) : Prop :=
  ∃ p ∈ stdTraceNames, ∃ v, h.get p.1 = some v ∧ ¬ SameKind p.2 v

end Sedaman.Spec
