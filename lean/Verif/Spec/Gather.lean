import Verif.Spec.Collect
import Verif.Spec.Transfer

/-!
# Specification: traces gathered from SEG-D and SEG-Y files
-/

namespace Sedaman.Spec

/-- The trace was read from some SEG-D file, and all values it has for the fields are integers. -/
def FromSegd (fields : List HField) (t : Trace) : Prop :=
  ∃ pw data em us, ReadFrom pw data em us ∧ OnlyIntegers em fields ∧ t ∈ us

/-- What a trace became in the new file. It is stored as its format and fields allow. If it came from a SEG-Y file it is
the same, and in the format of double precision its samples are the same wherever it came from. -/
structure Gathered (est : LogEst) (bh : BinHeader) (fields : List HField) (t back : Trace) : Prop where
  stored : TraceBack est bh.formatCode (orderOfMarker bh.endianness) fields t back
  same : FromFile bh fields t → SameTrace t back
  samples : bh.formatCode = 6 → back.samples = t.samples

end Sedaman.Spec
