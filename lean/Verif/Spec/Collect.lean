import Verif.Spec.Rewrite
import Verif.Spec.Convert

/-!
# Specification: traces collected from several files
-/

namespace Sedaman.Spec

/-- The trace was read from some file that was read to its end. The file may have any content, revision, byte order and
header map, as long as the sample format of the new header keeps all values of its format, and the fields of the new map
hold all values of its fields. -/
def FromFile (bh : BinHeader) (fields : List HField) (t : Trace) : Prop :=
  ∃ data ub m b r us, ReadOut data ub m b r us ∧ bh.formatCode ∈ keptBy r.bh.formatCode ∧ Holds b.fields fields ∧ t ∈ us

end Sedaman.Spec
