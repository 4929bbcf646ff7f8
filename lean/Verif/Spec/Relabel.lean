import Verif.Spec.E2E
import Verif.Spec.Rewrite

/-!
# Specification: other file headers for the same traces
-/

namespace Sedaman.Spec

/-- Binary headers under which traces have the same bytes: the same sample format, byte order and way to tell the
number of samples. All else may differ. -/
structure SameShape (bh bh' : BinHeader) : Prop where
  format : bh'.formatCode = bh.formatCode
  order : bh'.endianness = bh.endianness
  fixed : bh'.fixedTrLength = bh.fixedTrLength
  samples : bh'.sampPerTr = bh.sampPerTr

end Sedaman.Spec
