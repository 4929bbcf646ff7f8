import Verif.Spec.SegdRewrite

/-!
# Specification: replacing the samples of SEG-D traces
-/

namespace Sedaman.Spec

/-- A trace after processing: the same header, other samples, but as many as before. -/
def Processed (t u : Trace) : Prop := u.header = t.header ∧ u.samples.length = t.samples.length

end Sedaman.Spec
