import Verif.Spec.SegdE2E

/-!
# Vocabulary for copying SEG-D files
-/

namespace Sedaman.Spec

/-- Arguments for the writer taken from a reader opened with the maps `m`: everything the reader
shows. -/
structure CopyArgs (f : ISegd) (m : ExtMap) (a : OSegdArgs) : Prop where
  gh1 : a.gh1 = f.gh1
  gh2 : f.generalHeader2 = some a.gh2
  addHdrs : ∃ l, f.generalHeaderN = .ok l ∧ a.addHdrs = l.map .n
  chSets : a.chSets = f.chSets
  extended : a.extended = f.extended
  external : a.external = f.external
  extMap : a.extMap = m

end Sedaman.Spec
