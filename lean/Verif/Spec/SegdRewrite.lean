import Verif.Spec.SegdLossy

/-!
# Specification: SEG-D files in another sample format
-/

namespace Sedaman.Spec

/-- The headers with another format code. -/
def inFormat (fmt : Int) (a : OSegdArgs) : OSegdArgs := { a with gh1 := { a.gh1 with formatCode := fmt } }

/-- Arguments for a writer of format `fmt`, taken from a reader opened with the maps `m`: everything the reader
shows but the format code. -/
structure RewriteArgs (f : ISegd) (m : ExtMap) (fmt : Int) (a : OSegdArgs) : Prop where
  gh1 : a.gh1 = { f.gh1 with formatCode := fmt }
  gh2 : f.generalHeader2 = some a.gh2
  addHdrs : ∃ l, f.generalHeaderN = .ok l ∧ a.addHdrs = l.map .n
  chSets : a.chSets = f.chSets
  extended : a.extended = f.extended
  external : a.external = f.external
  extMap : a.extMap = m

end Sedaman.Spec
