import Verif.Spec.SegdJoin

/-!
# Specification of SEG-D files cut into records
-/

namespace Sedaman.Spec

/-- A file of one record: it opens, it gives these traces, and they are as many as its channel sets
announce. -/
def GivesRecord (pw : Dbl → Dbl) (m : ExtMap) (data : Bytes) (ts : List Trace) : Prop :=
  GivesTraces pw m data ts ∧ ∃ s, openSegd data m = .ok s ∧ ts.length = announced s.chSets

/-- The file is made of these pieces, and its traces of theirs. -/
structure CutInto (data : Bytes) (ts : List Trace) (pieces : List (Bytes × List Trace)) : Prop where
  bytes : (pieces.map Prod.fst).flatten = data
  traces : (pieces.map Prod.snd).flatten = ts

end Sedaman.Spec
