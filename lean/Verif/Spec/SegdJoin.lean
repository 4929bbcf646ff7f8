import Verif.Spec.SegdIO
import Verif.Spec.SegdE2E

/-!
# Specification of SEG-D files joined one behind the other
-/

namespace Sedaman.Spec

/-- What a record needs so that nothing of an earlier record is used for it: general header 2, no escape
value for skew blocks before revision 3, and a scan type. -/
structure OnItsOwn (s : ISegd) : Prop where
  gh2 : s.gh1.addGenHdrBlocks ≠ 0
  skew : 3 ≤ s.gh2.segdRevMajor ∨ s.gh1.skewBlocks ≠ 165
  scans : 0 < s.gh1.scanTypesPerRecord

/-- `while (has_trace()) read_trace()` gives these traces. Then the file ends, and the getter for channel sets
returns an empty list. All records are on their own. -/
def ReadsAll (pw : Dbl → Dbl) : ISegd → List Trace → Prop
  | s, [] => OnItsOwn s ∧ s.hasTrace = false ∧ s.hasRecord = false ∧ s.chSets = []
  | s, t :: ts => OnItsOwn s ∧ s.hasTrace = true ∧ ∃ s1, readTraceD pw s = .ok (t, s1) ∧ ReadsAll pw s1 ts

/-- The file opens and gives these traces, at least one. -/
def GivesTraces (pw : Dbl → Dbl) (m : ExtMap) (data : Bytes) (ts : List Trace) : Prop :=
  ts ≠ [] ∧ ∃ s, openSegd data m = .ok s ∧ ReadsAll pw s ts

/-- Headers, additional general headers and traces of one record. -/
structure RecordIn where
  args : OSegdArgs
  blocks : List GenHdrN
  traces : List Trace

/-- A program opens a writer with these headers, gives it these traces, and all calls return; `d` is the
file. -/
def WritesFile (H : Host) (r : RecordIn) (d : Bytes) : Prop :=
  ∃ w, openSegdWriter H 0 r.args = .ok w ∧
    (Spec.writeAll H r.traces w).1 = List.replicate r.traces.length (.ok ()) ∧
    (Spec.writeAll H r.traces w).2.out = d

/-- Headers that fit, and as many traces as announced, at least one. -/
structure RecordInFits (m : ExtMap) (r : RecordIn) : Prop where
  extMap : r.args.extMap = m
  headers : RecordFits r.args r.blocks
  some : r.traces ≠ []
  all : r.traces.length = announced r.args.chSets
  few : r.traces.length < 2 ^ 64

end Sedaman.Spec
