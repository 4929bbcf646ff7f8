import Verif.Model.SegdWriter

/-!
# Vocabulary for the SEG-D reader and writer properties
-/

namespace Sedaman.Spec

/-- The number of traces the channel sets announce. -/
def announced (sets : List (List ChSet)) : Nat := (sets.flatten.map ChSet.numberOfChannels).sum

/-- `write_trace` called with each trace in turn, also after calls that threw: the outcomes, and the
writer at the end. -/
def writeAll (H : Host) : List Trace → OSegd → List (Out Unit) × OSegd
  | [], s => ([], s)
  | t :: ts, s =>
    let (r, s) := writeTraceD H t s
    let (rs, s) := writeAll H ts s
    (r :: rs, s)

/-- The number of calls that returned. -/
def accepted (rs : List (Out Unit)) : Nat := rs.countP (fun r => r matches .ok _)

/-- Header, extension blocks and samples of the trace can be written and give these bytes, whatever
earlier traces left in the sample buffer. -/
def Writable (H : Host) (a : OSegdArgs) (t : Trace) (bytes : Bytes) : Prop :=
  ∃ b e x, writeTraceHdrD t.header = .ok b ∧
    writeExt H.est H.room a.gh2.segdRevMajor a.extMap t.header = .ok e ∧
    (∀ m, ∃ m', writeSamplesOf H a t m = .ok (x, m')) ∧ bytes = b ++ e ++ x

/-- `read_trace()` called `n` times: the traces, and the reader afterwards. -/
def readManyD (pw : Dbl → Dbl) : Nat → ISegd → Out (List Trace × ISegd)
  | 0, s => .ok ([], s)
  | n + 1, s => do
    let (t, s) ← readTraceD pw s
    let (ts, s) ← readManyD pw n s
    pure (t :: ts, s)

/-- The states of a reader in the hands of a careful user: a file was opened, and traces were read
with success, each while `has_trace()` was true. -/
inductive ReachableD (pw : Dbl → Dbl) (data : Bytes) (m : ExtMap) : ISegd → Prop
  | opened (s : ISegd) : openSegd data m = .ok s → ReachableD pw data m s
  | read (s : ISegd) (t : Trace) (s' : ISegd) :
      ReachableD pw data m s → s.hasTrace → readTraceD pw s = .ok (t, s') → ReachableD pw data m s'

/-- The two readers stand in the same record: same headers, same announced number of traces. -/
structure SameRecord (s s' : ISegd) : Prop where
  data : s'.file.data = s.file.data
  gh1 : s'.gh1 = s.gh1
  gh2 : s'.gh2 = s.gh2
  gh3 : s'.gh3 = s.gh3
  blks : s'.blks = s.blks
  chSets : s'.chSets = s.chSets
  extended : s'.extended = s.extended
  external : s'.external = s.external
  chansIn : s'.chansIn = s.chansIn

/-- The reader is at the first trace of a record whose headers start at byte `p` of the file: general
header 1 is what those bytes say, no trace of it was read, and the counter is what the channel sets
announce. -/
structure AtRecord (p : Nat) (s : ISegd) : Prop where
  gh1 : ∃ rest, readGenHdr1 ((s.file.data.drop p).take 32) = .ok (s.gh1, rest)
  chansRead : s.chansRead = 0
  chansIn : s.chansIn = announced s.chSets
  scans : s.chSets.length = s.gh1.scanTypesPerRecord.toNat
  behind : p + 32 ≤ s.file.pos

end Sedaman.Spec
