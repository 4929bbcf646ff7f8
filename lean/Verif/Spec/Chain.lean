import Verif.Spec.Rewrite
import Verif.Spec.Convert
import Verif.Model.OSEGY

/-!
# Specification: chains of conversions
-/

namespace Sedaman.Spec

/-- What a conversion makes: the headers of the new file, and the header map it is written and read with. -/
structure Target where
  text : Bytes
  exts : List Bytes
  bh : BinHeader
  map : HdrMap
  block : HBlock

/-- The bytes of the new file, written with the writer of the revision in the header. -/
def Target.write (est : LogEst) (T : Target) (ts : List Trace) : Out Bytes :=
  if T.bh.revMajor = 0 then do
    let w ← openRev0 T.text T.bh T.map
    let w ← writeAll (writeTraceRev0 est) w ts
    pure w.file.data
  else if T.bh.revMajor = 1 then do
    let w ← openRev1 (T.text :: T.exts) T.bh T.map
    let w ← writeAll (writeTraceRev1 est) w ts
    pure w.file.data
  else do
    let w ← openRev2 (T.text :: T.exts) T.bh [] T.map
    let w ← writeAll (writeTraceRev2 est) w ts
    closeRev2 w

/-- The headers of the new file are right. -/
structure Target.Ok (T : Target) : Prop where
  texts : ∀ x ∈ T.text :: T.exts, x.length = 3200
  few : T.exts.length < 65536
  header : HeaderOk T.bh
  map : MapOk T.bh T.map T.block
  revision : (T.bh.revMajor = 0 ∧ T.bh.extTextHeadersNum = 0 ∧ T.bh.extSampPerTr = 0 ∧
      T.bh ≠ { formatCode := 1 }) ∨
    (T.bh.revMajor = 1 ∧ TextsDeclared T.bh T.exts ∧ ExtendedOk T.bh) ∨
    (2 ≤ T.bh.revMajor ∧ TextsDeclared T.bh T.exts ∧ ExtendedOk T.bh ∧ T.bh.maxNumAddTrHeaders = 0 ∧
      T.bh.numOfTrailerStanza = 0 ∧
      (T.bh.byteOffOfFirstTr = 0 ∨ T.bh.byteOffOfFirstTr = 3600 + 3200 * T.exts.length))

/-- The headers of the new file and of the trace tell the length of the trace. -/
def Target.Tells (T : Target) (t : Trace) : Prop :=
  if T.bh.revMajor = 0 then (t.samples.length : Int) = T.bh.sampPerTr % 65536 else LengthKnown T.bh T.block.fields t

/-- Every sample format keeps the values of the one before, and the fields of every map hold those of the one before. -/
def Widening : Int → List HField → List Target → Prop
  | _, _, [] => True
  | fmt, fields, T :: Ts => T.bh.formatCode ∈ keptBy fmt ∧ Holds fields T.block.fields ∧
      Widening T.bh.formatCode T.block.fields Ts

/-- Traces `ts` are written to a first file, the traces read from it are written to a second file, and so on. The traces
read from the last file are `vs`. -/
def Chain (est : LogEst) : List Target → List Trace → List Trace → Prop
  | [], ts, vs => vs = ts
  | T :: Ts, ts, vs => ∃ data r us, T.write est ts = .ok data ∧ openReader data none T.map = .ok r ∧ Visits r us ∧
      Chain est Ts us vs

end Sedaman.Spec
