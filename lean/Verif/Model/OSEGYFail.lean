import Verif.Model.OSEGY

/-!
# SEG-Y writers after a `write_trace` that throws

`Verif.Model.OSEGY` gives no state after an exception. Here the same functions are modelled with the
state they leave behind in any case: a pair of the outcome and the writer.

Simplification: the contents of `hdr_buf` after a failure are not followed; every function that uses
the buffer clears it first (OSEGY.cpp:289, 356). After undefined behaviour the state means nothing.
-/

namespace Sedaman

/-- A call that may throw, and the writer afterwards. -/
abbrev Call := Out Unit × Writer

/-- `x; f`. -/
def Call.then (x : Call) (f : Writer → Call) : Call :=
  match x with
  | (.ok _, w) => f w
  | (.error e, w) => (.error e, w)

/-- A step that has no effect when it throws. -/
def orSame (w : Writer) (x : Out Writer) : Call :=
  match x with
  | .ok w' => (.ok (), w')
  | .error e => (.error e, w)

/-- `setMinHdrs` with the members assigned before a failure. OSEGYRev0.cpp:69-94, OSEGYRev1.cpp:80-107,
OSEGYRev2.cpp:130-152 -/
def setMinHdrsIO (onlyInt : Bool) (w : Writer) (hdr : Header) : Call :=
  if w.file.pos = w.firstPos then
    match needInt hdr "SAMP_NUM" with
    | .error e => (.error e, w)
    | .ok n =>
      if n > 32767 then (throwExn .tooManySamples, w)
      else
        let w := { w with bh := { w.bh with sampPerTr := toS 2 (toU 2 n) } }
        match sampIntOf onlyInt hdr with
        | .error e => (.error e, w)
        | .ok d =>
          if dblGtNat d 32767 then (throwExn .badSampleInterval, w)
          else match dblToS 2 d with
            | .error e => (.error e, w)
            | .ok si =>
              if si = 0 then (throwExn .badSampleInterval, w)
              else
                let w := { w with bh := { w.bh with sampInt := si } }
                match mulInt64 n w.bps >>= fun size => resizeVec w.samp (toU 8 size) with
                | .error e => (.error e, w)
                | .ok samp => (.ok (), { w with samp, file := writeBinHeader w.bo w.bh w.file })
  else (.ok (), w)

/-- Automatic writers look at the first trace. OSEGYRev0.cpp:63-66, OSEGYRev1.cpp:62-75,
OSEGYRev2.cpp:67-127 -/
def autoHdrsIO (onlyInt : Bool) (w : Writer) (hdr : Header) : Call :=
  if w.auto then setMinHdrsIO onlyInt w hdr else (.ok (), w)

/-- One additional header block. OSEGY.cpp:356-417 -/
def addBlock (est : LogEst) (w : Writer) (hdr : Header) (i : Nat) : Out Bytes := do
  let buf ← memsetHdr w.hdrBuf
  match w.map[i]? with
  | some b => writeFields est w.bo hdr b.fields buf
  | none => .ok buf

/-- The loop over the additional headers: each block goes to the file before the next is put
together. OSEGY.cpp:352-421 -/
def addLoopIO (est : LogEst) (hdr : Header) : (n i : Nat) → Writer → Call
  | 0, _, w => (.ok (), w)
  | n + 1, i, w =>
    match addBlock est w hdr i with
    | .error e => (.error e, w)
    | .ok buf => addLoopIO est hdr n (i + 1) { w with hdrBuf := buf, file := w.file.write buf }

/-- Additional headers only when the binary header announces some. OSEGYRev2.cpp:67-127 -/
def addHdrsIO (est : LogEst) (w : Writer) (hdr : Header) : Call :=
  if w.bh.maxNumAddTrHeaders ≠ 0 then addLoopIO est hdr (w.bh.maxNumAddTrHeaders - 1).toNat 1 w
  else (.ok (), w)

/-- `OSEGYRev0::write_trace`. OSEGYRev0.cpp:63-66, 68-97 -/
def writeTraceRev0IO (est : LogEst) (w : Writer) (t : Trace) : Call :=
  (autoHdrsIO false w t.header).then fun w =>
  (orSame w (putTraceHeader est w t.header)).then fun w =>
  orSame w (writeSamplesFix est w t.samples)

/-- `OSEGYRev1::write_trace`. OSEGYRev1.cpp:62-75, 79-110 -/
def writeTraceRev1IO (est : LogEst) (w : Writer) (t : Trace) : Call :=
  (autoHdrsIO false w t.header).then fun w =>
  (orSame w (putTraceHeader est w t.header)).then fun w =>
  if !w.auto ∧ w.bh.fixedTrLength ≠ 0 then orSame w (writeSamplesFix est w t.samples)
  else orSame w (writeSamplesVar est w t)

/-- `OSEGYRev2::write_trace`. OSEGYRev2.cpp:67-127 -/
def writeTraceRev2IO (est : LogEst) (w : Writer) (t : Trace) : Call :=
  (autoHdrsIO true w t.header).then fun w =>
  (orSame w (putTraceHeader est w t.header)).then fun w =>
  (addHdrsIO est w t.header).then fun w =>
  if w.bh.fixedTrLength ≠ 0 then orSame w (writeSamplesFix est w t.samples)
  else orSame w (writeSamplesVar est w t)

end Sedaman
