import Verif.Model.ISEGY
import Verif.Model.TextHdr

/-!
# `OSEGYRev0`, `OSEGYRev1`, `OSEGYRev2`: writing SEG-Y files

Model of src/OSEGY.cpp, src/OSEGYRev0.cpp, src/OSEGYRev1.cpp and src/OSEGYRev2.cpp.
-/

namespace Sedaman

/-- State of a writer. `samp` is `samp_buf`, `hdrBuf` the 240 byte header buffer, `firstPos`
`first_trace_pos`; `auto` records which of the `write_trace` closures was chosen.
CommonSEGY.hpp:196-206, OSEGYRev0.cpp:24-28 -/
structure Writer where
  bh : BinHeader
  bo : ByteOrder
  map : HdrMap
  file : File
  samp : Bytes
  hdrBuf : Bytes
  bps : Nat
  firstPos : Nat
  auto : Bool
  texts : List Bytes
  trailers : List Bytes
  deriving DecidableEq, Repr

/-- The binary header in the file: `seekg(3200)` and 400 bytes. OSEGY.cpp:285-286 -/
def writeBinHeader (bo : ByteOrder) (bh : BinHeader) (f : File) : File :=
  File.write { f with pos := textHeaderSize } (binHeaderBytes bo bh)

/-- The loops that write the first 3200 bytes of each string (`c_str()` of a shorter string would
be read beyond its end; sizes are checked before). OSEGY.cpp:424-440 -/
def writeTexts : List Bytes → File → Out File
  | [], f => .ok f
  | t :: ts, f =>
    if textHeaderSize ≤ t.length then writeTexts ts (f.write (t.take textHeaderSize))
    else isUb .outOfBounds

/-- Storing the samples one after the other into `samp_buf` from offset `off` on.
OSEGY.cpp:454-457 -/
def storeSamples (enc : Dbl → Out Bytes) : List Dbl → Nat → Bytes → Out Bytes
  | [], _, buf => .ok buf
  | x :: xs, off, buf => do
    let bs ← enc x
    let buf ← writeAt buf off bs
    storeSamples enc xs (off + bs.length) buf

/-- `write_trace_samples_fix`. OSEGY.cpp:452-459 -/
def writeSamplesFix (est : LogEst) (w : Writer) (samples : List Dbl) : Out Writer := do
  let enc ← sampleWriter est w.bh.formatCode
  let buf ← storeSamples (enc w.bo) samples 0 w.samp
  pure { w with samp := buf, file := w.file.write buf }

/-- `*header.get("SAMP_NUM")` with `get<int64_t>`: a missing value dereferences an empty optional.
OSEGY.cpp:444-445, OSEGYRev0.cpp:71-72 and the same in OSEGYRev1.cpp, OSEGYRev2.cpp -/
def needInt (hdr : Header) (k : String) : Out Int :=
  match hdr.get k with
  | none => isUb .emptyOptional
  | some (.int n) => .ok n
  | some (.dbl _) => throwExn .badVariantAccess

/-- `samp_buf` resized when its size differs. OSEGY.cpp:446-448 -/
def fitBuf (buf : Bytes) (n : Nat) : Out Bytes :=
  if n ≠ buf.length then resizeVec buf n else .ok buf

/-- `write_trace_samples_var`: the buffer is resized to the number of samples announced by the
trace header. OSEGY.cpp:442-450 -/
def writeSamplesVar (est : LogEst) (w : Writer) (t : Trace) : Out Writer := do
  let n ← needInt t.header "SAMP_NUM"
  let size ← mulInt64 n w.bps
  let buf ← fitBuf w.samp (toU 8 size)
  writeSamplesFix est { w with samp := buf } t.samples

/-- `sgy.write_trace_header(tr.header())`. OSEGY.cpp:288-350 -/
def putTraceHeader (est : LogEst) (w : Writer) (hdr : Header) : Out Writer := do
  let buf ← writeTraceHeader est w.bo w.map hdr w.hdrBuf
  pure { w with hdrBuf := buf, file := w.file.write buf }

/-- `sgy.write_additional_trace_headers(tr.header())`. OSEGY.cpp:352-421 -/
def putAdditional (est : LogEst) (w : Writer) (hdr : Header) : Out Writer := do
  let (out, buf) ← writeAdditional est w.bo w.map w.bh.maxNumAddTrHeaders hdr w.hdrBuf
  pure { w with hdrBuf := buf, file := w.file.write out }

/-- Additional headers only when the binary header announces some. OSEGYRev2.cpp:67-127 -/
def addHdrs (est : LogEst) (w : Writer) (hdr : Header) : Out Writer :=
  if w.bh.maxNumAddTrHeaders ≠ 0 then putAdditional est w hdr else .ok w

/-- `d > n` for a `double` and a non-negative `int`. -/
def dblGtNat (d : Dbl) (n : Nat) : Bool :=
  match d.val with
  | .fin s m e => !s && decide (if 0 ≤ e then n < m * 2 ^ e.toNat else n * 2 ^ (-e).toNat < m)
  | .inf s => !s
  | .nan => false

/-- The sample interval as `double`. Revisions 0 and 1 accept both alternatives, revision 2 uses
`get<int64_t>`. OSEGYRev0.cpp:79-84, OSEGYRev1.cpp:91-96, OSEGYRev2.cpp:142-143 -/
def sampIntOf (onlyInt : Bool) (hdr : Header) : Out Dbl :=
  match hdr.get "SAMP_INT" with
  | none => isUb .emptyOptional
  | some (.int n) => .ok (dblOfInt n)
  | some (.dbl d) => if onlyInt then throwExn .badVariantAccess else .ok d

/-- What an automatic writer does when the first trace arrives: checks, the two binary header
fields, the buffer size, and the binary header in the file again. The count is stored in an
`int16_t` (a negative count is reduced modulo 2^16), but its product with the sample size makes
`resize` throw. OSEGYRev0.cpp:69-94, OSEGYRev1.cpp:80-107, OSEGYRev2.cpp:130-152 -/
def setMinHdrs (onlyInt : Bool) (w : Writer) (hdr : Header) : Out Writer :=
  if w.file.pos = w.firstPos then do
    let n ← needInt hdr "SAMP_NUM"
    if n > 32767 then throwExn .tooManySamples
    else do
      let d ← sampIntOf onlyInt hdr
      if dblGtNat d 32767 then throwExn .badSampleInterval
      else do
        let si ← dblToS 2 d
        if si = 0 then throwExn .badSampleInterval
        else do
          let bh := { w.bh with sampPerTr := toS 2 (toU 2 n), sampInt := si }
          let size ← mulInt64 n w.bps
          let samp ← resizeVec w.samp (toU 8 size)
          pure { w with bh, samp, file := writeBinHeader w.bo bh w.file }
  else .ok w

/-- Automatic writers look at the first trace. OSEGYRev0.cpp:63-66, OSEGYRev1.cpp:62-75,
OSEGYRev2.cpp:67-127 -/
def autoHdrs (onlyInt : Bool) (w : Writer) (hdr : Header) : Out Writer :=
  if w.auto then setMinHdrs onlyInt w hdr else .ok w

/-- The length checks on user supplied texts. OSEGYRev0.cpp:43, OSEGYRev1.cpp:43-46,
OSEGYRev2.cpp:42-52 -/
def checkSizes (e : Exn) (ts : List Bytes) : Out Unit :=
  if ts.all (fun t => t.length = textHeaderSize) then .ok () else throwExn e

/-- The user's texts, checked, or the default one (whose construction throws `out_of_range` if the
text to be replaced does not occur). OSEGYRev0.cpp:34-46, OSEGYRev1.cpp:34-47,
OSEGYRev2.cpp:37-54 -/
def textsOr (dflt : Option (List Bytes)) (texts : List Bytes) : Out (List Bytes) :=
  if texts = [] then
    match dflt with
    | some ts => .ok ts
    | none => throwExn .textHeaderSize
  else do
    checkSizes .textHeaderSize texts
    pure texts

/-- Extended texts exist from revision 1 on. OSEGYRev1.cpp:53-58, OSEGYRev2.cpp:60-65 -/
def writeExts (rev0 : Bool) (texts : List Bytes) (f : File) : Out File :=
  if rev0 then .ok f else writeTexts (texts.drop 1) f

/-- The common part of the three constructors once the text headers are known: the first text,
the binary header (format 0 replaced by the default format), the extended texts, the choice of the
writers, the automatic mode. `common()` was built before (`checkMap`). The automatic mode compares
the whole header with a zero header that has the default format; the comparison is `memcmp` on the
struct, padding bytes are assumed equal.
OSEGYRev0.cpp:47-66, OSEGYRev1.cpp:48-64, OSEGYRev2.cpp:55-72 -/
def openWriter (rev0 : Bool) (texts trailers : List Bytes) (bh : BinHeader) (m : HdrMap) :
    Out Writer := do
  let f : File := ⟨[], 0⟩
  let f ← writeTexts (texts.take 1) f
  let dflt : Int := if rev0 then 1 else 5
  let bh := if bh.formatCode = 0 then { bh with formatCode := dflt } else bh
  let bo ← byteOrderOf bh.endianness
  let f := writeBinHeader bo bh f
  let f ← writeExts rev0 texts f
  let bh := if rev0 then bh
    else { bh with extTextHeadersNum := toS 2 (toU 2 ((texts.length : Int) - 1)) }
  let _ ← sampleWriter (.strict fun _ => 0) bh.formatCode
  match bytesPerSample bh.formatCode with
  | none => isUb .outOfBounds
  | some bps =>
    let auto := decide (bh = { formatCode := dflt })
    let len := if !auto ∧ (rev0 ∨ bh.fixedTrLength ≠ 0) then toU 2 bh.sampPerTr * bps else 0
    pure { bh, bo, map := m, file := f, samp := List.replicate len 0,
           hdrBuf := List.replicate 240 0, bps, firstPos := f.pos, auto, texts, trailers }

/-- `OSEGYRev0::OSEGYRev0`. An empty string stands for "no text header".
OSEGYRev0.cpp:31-99, 106-112 -/
def openRev0 (text : Bytes) (bh : BinHeader) (m : HdrMap) : Out Writer := do
  checkMap bh m
  let texts ← textsOr (defaultTextRev0.map ([·])) (if text = [] then [] else [text])
  openWriter true texts [] bh m

/-- `OSEGYRev0::write_trace`. OSEGYRev0.cpp:63-66, 68-97 -/
def writeTraceRev0 (est : LogEst) (w : Writer) (t : Trace) : Out Writer := do
  let w ← autoHdrs false w t.header
  let w ← putTraceHeader est w t.header
  writeSamplesFix est w t.samples

/-- `OSEGYRev1::OSEGYRev1`. OSEGYRev1.cpp:31-112, 119-126 -/
def openRev1 (texts : List Bytes) (bh : BinHeader) (m : HdrMap) : Out Writer := do
  checkMap bh m
  let texts ← textsOr (defaultTextRev1.map ([·])) texts
  openWriter false texts [] bh m

/-- `OSEGYRev1::write_trace`: fixed length only with an explicit header that says so.
OSEGYRev1.cpp:62-75, 79-110 -/
def writeTraceRev1 (est : LogEst) (w : Writer) (t : Trace) : Out Writer := do
  let w ← autoHdrs false w t.header
  let w ← putTraceHeader est w t.header
  if !w.auto ∧ w.bh.fixedTrLength ≠ 0 then writeSamplesFix est w t.samples
  else writeSamplesVar est w t

/-- `OSEGYRev2::OSEGYRev2`. OSEGYRev2.cpp:33-128, 159-167 -/
def openRev2 (texts : List Bytes) (bh : BinHeader) (trailers : List Bytes) (m : HdrMap) :
    Out Writer := do
  checkMap bh m
  let texts ← textsOr (some [defaultTextRev2]) texts
  checkSizes .trailerSize trailers
  openWriter false texts trailers bh m

/-- `OSEGYRev2::write_trace`; the four closures of each mode differ in the additional headers and
in the kind of samples. OSEGYRev2.cpp:67-127 -/
def writeTraceRev2 (est : LogEst) (w : Writer) (t : Trace) : Out Writer := do
  let w ← autoHdrs true w t.header
  let w ← putTraceHeader est w t.header
  let w ← addHdrs est w t.header
  if w.bh.fixedTrLength ≠ 0 then writeSamplesFix est w t.samples
  else writeSamplesVar est w t

/-- `OSEGYRev2::~OSEGYRev2`: the bytes of the finished file. OSEGYRev2.cpp:169-174,
OSEGY.cpp:433-440 -/
def closeRev2 (w : Writer) : Out Bytes := do
  let f ← w.file.seekEnd 0
  if w.bh.numOfTrailerStanza ≠ 0 then do
    let f ← writeTexts w.trailers f
    pure f.data
  else pure f.data

/-- Any number of `write_trace` calls. -/
def writeAll (step : Writer → Trace → Out Writer) (w : Writer) (ts : List Trace) : Out Writer :=
  ts.foldlM step w

end Sedaman
