import Verif.Model.TraceHdr
import Verif.Model.File

/-!
# `ISEGY`: reading SEG-Y files

Model of src/ISEGY.cpp. A reader is built from the bytes of the file, the optional user supplied
binary header and the trace header map.
-/

namespace Sedaman

/-- `Trace`: header and samples. Trace.cpp:22-36 -/
structure Trace where
  header : Header
  samples : List Dbl
  deriving DecidableEq, Repr

/-- "((SEG: EndText))" in ASCII. ISEGY.cpp:329, 362, 394 -/
def endText : Bytes :=
  [0x28, 0x28, 0x53, 0x45, 0x47, 0x3a, 0x20, 0x45, 0x6e, 0x64, 0x54, 0x65, 0x78, 0x74, 0x29, 0x29]

/-- `!end_stanza.compare(0, end_stanza.size(), buf, end_stanza.size())`. ISEGY.cpp:334-336 -/
def isEndText (record : Bytes) : Bool := record.take endText.length == endText

/-- The `while (1)` loops that read 3200 byte records up to the end stanza. Every iteration takes
3200 bytes or throws, so the number of whole records left in the file bounds the iterations: with
no fuel left the next read throws. ISEGY.cpp:330-338, 363-371, 395-403 -/
def readUntilEnd : (fuel : Nat) → File → Out (List Bytes × File)
  | 0, _ => throwExn .iosFailure
  | fuel + 1, f => do
    let (rec, f) ← f.read textHeaderSize
    if isEndText rec then pure ([rec], f)
    else do
      let (more, f) ← readUntilEnd fuel f
      pure (rec :: more, f)

/-- Number of iterations that certainly exhausts the file. -/
def File.records (f : File) : Nat := (f.data.length - f.pos) / textHeaderSize + 1

/-- The counted loops `for (int i = num; i; --i)`. ISEGY.cpp:340-344, 411-415 -/
def readRecords : (n : Nat) → File → Out (List Bytes × File)
  | 0, f => .ok ([], f)
  | n + 1, f => do
    let (rec, f) ← f.read textHeaderSize
    let (more, f) ← readRecords n f
    pure (rec :: more, f)

/-- Number of iterations of `for (int i = num; i; --i)`. A negative `num` counts down from zero
through the whole range of `int`; a file of less than 2^31 records is exhausted long before, which
throws, so the model runs over the whole file and once more. -/
def loopCount (num : Int) (f : File) : Nat := if num < 0 then f.records else num.toNat

/-- `read_ext_text_headers`. ISEGY.cpp:322-345 -/
def readExtText (num : Int) (f : File) : Out (List Bytes × File) :=
  if num = 0 then .ok ([], f)
  else if num = -1 then readUntilEnd f.records f
  else readRecords (loopCount num f) f

/-- One iteration of the walk over variable length traces: the position of the next trace.
`trc_samp_num` is a `uint32_t` (the 16 bit count is sign extended into it), its product with the
sample size is computed modulo 2^32; `add_tr_hdr_num` is a `uint16_t`. ISEGY.cpp:376-391 -/
def skipVarTrace (bo : ByteOrder) (maxAdd : Int) (bps : Nat) (f : File) : Out File := do
  let (buf, f) ← f.read trHeaderSize
  let n16 ← readAt buf 114 (readI16 bo)
  if maxAdd ≠ 0 then do
    let (buf, f) ← f.read trHeaderSize
    let n32 ← readAt buf 136 (readU32 bo)
    let k ← readAt buf 156 (readU16 bo)
    let k := if k ≠ 0 then k else toU 2 maxAdd
    let f ← f.seekCur (((k : Int) - 1) * trHeaderSize)
    f.seekCur ((n32 * bps % 2 ^ 32 : Nat) : Int)
  else f.seekCur ((toU 4 n16 * bps % 2 ^ 32 : Nat) : Int)

/-- ISEGY.cpp:375-392 -/
def skipVarTraces (bo : ByteOrder) (maxAdd : Int) (bps : Nat) : (n : Nat) → File → Out File
  | 0, f => .ok f
  | n + 1, f => do
    let f ← skipVarTrace bo maxAdd bps f
    skipVarTraces bo maxAdd bps n f

/-- `read_trailer_stanzas`: the stanzas and the position at which the traces end. The product
`bytes_per_sample * samp_per_tr * num_of_tr_in_file` is `int` times `int` (overflow undefined)
times `uint64_t` (modulo 2^64), converted to a signed offset; it does not count the trace headers.
With a positive or other negative count the position is `count * 3200` *after* the end of the
file. ISEGY.cpp:347-417 -/
def readTrailers (bo : ByteOrder) (bh : BinHeader) (spt : Int) (bps : Nat) (f : File) :
    Out (List Bytes × Nat) := do
  if bh.numOfTrailerStanza = -1 then
    if bh.numOfTrInFile = 0 then throwExn .noEndOfData
    else if bh.fixedTrLength ≠ 0 then do
      let p ← mulInt32 bps spt
      let f ← f.seekCur (toS 8 (toU 8 (toU 8 p * bh.numOfTrInFile)))
      let (recs, _) ← readUntilEnd f.records f
      pure (recs, f.pos)
    else do
      let f ← skipVarTraces bo bh.maxNumAddTrHeaders bps bh.numOfTrInFile.toNat f
      let (recs, _) ← readUntilEnd f.records f
      pure (recs, f.pos)
  else do
    let off ← mulInt32 bh.numOfTrailerStanza textHeaderSize
    let f ← f.seekEnd off
    let (recs, _) ← readRecords (loopCount bh.numOfTrailerStanza f) f
    pure (recs, f.pos)

/-- State of an open `ISEGY`. `bufLen` is the size of `samp_buf`; `curr` and `endData` are
`curr_pos` and `end_of_data`. ISEGY.cpp:31-64, CommonSEGY.hpp:196-206 -/
structure Reader where
  bh : BinHeader
  bo : ByteOrder
  map : HdrMap
  file : File
  curr : Nat
  endData : Nat
  spt : Int
  bps : Nat
  bufLen : Nat
  texts : List Bytes
  trailers : List Bytes
  deriving DecidableEq, Repr

/-- Number of samples per trace of a fixed length file. ISEGY.cpp:109-113 -/
def samplesPerTrace (bh : BinHeader) : Int :=
  if bh.extSampPerTr ≠ 0 then bh.extSampPerTr else (toU 2 bh.sampPerTr : Nat)

/-- Fixed length reading. ISEGY.cpp:119-120, 512-513 -/
def fixedLength (bh : BinHeader) : Bool := bh.fixedTrLength ≠ 0 || bh.revMajor = 0

/-- The binary header `common` is built with: the user's or a value-initialised one.
ISEGY.cpp:35, 44 -/
def initHeader : Option BinHeader → BinHeader
  | some b => b
  | none => {}

/-- Position of the first trace: the byte offset in the binary header (a `uint64_t` cast to
`long`) or right behind the extended text headers. ISEGY.cpp:102-108 -/
def seekFirst (bh : BinHeader) (f : File) : Out File :=
  if bh.byteOffOfFirstTr ≠ 0 then f.seek (toS 8 (toU 8 bh.byteOffOfFirstTr)) else .ok f

/-- Construction of an `ISEGY` and `initialization`. A user supplied binary header replaces the
value-initialised one and is not overwritten. ISEGY.cpp:33-50, 89-130 -/
def openReader (data : Bytes) (userBh : Option BinHeader) (m : HdrMap) : Out Reader := do
  checkMap (initHeader userBh) m
  let f : File := ⟨data, 0⟩
  let (text, f) ← f.read textHeaderSize
  let (bin, f) ← f.read binHeaderSize
  let (bo, bh) ← fillBinHeader (initHeader userBh) userBh.isSome bin
  let _ ← sampleReader bh.formatCode
  match bytesPerSample bh.formatCode with
  | none => isUb .outOfBounds
  | some bps => do
    let (exts, f) ← readExtText bh.extTextHeadersNum f
    let f ← seekFirst bh f
    let first := f.pos
    let spt := samplesPerTrace bh
    let (trailers, endData) ← readTrailers bo bh spt bps f
    let f ← f.seek first
    let size ← mulInt32 spt bps
    let buf ← resizeVec [] (toU 8 size)
    pure { bh, bo, map := m, file := f, curr := first, endData, spt, bps, bufLen := buf.length,
           texts := text :: exts, trailers }

/-- The loop of `read_trc_header`; `n` iterations are left. Blocks without a map are skipped.
ISEGY.cpp:453-509 -/
def readBlocks (bo : ByteOrder) (m : HdrMap) : (n i : Nat) → File → Header → Out (Header × File)
  | 0, _, f, acc => .ok (acc, f)
  | n + 1, i, f, acc =>
    match m[i]? with
    | some b => do
      let (buf, f) ← f.read trHeaderSize
      let acc ← readFields bo b.fields buf acc
      readBlocks bo m n (i + 1) f acc
    | none => do
      let f ← f.seekCur trHeaderSize
      readBlocks bo m n (i + 1) f acc

/-- `read_trc_header`: `max_num_add_tr_headers + 1` blocks (the sum overflows for the largest
`int`). ISEGY.cpp:450-511 -/
def readTrcHeader (r : Reader) : Out (Header × File) :=
  if r.bh.maxNumAddTrHeaders = 2 ^ 31 - 1 then isUb .signedOverflow
  else readBlocks r.bo r.map (r.bh.maxNumAddTrHeaders + 1).toNat 0 r.file []

/-- `Value v = hdr["SAMP_NUM"]; get<int64_t>(v)`. ISEGY.cpp:517-518, 537-538 -/
def sampNum (hdr : Header) : Out (Int × Header) :=
  match hdr.at "SAMP_NUM" with
  | (.int n, hdr) => .ok (n, hdr)
  | (.dbl _, _) => throwExn .badVariantAccess

/-- `ISEGY::read_header`. ISEGY.cpp:509-522 -/
def readHeader (r : Reader) : Out (Header × Reader) := do
  let (hdr, f) ← readTrcHeader r
  if fixedLength r.bh then do
    let f ← f.seekCur (← mulInt32 r.spt r.bps)
    pure (hdr, { r with file := f, curr := f.pos })
  else do
    let (n, hdr) ← sampNum hdr
    let f ← f.seekCur (toS 8 (toU 8 (n * r.bps)))
    pure (hdr, { r with file := f, curr := f.pos })

/-- `read_sample` in a loop over the buffer. ISEGY.cpp:530-531 -/
def decodeSamples (rd : Rd Dbl) : (n : Nat) → Rd (List Dbl)
  | 0 => pure []
  | n + 1 => do
    let x ← rd
    let xs ← decodeSamples rd n
    pure (x :: xs)

/-- `read_trc_smpls_fix`: reads as many bytes as the buffer has. ISEGY.cpp:524-533 -/
def readSamplesFix (bh : BinHeader) (bo : ByteOrder) (bps bufLen : Nat) (f : File) :
    Out (List Dbl × File) := do
  let (buf, f) ← f.read bufLen
  let rd ← sampleReader bh.formatCode
  let (xs, _) ← decodeSamples (rd bo) (bufLen / bps) buf
  pure (xs, f)

/-- `ISEGY::read_trace`. For variable length the buffer is resized to the number of samples in the
trace header, computed as `size_t`. ISEGY.cpp:535-549 -/
def readTrace (r : Reader) : Out (Trace × Reader) := do
  let (hdr, f) ← readTrcHeader r
  if fixedLength r.bh then do
    let (xs, f) ← readSamplesFix r.bh r.bo r.bps r.bufLen f
    pure (⟨hdr, xs⟩, { r with file := f, curr := f.pos })
  else do
    let (n, hdr) ← sampNum hdr
    let size := toU 8 (n * r.bps)
    let bufLen ← if r.bufLen ≠ size then (do
        let b ← resizeVec (List.replicate r.bufLen 0) size
        pure b.length)
      else .ok r.bufLen
    let (xs, f) ← readSamplesFix r.bh r.bo r.bps bufLen f
    pure (⟨hdr, xs⟩, { r with file := f, curr := f.pos, bufLen })

/-- `ISEGY::has_trace`. ISEGY.cpp:551-557 -/
def hasTrace (r : Reader) : Bool := r.curr ≠ r.endData

/-- `ISEGY::read_binary_header`, a static function: opens the file with the default map.
ISEGY.cpp:587-591 -/
def readBinaryHeader (data : Bytes) : Out BinHeader := do
  let r ← openReader data none defaultMap
  pure r.bh

end Sedaman
