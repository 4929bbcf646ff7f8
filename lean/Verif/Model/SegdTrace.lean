import Verif.Model.SegdGen
import Verif.Model.TraceHdr

/-!
# SEG-D trace headers

`OSEGD::Impl::write_trace_header` (OSEGD.cpp:884-918) and `ISEGD::Impl::read_trace_header`
(ISEGD.cpp:1238-1262). The block has 20 bytes.
-/

namespace Sedaman

/-- An expression that may fail, evaluated between two stores. -/
def wrLift {α : Type} (x : Out α) : Wr α := fun c => do
  let a ← x
  pure (a, c)

/-- `get<double>(*tmp) * pow(2, 8)` or 0 when the header is not set: the operands of `?:` are
converted to `double`. OSEGD.cpp:906, 910, 914 -/
def scaledOf (hdr : Header) (name : String) : Out Dbl :=
  match hdr.get name with
  | none => .ok (dblOfInt 0)
  | some (.dbl d) => .ok (dmul d (pow2 8))
  | some (.int _) => throwExn .badVariantAccess

/-- `get<int64_t>(*opt)` of an optional that is assumed to be set; dereferencing an empty optional
is undefined behaviour. OSEGD.cpp:899, 915 -/
def intOfSet (hdr : Header) (name : String) : Out Int :=
  match hdr.get name with
  | none => isUb .emptyOptional
  | some (.int v) => .ok v
  | some (.dbl _) => throwExn .badVariantAccess

/-- A number of a 64-bit type in `num` digits, or escape bytes when it exceeds `limit`.
OSEGD.cpp:889-892, 896-899, 901-904 -/
def wrNum (val limit : Int) (num : Nat) (esc : Bytes) : Wr Unit :=
  if val > limit then wrPut esc else wrBcd 8 val false num

/-- `write_u24(&buf, double)`: conversion to `uint32_t`. OSEGD.cpp:906, 914 -/
def wrDblU24 (d : Dbl) : Wr Unit := do
  let v ← wrLift (dblToU 4 d)
  wrPut (writeU24 .be v)

/-- The statements of `write_trace_header`. OSEGD.cpp:886-917 -/
def wrTraceHdr (hdr : Header) : Wr Unit := do
  let ffid ← wrLift (intOf hdr "FFID")
  wrNum ffid 9999 4 (writeU16 .be 0xffff)
  let scan ← wrLift (intOf hdr "SCAN_TYPE_NUM")
  wrBcd 8 scan false 2
  let chSet ← wrLift (intOfSet hdr "CH_SET_NUM")
  wrNum chSet 99 2 [0xff]
  let chan ← wrLift (intOf hdr "CHAN")
  wrNum chan 9999 4 (writeU16 .be 0xffff)
  let timing ← wrLift (scaledOf hdr "FIRST_TIMING_WORD")
  wrDblU24 timing
  let ext ← wrLift (intOf hdr "TR_HDR_EXT")
  wrPut [chr ext]
  let skew ← wrLift (scaledOf hdr "SAMPLE_SKEW")
  wrDblChar skew
  let edit ← wrLift (intOf hdr "TRACE_EDIT")
  wrPut [chr edit]
  let brk ← wrLift (scaledOf hdr "TIME_BREAK_WIN")
  wrDblU24 brk
  wrPut (writeU16 .be (if chSet < 100 then 0 else chSet))
  wrPut (writeU24 .be ffid)

/-- The 20 bytes `write_trace_header` writes. OSEGD.cpp:884-918 -/
def writeTraceHdrD (hdr : Header) : Out Bytes := wrBlock 20 (wrTraceHdr hdr)

/-- `from_bcd<uint16_t>` and `from_bcd<uint32_t>` stored as a header value. -/
def rdBcdV (num : Nat) : Rd Value := do
  let v ← fromBcd false num
  pure (.int (v : Int))

/-- `read_u24(&buf) / pow(2, 8)`. ISEGD.cpp:1249, 1254 -/
def rdFix24 : Rd Value := do
  let v ← readU24 .be
  pure (.dbl (ddivPow2 (dblOfInt v) 8))

/-- `read_u8(&buf) / pow(2, 8)`. ISEGD.cpp:1252 -/
def rdFix8 : Rd Value := do
  let v ← readU8
  pure (.dbl (ddivPow2 (dblOfInt v) 8))

/-- A sequence of assignments `hdr[name] = value`. ISEGD.cpp:1243-1254 -/
def setAll (h : Header) : List (String × Value) → Header
  | [] => h
  | (n, v) :: t => setAll (Header.set h n v) t

/-- `hdr[name] = n` unless `n` is zero. ISEGD.cpp:1255-1260 -/
def setNonzero (h : Header) (name : String) (n : Nat) : Header :=
  if n ≠ 0 then Header.set h name (.int (n : Int)) else h

/-- `read_trace_header` on the 20 bytes of the buffer. ISEGD.cpp:1238-1262 -/
def readTraceHdrD : Rd Header := do
  let ffid ← rdBcdV 4
  let scan ← rdBcdV 2
  let chSet ← rdBcdV 2
  let chan ← rdBcdV 4
  let timing ← rdFix24
  let ext ← readU8
  let skew ← rdFix8
  let edit ← readU8
  let brk ← rdFix24
  let extChSet ← readU16 .be
  let extFile ← readU24 .be
  let hdr := setAll [] [("FFID", ffid), ("SCAN_TYPE_NUM", scan), ("CH_SET_NUM", chSet),
    ("CHAN", chan), ("FIRST_TIMING_WORD", timing), ("TR_HDR_EXT", .int (ext : Int)),
    ("SAMPLE_SKEW", skew), ("TRACE_EDIT", .int (edit : Int)), ("TIME_BREAK_WIN", brk)]
  pure (setNonzero (setNonzero hdr "CH_SET_NUM" extChSet) "FFID" extFile)

end Sedaman
