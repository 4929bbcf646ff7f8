import Verif.Model.HdrMap

/-!
# Trace header blocks

Model of src/OSEGY.cpp:289-421 and src/ISEGY.cpp:450-511: the 240 byte block buffer and the
fields stored in it.
-/

namespace Sedaman

/-- Storing bytes at `buffer + off`. Touching memory outside the buffer is undefined behaviour. -/
def writeAt (buf : Bytes) (off : Nat) (bs : Bytes) : Out Bytes :=
  if off + bs.length ≤ buf.length then .ok (buf.take off ++ bs ++ buf.drop (off + bs.length))
  else isUb .outOfBounds

/-- Reading a value at `buffer + off`. -/
def readAt {α : Type} (buf : Bytes) (off : Nat) (r : Rd α) : Out α :=
  if off ≤ buf.length then do
    let (a, _) ← r (buf.drop off)
    pure a
  else isUb .outOfBounds

/-- `memset(hdr_buf, 0, 240)`. OSEGY.cpp:290, 358 -/
def memsetHdr (buf : Bytes) : Out Bytes := writeAt buf 0 (List.replicate 240 0)

/-- `tmp = hdr.get(name); tmp ? get<int64_t>(*tmp) : 0`: a double makes `std::get` throw
`bad_variant_access`. OSEGY.cpp:296-297 and the other cases -/
def intOf (hdr : Header) (name : String) : Out Int :=
  match hdr.get name with
  | none => .ok 0
  | some (.int v) => .ok v
  | some (.dbl _) => throwExn .badVariantAccess

/-- Conversion of an integer to `float`, in one rounding. -/
def sglOfInt (n : Int) : Sgl := toSgl (.fin (decide (n < 0)) n.natAbs 0)

/-- The writer called for a field of each type. The parameter of `write_ibm_float` and
`write_IEEE_double` is a `double`, that of `write_IEEE_float` a `float` (OSEGY.cpp:56-58): the integer
is converted to that type. OSEGY.cpp:294-347 -/
def fieldBytes (est : LogEst) (bo : ByteOrder) : VType → Int → Out Bytes
  | .i8, v => .ok (writeI8 v)
  | .u8, v => .ok (writeU8 v)
  | .i16, v => .ok (writeI16 bo v)
  | .u16, v => .ok (writeU16 bo v)
  | .i24, v => .ok (writeI24 bo v)
  | .u24, v => .ok (writeU24 bo v)
  | .i32, v => .ok (writeI32 bo v)
  | .u32, v => .ok (writeU32 bo v)
  | .i64, v => .ok (writeI64 bo v)
  | .u64, v => .ok (writeU64 bo v)
  | .ibm, v => writeIbm est bo (dblOfInt v)
  | .ieeeSingle, v => .ok (writeU32 bo (sglOfInt v).toNat)
  | .ieeeDouble, v => .ok (writeIeeeDouble bo (dblOfInt v))

/-- The loop over the fields of one block. OSEGY.cpp:292-348, 361-418 -/
def writeFields (est : LogEst) (bo : ByteOrder) (hdr : Header) : List HField → Bytes → Out Bytes
  | [], buf => .ok buf
  | f :: t, buf => do
    let v ← intOf hdr f.name
    let bs ← fieldBytes est bo f.ty v
    let buf ← writeAt buf f.off bs
    writeFields est bo hdr t buf

/-- One header block: `old` is what the shared buffer `hdr_buf` holds from earlier calls.
OSEGY.cpp:289-350 -/
def writeBlock (est : LogEst) (bo : ByteOrder) (fields : List HField) (hdr : Header)
    (old : Bytes) : Out Bytes := do
  writeFields est bo hdr fields (← memsetHdr old)

/-- `write_trace_header`: the block `tr_hdr_map[0]`; an empty map is indexed out of bounds.
OSEGY.cpp:288-350 -/
def writeTraceHeader (est : LogEst) (bo : ByteOrder) (m : HdrMap) (hdr : Header)
    (old : Bytes) : Out Bytes := do
  let buf ← memsetHdr old
  match m with
  | [] => isUb .outOfBounds
  | b :: _ => writeFields est bo hdr b.fields buf

/-- `write_additional_trace_headers`: `i` runs from 1 while it is below the number in the binary
header; blocks without a map are zero. The result is the bytes appended to the file and the
buffer left behind. `n` is the number of iterations still to go. OSEGY.cpp:352-421 -/
def writeAddLoop (est : LogEst) (bo : ByteOrder) (m : HdrMap) (hdr : Header) :
    (n i : Nat) → Bytes → Out (Bytes × Bytes)
  | 0, _, buf => .ok ([], buf)
  | n + 1, i, buf => do
    let buf ← memsetHdr buf
    let buf ← match m[i]? with
      | some b => writeFields est bo hdr b.fields buf
      | none => .ok buf
    let (out, last) ← writeAddLoop est bo m hdr n (i + 1) buf
    pure (buf ++ out, last)

/-- OSEGY.cpp:352-421; the loop runs `max_num - 1` times for a positive number, else not at all. -/
def writeAdditional (est : LogEst) (bo : ByteOrder) (m : HdrMap) (maxNum : Int) (hdr : Header)
    (buf : Bytes) : Out (Bytes × Bytes) :=
  writeAddLoop est bo m hdr (maxNum - 1).toNat 1 buf

/-- The reader called for a field of each type; `uint64_t` is cast to `int64_t`.
ISEGY.cpp:459-500 -/
def readField (bo : ByteOrder) : VType → Rd Value
  | .i8 => do pure (.int (← readI8))
  | .u8 => do pure (.int (← readU8 : Nat))
  | .i16 => do pure (.int (← readI16 bo))
  | .u16 => do pure (.int (← readU16 bo : Nat))
  | .i24 => do pure (.int (← readI24 bo))
  | .u24 => do pure (.int (← readU24 bo : Nat))
  | .i32 => do pure (.int (← readI32 bo))
  | .u32 => do pure (.int (← readU32 bo : Nat))
  | .i64 => do pure (.int (← readI64 bo))
  | .u64 => do pure (.int (toS 8 (← readU64 bo)))
  | .ibm => do pure (.dbl (← readIbm bo))
  | .ieeeSingle => do pure (.dbl (← readIeeeFloat bo))
  | .ieeeDouble => do pure (.dbl (← readIeeeDouble bo))

/-- The loop over the fields of one block that was read from the file: `hdr[name] = value`.
ISEGY.cpp:456-502 -/
def readFields (bo : ByteOrder) : List HField → Bytes → Header → Out Header
  | [], _, acc => .ok acc
  | f :: t, buf, acc => do
    let v ← readAt buf f.off (readField bo f.ty)
    readFields bo t buf (acc.set f.name v)

end Sedaman
