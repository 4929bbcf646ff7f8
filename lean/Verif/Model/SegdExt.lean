import Verif.Model.SegdTrace

/-!
# SEG-D trace header extensions

`OSEGD::Impl::write_ext_trace_headers` (OSEGD.cpp:920-1057) and
`ISEGD::Impl::read_trace_header_ext` (ISEGD.cpp:1264-1352).
-/

namespace Sedaman

/-- `common.trace_header_extension`: one `map<uint32_t, pair<string, ValueType>>` for each
extension block. CommonSEGD.hpp:1562-1564 -/
abbrev ExtMap := List (List HField)

/-- The writer called for a field of each type; `get` of the other alternative throws
`bad_variant_access`. OSEGD.cpp:934-974 -/
def extFieldBytes (est : LogEst) : VType → Value → Out Bytes
  | .i8, .int v => .ok (writeI8 v)
  | .u8, .int v => .ok (writeU8 v)
  | .i16, .int v => .ok (writeI16 .be v)
  | .u16, .int v => .ok (writeU16 .be v)
  | .i24, .int v => .ok (writeI24 .be v)
  | .u24, .int v => .ok (writeU24 .be v)
  | .i32, .int v => .ok (writeI32 .be v)
  | .u32, .int v => .ok (writeU32 .be v)
  | .i64, .int v => .ok (writeI64 .be v)
  | .u64, .int v => .ok (writeU64 .be v)
  | .ibm, .dbl d => writeIbm est .be d
  | .ieeeSingle, .dbl d => .ok (writeIeeeFloat .be d)
  | .ieeeDouble, .dbl d => .ok (writeIeeeDouble .be d)
  | _, _ => throwExn .badVariantAccess

/-- The loop over the fields of one block: a name the trace header does not contain throws.
OSEGD.cpp:928-975 -/
def writeExtFields (est : LogEst) (hdr : Header) : List HField → Bytes → Out Bytes
  | [], buf => .ok buf
  | f :: t, buf =>
    match hdr.get f.name with
    | none => throwExn .missingExtKey
    | some v => do
      let bs ← extFieldBytes est f.ty v
      let buf ← writeAt buf f.off bs
      writeExtFields est hdr t buf

/-- Receiver line or point number: as `double` and as `int64_t`. OSEGD.cpp:978-988, 990-1000 -/
def lineOf (hdr : Header) (name : String) : Out (Dbl × Int) :=
  match hdr.get name with
  | none => .ok (dblOfInt 0, 0)
  | some (.int v) => .ok (dblOfInt v, v)
  | some (.dbl d) => do pure (d, ← dblToS 8 d)

/-- Integer part in three bytes, fraction in two. OSEGD.cpp:1025-1026, 1036-1037 -/
def wrLinePart (p : Dbl × Int) : Wr Unit := do
  wrPut (writeU24 .be p.2)
  let f ← wrLift (dblToU 2 (dmul (dsub p.1 (dblOfInt p.2)) (pow2 16)))
  wrPut (writeU16 .be f)

/-- A one byte field: `*buf++ = tmp ? get<int64_t>(*tmp) : 0`. -/
def wrByteOf (hdr : Header) (name : String) : Wr Unit := do
  let v ← wrLift (intOf hdr name)
  wrPut [chr v]

/-- Bytes 8-10 of the standard first extension. OSEGD.cpp:1002-1012 -/
def wrExtIdx (rev : Int) (hdr : Header) : Wr Unit :=
  if rev > 1 then do
    let v ← wrLift (intOf hdr "SAMP_NUM")
    wrPut (writeU24 .be v)
  else do
    wrByteOf hdr "RESHOOT_IDX"
    wrByteOf hdr "GROUP_IDX"
    wrByteOf hdr "DEPTH_IDX"

/-- Bytes 11-21, from revision 2. OSEGD.cpp:1013-1040 -/
def wrExtLines (rev : Int) (hdr : Header) (line point : Dbl × Int) : Wr Unit :=
  if rev > 1 then do
    wrLinePart line
    wrLinePart point
    wrByteOf hdr "SENSOR_TYPE"
  else pure ()

/-- The extended trace number is stored only if it exceeds 9999; otherwise the pointer does not
move. OSEGD.cpp:1042-1044 -/
def wrTraceNumber (v : Int) : Wr Unit := if v > 9999 then wrPut (writeU24 .be v) else pure ()

/-- The rest, from revision 3. OSEGD.cpp:1041-1052 -/
def wrExtRev3 (rev : Int) (hdr : Header) : Wr Unit :=
  if rev > 2 then do
    let n ← wrLift (intOf hdr "TRACE_NUMBER")
    wrTraceNumber n
    let s ← wrLift (intOf hdr "SAMP_NUM")
    wrPut (writeU32 .be s)
    wrByteOf hdr "SENSOR_MOVING"
    wrSkip 1
    wrByteOf hdr "PHYSICAL_UNIT"
  else pure ()

/-- The standard first extension, written when there is no map. The second evaluation of the
line and point numbers (OSEGD.cpp:1014-1024, 1027-1035) repeats the first. OSEGD.cpp:976-1053 -/
def wrExtStd (rev : Int) (hdr : Header) : Wr Unit := do
  let line ← wrLift (lineOf hdr "R_LINE")
  wrDblU24 line.1
  let point ← wrLift (lineOf hdr "R_POINT")
  wrDblU24 point.1
  wrByteOf hdr "R_POINT_IDX"
  wrExtIdx rev hdr
  wrExtLines rev hdr line point
  wrExtRev3 rev hdr

/-- One extension block. It is put together in `trc_hdr_buf`, which the language gives 20 bytes,
although 32 are cleared and written: `room` is the number of bytes that may be used at that
address. Bytes behind the first 32 never reach the file. OSEGD.cpp:924-1055 -/
def writeExtBlock (est : LogEst) (room : Nat) (rev : Int) (m : ExtMap) (hdr : Header) (i : Nat) :
    Out Bytes :=
  if 32 ≤ room then
    if m.isEmpty then
      if i = 0 then wrBlock 32 (wrExtStd rev hdr) else .ok (List.replicate 32 0)
    else match m[i]? with
      | none => isUb .outOfBounds
      | some fs => do
        let buf ← writeExtFields est hdr fs (List.replicate room 0)
        pure (buf.take 32)
  else isUb .outOfBounds

/-- The loop over `n` blocks from number `i`. OSEGD.cpp:924-1056 -/
def writeExtLoop (est : LogEst) (room : Nat) (rev : Int) (m : ExtMap) (hdr : Header) :
    (n i : Nat) → Out Bytes
  | 0, _ => .ok []
  | n + 1, i => do
    let blk ← writeExtBlock est room rev m hdr i
    let out ← writeExtLoop est room rev m hdr n (i + 1)
    pure (blk ++ out)

/-- `write_ext_trace_headers`: the number of blocks is reduced to `uint8_t`. OSEGD.cpp:920-1057 -/
def writeExt (est : LogEst) (room : Nat) (rev : Int) (m : ExtMap) (hdr : Header) : Out Bytes := do
  let n ← intOf hdr "TR_HDR_EXT"
  writeExtLoop est room rev m hdr (toU 1 n) 0

/-! ## Reading -/

/-- `fill_buf_from_file`: the stream has exceptions enabled, a short read throws.
ISEGD.cpp:1378-1382 -/
def rdFile (n : Nat) : Rd Bytes := fun s =>
  if n ≤ s.length then .ok (s.take n, s.drop n) else throwExn .iosFailure

/-- The loop over the fields of one block. Unsigned 64-bit fields are read through `buf`, which
starts at the beginning of the block and moves on by 8 for each of them (`p`), not from the place
of the field. ISEGD.cpp:1272-1316 -/
def readExtFields (buf : Bytes) : List HField → Nat → Header → Out Header
  | [], _, acc => .ok acc
  | f :: t, p, acc =>
    if f.ty = .u64 then do
      let v ← readAt buf p (readField .be .u64)
      readExtFields buf t (p + 8) (acc.set f.name v)
    else do
      let v ← readAt buf f.off (readField .be f.ty)
      readExtFields buf t p (acc.set f.name v)

/-- Bytes 8-10. ISEGD.cpp:1323-1329 -/
def rdExtIdx (rev : Int) (h : Header) : Rd Header :=
  if rev < 3 then do
    let v ← readU24 .be
    pure (Header.set h "SAMP_NUM" (.int (v : Int)))
  else do
    let a ← readU8
    let b ← readU8
    let c ← readU8
    pure (setAll h [("RESHOOT_IDX", .int (a : Int)), ("GROUP_IDX", .int (b : Int)),
      ("DEPTH_IDX", .int (c : Int))])

/-- `read_u24(&buf)` plus `read_u16(&buf) / pow(2, 16)`. ISEGD.cpp:1331-1332, 1335-1336 -/
def rdLinePart : Rd Dbl := do
  let i ← readU24 .be
  let f ← readU16 .be
  pure (dadd (dblOfInt i) (ddivPow2 (dblOfInt f) 16))

/-- `d != 0.0` -/
def dblNonzero (d : Dbl) : Bool :=
  match d.val with
  | .fin _ m _ => m ≠ 0
  | _ => true

/-- `if (d != 0.0) hdr[name] = d`. ISEGD.cpp:1333-1334, 1337-1338 -/
def setDblNonzero (h : Header) (name : String) (d : Dbl) : Header :=
  if dblNonzero d then Header.set h name (.dbl d) else h

/-- Bytes 11-21, from revision 2. ISEGD.cpp:1330-1340 -/
def rdExtLines (rev : Int) (h : Header) : Rd Header :=
  if rev > 1 then do
    let line ← rdLinePart
    let point ← rdLinePart
    let t ← readU8
    pure (Header.set (setDblNonzero (setDblNonzero h "R_LINE" line) "R_POINT" point)
      "SENSOR_TYPE" (.int (t : Int)))
  else pure h

/-- `if (get<int64_t>(hdr["TRACE_NUMBER"]) == 16665) hdr["TRACE_NUMBER"] = n`: the subscript
inserts a zero when the key is missing. ISEGD.cpp:1343-1344 -/
def rdTraceNumber (h : Header) (n : Nat) : Rd Header := fun s =>
  match Header.at h "TRACE_NUMBER" with
  | (.int v, h) => .ok (if v = 16665 then Header.set h "TRACE_NUMBER" (.int (n : Int)) else h, s)
  | (.dbl _, _) => throwExn .badVariantAccess

/-- The rest, from revision 3. ISEGD.cpp:1341-1349 -/
def rdExtRev3 (rev : Int) (h : Header) : Rd Header :=
  if rev > 2 then do
    let n ← readU24 .be
    let h ← rdTraceNumber h n
    let s ← readU32 .be
    let mv ← readU8
    rdSkip 1
    let u ← readU8
    pure (setAll h [("SAMP_NUM", .int (s : Int)), ("SENSOR_MOVING", .int (mv : Int)),
      ("PHYSICAL_UNIT", .int (u : Int))])
  else pure h

/-- The standard first extension. ISEGD.cpp:1317-1349 -/
def rdExtStd (rev : Int) (h : Header) : Rd Header := do
  let line ← readU24 .be
  let point ← readU24 .be
  let idx ← readU8
  let h := setAll h [("R_LINE", .int (line : Int)), ("R_POINT", .int (point : Int)),
    ("R_POINT_IDX", .int (idx : Int))]
  let h ← rdExtIdx rev h
  let h ← rdExtLines rev h
  rdExtRev3 rev h

/-- One extension block that was read into the buffer. ISEGD.cpp:1270-1350 -/
def readExtBlock (rev : Int) (m : ExtMap) (buf : Bytes) (h : Header) (i : Nat) : Out Header :=
  if m.isEmpty then
    if i = 0 then do
      let (h, _) ← rdExtStd rev h buf
      pure h
    else .ok h
  else match m[i]? with
    | none => isUb .outOfBounds
    | some fs => readExtFields buf fs 0 h

/-- The loop over `n` blocks from number `i`. ISEGD.cpp:1268-1351 -/
def readExtLoop (rev : Int) (m : ExtMap) : (n i : Nat) → Header → Rd Header
  | 0, _, h => pure h
  | n + 1, i, h => fun s => do
    let (buf, s) ← rdFile 32 s
    let h ← readExtBlock rev m buf h i
    readExtLoop rev m n (i + 1) h s

/-- `read_trace_header_ext`; the header always contains the number of blocks, a byte.
ISEGD.cpp:1264-1352 -/
def readExt (rev : Int) (m : ExtMap) (h : Header) : Rd Header := fun s => do
  let n ← intOf h "TR_HDR_EXT"
  readExtLoop rev m n.toNat 0 h s

end Sedaman
