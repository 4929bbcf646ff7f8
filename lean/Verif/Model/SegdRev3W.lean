import Verif.Model.SegdRev3

/-!
# SEG-D general header blocks and channel set headers, revision 3 (writing)

`OSEGD::Impl::write_general_header2_and_3` (OSEGD.cpp:280-307), `write_rev3_add_gen_hdrs`
(OSEGD.cpp:309-422), the writers of the blocks (OSEGD.cpp:424-816) and the revision 3 branch of
`write_ch_set_hdr` (OSEGD.cpp:851-882). They are offered to classes derived from `OSEGD`.
-/

namespace Sedaman

/-- The statements of `write_general_header2_and_3` up to the first `file.write`; the final
`*++buf` steps over one byte. OSEGD.cpp:282-296 -/
def wrGenHdr2R3 (h : GenHdr2) : Wr Unit := do
  wrPut (writeU24 .be h.expandedFileNum)
  wrPut (writeU16 .be h.extChSetsPerScanType)
  wrPut (writeU24 .be h.extendedHdrBlocks)
  wrPut (writeU16 .be h.extendedSkewBlocks)
  wrPut [chr h.segdRevMajor]
  wrPut [chr h.segdRevMinor]
  wrPut (writeU32 .be h.genTrailerNumOfBlocks)
  wrPut (writeU32 .be h.extRecordLen)
  wrPut (writeU16 .be h.recordSetNumber)
  wrPut (writeU16 .be h.extNumAddBlksInGenHdr)
  wrPut (writeU24 .be h.dominantSamplingInt)
  wrPut (writeU24 .be h.externalHdrBlocks)
  wrSkip 1
  wrPoke (chr h.genHdrBlockNum)

/-- The statements of `write_general_header2_and_3` behind the `file.write`. OSEGD.cpp:298-306 -/
def wrGenHdr3 (h : GenHdr3) : Wr Unit := do
  wrPut (writeU64 .be h.timeZero)
  wrPut (writeU64 .be h.recordSize)
  wrPut (writeU64 .be h.dataSize)
  wrPut (writeU32 .be h.headerSize)
  wrPut [chr h.extdRecMode]
  wrPut [chr h.relTimeMode]
  wrSkip 1
  wrPoke (chr h.genHdrBlockNum)

/-- What `write_general_header2_and_3` appends to the file: general header 3 is put together in the
buffer, but there is no second `file.write`. OSEGD.cpp:280-307 -/
def writeGenHdr23 (h2 : GenHdr2) (h3 : GenHdr3) : Out Bytes := do
  let b2 ← wrBlock 32 (wrGenHdr2R3 h2)
  let _ ← wrBlock 32 (wrGenHdr3 h3)
  pure b2

/-- The value of a member of a block object. -/
def memberOf : List (String × BlkVal) → String → Option BlkVal
  | [], _ => none
  | (k, v) :: t, n => if n = k then some v else memberOf t n

/-- `*buf++ = v` and the `write_…(&buf, v)` for a number. A member of the wrong kind cannot occur:
the classes fix the members; it counts as undefined. -/
def wrNumber (f : Int → Wr Unit) : Option BlkVal → Wr Unit
  | some (.num v) => f v
  | _ => fun _ => isUb .nullDeref

/-- One statement of a block writer: the writing counterpart of `rdItem`. -/
def wrItem (ms : List (String × BlkVal)) : BlkItem → Wr Unit
  | .u8 n => wrNumber (fun v => wrPut [chr v]) (memberOf ms n)
  | .u16 n => wrNumber (fun v => wrPut (writeU16 .be v)) (memberOf ms n)
  | .s16 n => wrNumber (fun v => wrPut (writeI16 .be v)) (memberOf ms n)
  | .u24 n => wrNumber (fun v => wrPut (writeU24 .be v)) (memberOf ms n)
  | .u32 n => wrNumber (fun v => wrPut (writeU32 .be v)) (memberOf ms n)
  | .u64 n => wrNumber (fun v => wrPut (writeU64 .be v)) (memberOf ms n)
  | .bcd n => wrNumber (fun v => wrBcd 1 v false 2) (memberOf ms n)
  | .fix n =>
    match memberOf ms n with
    | some (.dbl d) => wrSource d
    | _ => fun _ => isUb .nullDeref
  | .text n k =>
    match memberOf ms n with
    | some (.text b) => if b.length = k then wrPut b else fun _ => isUb .nullDeref
    | _ => fun _ => isUb .nullDeref
  | .skip k => wrSkip k

/-- The statements of a block writer in order. -/
def wrItems (ms : List (String × BlkVal)) : List BlkItem → Wr Unit
  | [] => pure ()
  | i :: t => do
    wrItem ms i
    wrItems ms t

/-- Statements common to the writers of the source blocks: the file number takes four bytes.
OSEGD.cpp:480-489 and repetitions -/
def souHeadW : List BlkItem :=
  [.u32 "expanded_file_number", .fix "sou_line_num", .fix "sou_point_num", .u8 "sou_point_index"]

/-- The statements of the writer for each block type, up to storing the type; `none` for the types
without a `case`. OSEGD.cpp:309-422, 424-816 -/
def blkWItems : Nat → Option (List BlkItem)
  | 0x10 => some [.text "abbr_vessel_crew_name" 3, .text "vessel_crew_name" 28]
  | 0x11 => some [.text "survey_area_name" 31]
  | 0x12 => some [.text "client_name" 31]
  | 0x13 => some [.text "abbr_job_id" 5, .text "job_id" 26]
  | 0x14 => some [.text "line_abbr" 7, .text "line_id" 24]
  | 0x15 => some (souHeadW ++ [.u8 "phase_control", .u8 "type_vibrator", .s16 "phase_angle"]
      ++ souTail)
  | 0x16 => some (souHeadW ++ [.u16 "depth", .u8 "charge_length", .u8 "soil_type"] ++ souTail)
  | 0x17 => some (souHeadW ++ [.u16 "depth", .u16 "air_pressure"] ++ souTail)
  | 0x18 => some (souHeadW ++ [.u16 "depth", .u16 "air_pressure"] ++ souTail)
  | 0x19 => some (souHeadW ++ [.u8 "source_type", .u24 "moment"] ++ souTail)
  | 0x1f => some (souHeadW ++ [.skip 4] ++ souTail)
  | 0x20 => some [.u64 "time", .u8 "source_status", .u8 "source_id", .u8 "source_moving",
      .text "error_description" 20]
  | 0x21 => some ([.u8 "source_id"] ++ auxChan "1" ++ auxChan "2" ++ auxChan "3" ++ auxChan "4"
      ++ auxChan "5")
  | 0x41 => some [.u64 "instrument_test_time", .u32 "sensor_sensitivity", .u8 "instr_test_result",
      .text "serial_number" 28]
  | 0x43 => some [.u32 "freq1", .u32 "amp1", .u32 "phase1", .u32 "freq2", .u32 "amp2",
      .u32 "phase2", .u8 "calib_applied", .skip 6]
  | 0x44 => some [.u64 "time_of_depl", .u64 "time_of_retr", .u32 "timer_offset_depl",
      .u32 "time_offset_retr", .u8 "timedrift_corr", .u8 "corr_method", .skip 5]
  | 0x45 => some [.u24 "equip_dim_x", .u24 "equip_dim_y", .u24 "equip_dim_z", .u8 "pos_term",
      .u24 "equip_offset_x", .u24 "equip_offset_y", .u24 "equip_offset_z", .skip 12]
  | 0x50 => some [.u64 "time_of_position", .u64 "time_of_measurement", .u32 "vert_error",
      .u32 "hor_error_semi_major", .u32 "hor_error_semi_minor", .u16 "hor_error_orientation",
      .u8 "position_type"]
  | 0x51 => some [.u64 "crs_a_coord1", .u64 "crs_a_coord2", .u64 "crs_a_coord3",
      .u16 "crs_a_crsref", .u8 "pos1_valid", .u8 "pos1_quality", .skip 3]
  | 0x52 => some [.u64 "crs_b_coord1", .u64 "crs_b_coord2", .u64 "crs_b_coord3",
      .u16 "crs_b_crsref", .u8 "pos2_valid", .u8 "pos2_quality", .skip 3]
  | 0x55 => some [.text "crs" 31]
  | 0x56 => some [.u32 "offset_east", .u32 "offset_north", .u32 "offset_vert",
      .text "description" 19]
  | 0x60 => some [.u32 "rot_x", .u32 "rot_y", .u32 "rot_z", .u32 "ref_orientation",
      .u64 "time_stamp", .u8 "ori_type", .u8 "ref_orient_valid", .u8 "rot_applied",
      .u8 "rot_north_applied", .skip 3]
  | 0x61 => some [.u64 "timestamp", .u32 "measurement_value", .u32 "maximum_value",
      .u32 "minimum_value", .u16 "quantity_class", .u16 "unit_of_measure",
      .u16 "measurement_description", .skip 5]
  | _ => none

/-- The last byte a block writer stores: the type, but `sizeof` of the type in the writers of the
five name blocks. OSEGD.cpp:433, 442, 451, 463, 474 and the last line of the other writers -/
def blkWType (code type : Nat) : Byte :=
  if 0x10 ≤ code ∧ code ≤ 0x14 then 1 else chr type

/-- One iteration of `write_rev3_add_gen_hdrs`: `key` selects the writer; the object is cast to the
class that belongs to the key, and the result is dereferenced. Without a `case` the zeroed buffer
is written. OSEGD.cpp:312-421 -/
def writeRev3Blk (key : Nat) (b : AddBlk) : Out Bytes :=
  match blkWItems key with
  | none => .ok (List.replicate 32 0)
  | some items =>
    match b with
    | .n _ => isUb .nullDeref
    | .r3 code type ms =>
      if code = key then
        wrBlock 32 (do wrItems ms items; wrPoke (blkWType code type))
      else isUb .nullDeref

/-- `write_rev3_add_gen_hdrs`. OSEGD.cpp:309-422 -/
def writeRev3Blks : BlkMap → Out Bytes
  | [] => .ok []
  | (k, b) :: t => do
    let x ← writeRev3Blk k b
    let y ← writeRev3Blks t
    pure (x ++ y)

/-- `*hdr.number_of_samples()` -/
def samplesOf (h : ChSet) : Wr Nat := fun c =>
  match h.numberOfSamples with
  | none => isUb .emptyOptional
  | some n => .ok (n, c)

/-- Extended header flag and channel gain. OSEGD.cpp:863-864 -/
def wrFlagsR3 (h : ChSet) : Wr Unit := do
  wrPoke (chr (h.extHdrFlag * 16 : Nat))
  wrOr (chr h.channelGain)

/-- The statements of the revision 3 branch of `write_ch_set_hdr`. The descale multiplier is
converted to `uint32_t`, which is undefined if it is negative or too large. OSEGD.cpp:852-880 -/
def wrChSetR3 (h : ChSetR3) : Wr Unit := do
  wrBcd 4 h.base.scanTypeNumber false 2
  wrPut (writeU16 .be h.base.startTime)
  wrPut [chr h.base.channelType]
  wrPut (writeU32 .be h.base.startTime)
  wrPut (writeU32 .be h.base.endTime)
  let n ← samplesOf h.base
  wrPut (writeU32 .be n)
  let d ← (fun c => do pure ((← dblToU 4 h.base.descaleMultiplier), c) : Wr Int)
  wrPut (writeU32 .be d)
  wrPut (writeU24 .be h.base.numberOfChannels)
  wrPut (writeU24 .be h.sampInt)
  wrPut [chr h.base.arrayForming]
  wrPut [chr h.base.trcHdrExt]
  wrFlagsR3 h.base
  wrPut [chr h.base.vertStack]
  wrPut [chr h.base.streamerNo]
  wrSkip 1
  wrPut (writeU32 .be h.base.aliasFilterFreq)
  wrPut (writeU32 .be h.base.aliasFilterSlope)
  wrPut (writeU32 .be h.base.lowCutFilterFreq)
  wrPut (writeU32 .be h.base.lowCutFilterSlope)
  wrPut (writeU32 .be h.base.firstNotchFilter)
  wrPut (writeU32 .be h.base.secondNotchFilter)
  wrPut (writeU32 .be h.base.thirdNotchFilter)
  wrPut [chr h.filterPhase]
  wrPut [chr h.physicalUnit]
  wrSkip 2
  wrPut (writeU32 .be h.filterDelayOf)
  wrPut h.description

/-- The 96 bytes `write_ch_set_hdr` writes from revision 3 on, the buffer having been given that
size. OSEGD.cpp:818-882 -/
def writeChSetR3 (h : ChSetR3) : Out Bytes := wrBlock 96 (wrChSetR3 h)

end Sedaman
