import Verif.Model.SegdChSet

/-!
# SEG-D general header blocks and channel set headers, revision 3 (reading)

`ISEGD::Impl::read_gen_hdr2_and_3` (ISEGD.cpp:380-404), `read_rev3_add_gen_hdr_blks`
(ISEGD.cpp:406-506), the readers of the blocks (ISEGD.cpp:508-915) and the revision 3 branch of
`read_ch_set_hdr` (ISEGD.cpp:1114-1143).
-/

namespace Sedaman

/-- `CommonSEGD::GeneralHeader3`; all members are unsigned. CommonSEGD.hpp:262-270 -/
structure GenHdr3 where
  timeZero : Nat
  recordSize : Nat
  dataSize : Nat
  headerSize : Nat
  extdRecMode : Nat
  relTimeMode : Nat
  genHdrBlockNum : Nat
  deriving DecidableEq, Repr

/-- `read_gen_hdr2_and_3`, the part that reads the second block. Members not present in the block
keep their values. ISEGD.cpp:382-393 -/
def readGenHdr2R3 (g : GenHdr2) : Rd GenHdr2 := do
  let expandedFileNum ← readU24 .be
  let extChSetsPerScanType ← readU16 .be
  let extendedHdrBlocks ← readU24 .be
  let extendedSkewBlocks ← readU16 .be
  rdSkip 2
  let genTrailerNumOfBlocks ← readU32 .be
  let recordSetNumber ← readU16 .be
  let extNumAddBlksInGenHdr ← readU16 .be
  let dominantSamplingInt ← readU16 .be
  let externalHdrBlocks ← readU24 .be
  rdSkip 1
  let genHdrBlockNum ← readU8
  pure { g with expandedFileNum, extChSetsPerScanType, extendedHdrBlocks, extendedSkewBlocks,
                genTrailerNumOfBlocks, recordSetNumber, extNumAddBlksInGenHdr,
                dominantSamplingInt, externalHdrBlocks, genHdrBlockNum }

/-- `read_gen_hdr2_and_3`, the part that reads the third block. ISEGD.cpp:396-403 -/
def readGenHdr3 : Rd GenHdr3 := do
  let timeZero ← readU64 .be
  let recordSize ← readU64 .be
  let dataSize ← readU64 .be
  let headerSize ← readU32 .be
  let extdRecMode ← readU8
  let relTimeMode ← readU8
  rdSkip 1
  let genHdrBlockNum ← readU8
  pure { timeZero, recordSize, dataSize, headerSize, extdRecMode, relTimeMode, genHdrBlockNum }

/-- The value of a member of one of the block classes. -/
inductive BlkVal where
  | num (v : Int)
  | dbl (d : Dbl)
  | text (b : Bytes)
  deriving DecidableEq, Repr

/-- One statement of a block reader. -/
inductive BlkItem where
  /-- `member = read_u8(&buf)` -/
  | u8 (name : String)
  /-- `member = read_u16(&buf)` -/
  | u16 (name : String)
  /-- `member = read_u16(&buf)` for a member of type `int16_t` -/
  | s16 (name : String)
  /-- `member = read_u24(&buf)` -/
  | u24 (name : String)
  /-- `member = read_u32(&buf)` -/
  | u32 (name : String)
  /-- `member = read_u64(&buf)` -/
  | u64 (name : String)
  /-- `member = from_bcd<uint8_t>(&buf, false, 2)` -/
  | bcd (name : String)
  /-- `member = read_u24(&buf); member += read_u16(&buf) / pow(2, 16)` -/
  | fix (name : String)
  /-- `memcpy(member, buf, n); buf += n` -/
  | text (name : String) (n : Nat)
  /-- `buf += n` -/
  | skip (n : Nat)
  deriving DecidableEq, Repr

/-- Integer part and fraction of a source line or point. ISEGD.cpp:575-578 -/
def rdFix : Rd Dbl := do
  let i ← readU24 .be
  let f ← readU16 .be
  pure (dadd (dblOfInt i) (ddivPow2 (dblOfInt f) 16))

/-- The member one statement sets, with its value. -/
def rdItem : BlkItem → Rd (List (String × BlkVal))
  | .u8 n => do let v ← readU8; pure [(n, .num v)]
  | .u16 n => do let v ← readU16 .be; pure [(n, .num v)]
  | .s16 n => do let v ← readU16 .be; pure [(n, .num (toS 2 v))]
  | .u24 n => do let v ← readU24 .be; pure [(n, .num v)]
  | .u32 n => do let v ← readU32 .be; pure [(n, .num v)]
  | .u64 n => do let v ← readU64 .be; pure [(n, .num v)]
  | .bcd n => do let v ← fromBcd false 2; pure [(n, .num v)]
  | .fix n => do let v ← rdFix; pure [(n, .dbl v)]
  | .text n k => do let v ← rdBytes k; pure [(n, .text v)]
  | .skip k => do rdSkip k; pure []

/-- The statements of a block reader in order. -/
def rdItems : List BlkItem → Rd (List (String × BlkVal))
  | [] => pure []
  | i :: t => do
    let a ← rdItem i
    let b ← rdItems t
    pure (a ++ b)

/-- Statements common to the readers of the source blocks. ISEGD.cpp:574-579 and repetitions -/
def souHead : List BlkItem :=
  [.u24 "expanded_file_number", .fix "sou_line_num", .fix "sou_point_num", .u8 "sou_point_index"]

/-- Statements common to the readers of the source blocks. ISEGD.cpp:583-591 and repetitions -/
def souTail : List BlkItem :=
  [.u8 "source_id", .u8 "source_set_num", .u8 "reshoot_idx", .u8 "group_idx", .u8 "depth_idx",
   .u8 "offset_crossline", .u8 "offset_inline", .u8 "size", .u8 "offset_depth"]

/-- Statements for one auxiliary channel. ISEGD.cpp:749-751 and repetitions -/
def auxChan (i : String) : List BlkItem :=
  [.bcd ("scan_type_num_" ++ i), .u16 ("ch_set_num_" ++ i), .u24 ("trace_num_" ++ i)]

/-- The statements of the reader for each block type, up to reading the type; `none` for the types
without a `case`. The sizes of the texts are those of the members (CommonSEGD.hpp:299-1430).
ISEGD.cpp:406-915 -/
def blkItems : Nat → Option (List BlkItem)
  | 0x10 => some [.text "abbr_vessel_crew_name" 3, .text "vessel_crew_name" 28]
  | 0x11 => some [.text "survey_area_name" 31]
  | 0x12 => some [.text "client_name" 31]
  | 0x13 => some [.text "abbr_job_id" 5, .text "job_id" 26]
  | 0x14 => some [.text "line_abbr" 7, .text "line_id" 24]
  | 0x15 => some (souHead ++ [.u8 "phase_control", .u8 "type_vibrator", .s16 "phase_angle"]
      ++ souTail)
  | 0x16 => some (souHead ++ [.u16 "depth", .u8 "charge_length", .u8 "soil_type"] ++ souTail)
  | 0x17 => some (souHead ++ [.u16 "depth", .u16 "air_pressure"] ++ souTail)
  | 0x18 => some (souHead ++ [.u16 "depth", .u16 "air_pressure"] ++ souTail)
  | 0x19 => some (souHead ++ [.u8 "source_type", .u24 "moment"] ++ souTail)
  | 0x1f => some (souHead ++ [.skip 4] ++ souTail)
  | 0x20 => some [.u64 "time", .u8 "source_status", .u8 "source_id", .u8 "source_moving",
      .text "error_description" 20]
  | 0x21 => some ([.u8 "source_id"] ++ auxChan "1" ++ auxChan "2" ++ auxChan "3" ++ auxChan "4"
      ++ auxChan "5")
  | 0x41 => some [.u64 "instrument_test_time", .u32 "sensor_sensitivity", .u8 "instr_test_result",
      .text "serial_number" 28]
  | 0x43 => some [.u32 "freq1", .u32 "amp1", .u32 "phase1", .u32 "freq2", .u32 "amp2",
      .u32 "phase2", .u8 "calib_applied", .skip 6]
  | 0x44 => some [.u64 "time_of_depl", .u64 "time_of_retr", .u32 "timer_offset_depl",
      .u32 "time_offset_retr", .u8 "timedrift_corr", .u8 "corr_method", .skip 5]
  | 0x45 => some [.u24 "equip_dim_x", .u24 "equip_dim_y", .u24 "equip_dim_z", .u8 "pos_term",
      .u24 "equip_offset_x", .u24 "equip_offset_y", .u24 "equip_offset_z", .skip 12]
  | 0x50 => some [.u64 "time_of_position", .u64 "time_of_measurement", .u32 "vert_error",
      .u32 "hor_error_semi_major", .u32 "hor_error_semi_minor", .u16 "hor_error_orientation",
      .u8 "position_type"]
  | 0x51 => some [.u64 "crs_a_coord1", .u64 "crs_a_coord2", .u64 "crs_a_coord3",
      .u16 "crs_a_crsref", .u8 "pos1_valid", .u8 "pos1_quality", .skip 3]
  | 0x52 => some [.u64 "crs_b_coord1", .u64 "crs_b_coord2", .u64 "crs_b_coord3",
      .u16 "crs_b_crsref", .u8 "pos2_valid", .u8 "pos2_quality", .skip 3]
  | 0x55 => some [.text "crs" 31]
  | 0x56 => some [.u32 "offset_east", .u32 "offset_north", .u32 "offset_vert",
      .text "description" 19]
  | 0x60 => some [.u32 "rot_x", .u32 "rot_y", .u32 "rot_z", .u32 "ref_orientation",
      .u64 "time_stamp", .u8 "ori_type", .u8 "ref_orient_valid", .u8 "rot_applied",
      .u8 "rot_north_applied", .skip 3]
  | 0x61 => some [.u64 "timestamp", .u32 "measurement_value", .u32 "maximum_value",
      .u32 "minimum_value", .u16 "quantity_class", .u16 "unit_of_measure",
      .u16 "measurement_description", .skip 5]
  | _ => none

/-- A value of `add_gen_hdr_blks_map`: an object of class `GeneralHeaderN`, or of the class that
belongs to a block type, with the value of `gen_hdr_block_type` and the other members. -/
inductive AddBlk where
  | n (h : GenHdrN)
  | r3 (code : Nat) (type : Nat) (members : List (String × BlkVal))
  deriving DecidableEq, Repr

/-- One of the block readers: its statements, then `gen_hdr_block_type = *buf`. ISEGD.cpp:508-915 -/
def readBlk (code : Nat) (items : List BlkItem) : Rd AddBlk := do
  let members ← rdItems items
  let type ← readU8
  pure (.r3 code type members)

/-- `std::map<int, …>`: keys in ascending order. -/
abbrev BlkMap := List (Nat × AddBlk)

/-- `map[k] = b` -/
def BlkMap.put : BlkMap → Nat → AddBlk → BlkMap
  | [], k, b => [(k, b)]
  | (k', b') :: t, k, b =>
    if k < k' then (k, b) :: (k', b') :: t
    else if k = k' then (k, b) :: t
    else (k', b') :: BlkMap.put t k b

/-- `map.find(k)` -/
def BlkMap.find : BlkMap → Nat → Option AddBlk
  | [], _ => none
  | (k', b) :: t, k => if k = k' then some b else BlkMap.find t k

/-- `read_rev3_add_gen_hdr_blks` on the 32 bytes of the buffer: byte 31 selects the reader; a
`char` that is negative equals no type. ISEGD.cpp:406-506 -/
def readRev3Blk (buf : Bytes) (m : BlkMap) : Out BlkMap :=
  match buf[31]? with
  | none => isUb .outOfBounds
  | some b =>
    match blkItems b.toNat with
    | none => .ok m
    | some items => do
      let (blk, _) ← readBlk b.toNat items buf
      pure (m.put b.toNat blk)

/-- `read_rev2_add_gen_hdr_blks` on the 32 bytes of the buffer. ISEGD.cpp:361-378 -/
def readRev2Blk (buf : Bytes) (m : BlkMap) : Out BlkMap := do
  let (h, _) ← readGenHdrN buf
  pure (m.put h.genHdrBlockNum (.n h))

/-- `ext_hdr_flag = *buf >> 4` and `channel_gain = *buf & 0x0f` of a signed `char`.
ISEGD.cpp:1126-1128 -/
def rdFlagsR3 : Rd (Nat × Nat) := do
  let b ← readU8
  pure (if b ≥ 128 then b / 16 + 240 else b / 16, b % 16)

/-- A channel set header built with the constructor for revision 3: the members it shares with the
older revisions and those behind `samp_int()`, `filter_phase()`, `physical_unit()`,
`filter_delay()` and `description()`. CommonSEGD.hpp:1435-1529, CommonSEGD.cpp:214-248 -/
structure ChSetR3 where
  base : ChSet
  sampInt : Nat
  filterPhase : Nat
  physicalUnit : Nat
  filterDelay : Nat
  description : Bytes
  deriving DecidableEq, Repr

/-- `filter_delay()`: the value passes through an `optional<uint8_t>`. CommonSEGD.cpp:271-274 -/
def ChSetR3.filterDelayOf (c : ChSetR3) : Nat := c.filterDelay % 256

/-- `read_ch_set_hdr` on the 96 bytes of the buffer. ISEGD.cpp:1114-1143, 1145-1153 -/
def readChSetR3X : Rd ChSetR3 := do
  let scanTypeNumber ← rdBcd false 2
  let channelSetNumber ← readU16 .be
  let channelType ← readU8
  let startTime ← readU32 .be
  let endTime ← readU32 .be
  let samples ← readU32 .be
  let descale ← readU32 .be
  let numberOfChannels ← readU24 .be
  let sampInt ← readU24 .be
  let arrayForming ← readU8
  let trcHdrExt ← readU8
  let flags ← rdFlagsR3
  let vertStack ← readU8
  let streamerNo ← readU8
  rdSkip 1
  let aliasFilterFreq ← readU32 .be
  let lowCutFilterFreq ← readU32 .be
  let aliasFilterSlope ← readU32 .be
  let lowCutFilterSlope ← readU32 .be
  let firstNotchFilter ← readU32 .be
  let secondNotchFilter ← readU32 .be
  let thirdNotchFilter ← readU32 .be
  let filterPhase ← readU8
  let physicalUnit ← readU8
  rdSkip 2
  let filterDelay ← readU32 .be
  let description ← rdBytes 27
  let base : ChSet :=
    { scanTypeNumber, channelSetNumber, channelType, startTime, endTime,
      descaleMultiplier := dblOfInt descale, numberOfChannels, subscansPerChSet := 0,
      channelGain := flags.2, aliasFilterFreq, aliasFilterSlope, lowCutFilterFreq,
      lowCutFilterSlope, firstNotchFilter, secondNotchFilter, thirdNotchFilter,
      extChSetNum := 0, extHdrFlag := flags.1, trcHdrExt, vertStack, streamerNo,
      arrayForming, numberOfSamples := some samples }
  pure { base, sampInt, filterPhase, physicalUnit, filterDelay, description }

/-- The part of a revision 3 channel set header the model of the reader keeps. -/
def readChSetR3 : Rd ChSet := do
  let c ← readChSetR3X
  pure c.base

end Sedaman
