import Verif.Model.SegdCur
import Verif.Model.SegdFloat
import Verif.Model.RawIO

/-!
# SEG-D general headers, revisions up to 2

`OSEGD::Impl::write_general_header1`, `write_general_header2_rev2` and one iteration of
`write_rev2_add_gen_hdrs` (OSEGD.cpp:186-278); `ISEGD::Impl::read_gen_hdr1`,
`read_gen_hdr2_rev2` and `read_rev2_add_gen_hdr_blks` (ISEGD.cpp:283-378).

SEG-D numbers are big-endian. The raw readers and writers of ISEGD.cpp:212-281 and
OSEGD.cpp:93-185 are, for a little-endian host, the expressions of the SEG-Y code with the
big-endian branch, so the definitions of `Verif.Model.RawIO` at `.be` are reused.
`char` is signed (x86). `int` has 4 bytes, `long` and `long long` 8.
-/

namespace Sedaman

/-- `CommonSEGD::GeneralHeader`. CommonSEGD.hpp:43-66 -/
structure GenHdr1 where
  fileNumber : Int
  formatCode : Int
  genConst : Int
  year : Int
  addGenHdrBlocks : Int
  day : Int
  hour : Int
  minute : Int
  second : Int
  manufacCode : Int
  manufacNum : Int
  bytesPerScan : Int
  baseScanInt : Dbl
  polarity : Int
  scansPerBlock : Int
  recordType : Int
  recordLength : Int
  scanTypesPerRecord : Int
  channelSetsPerScanType : Int
  skewBlocks : Int
  extendedHdrBlocks : Int
  externalHdrBlocks : Int
  deriving DecidableEq, Repr

/-- `CommonSEGD::GeneralHeader2`; all members are unsigned. CommonSEGD.hpp:109-126 -/
structure GenHdr2 where
  expandedFileNum : Nat
  extChSetsPerScanType : Nat
  extendedHdrBlocks : Nat
  externalHdrBlocks : Nat
  extendedSkewBlocks : Nat
  segdRevMajor : Nat
  segdRevMinor : Nat
  genTrailerNumOfBlocks : Nat
  extRecordLen : Nat
  recordSetNumber : Nat
  extNumAddBlksInGenHdr : Nat
  dominantSamplingInt : Nat
  genHdrBlockNum : Nat
  sequenceNumber : Nat
  deriving DecidableEq, Repr

/-- `CommonSEGD::GeneralHeaderN`. CommonSEGD.hpp:211-223 -/
structure GenHdrN where
  expandedFileNumber : Nat
  souLineNum : Dbl
  souPointNum : Dbl
  souPointIndex : Nat
  phaseControl : Nat
  typeVibrator : Nat
  phaseAngle : Int
  genHdrBlockNum : Nat
  souSetNum : Nat
  deriving DecidableEq, Repr

/-- Conversion of an integer to `char`. -/
def chr (v : Int) : Byte := BitVec.ofInt 8 v

/-- `*ptr++ = d` for a `double`: conversion to `char`, undefined if it does not fit. -/
def wrDblChar (d : Dbl) : Wr Unit := fun c => do
  let v ← dblToS 1 d
  wrPut [chr v] c

/-- A number with `num` digits, or the escape bytes when it exceeds `limit`. OSEGD.cpp:190-191,
218-220, 223-228 -/
def wrBcdOr (w : Nat) (val limit : Int) (num : Nat) (esc : Bytes) : Wr Unit :=
  if val > limit then wrPut esc else wrBcd w val false num

/-- Record type and length. OSEGD.cpp:210-217 -/
def wrRecord (h : GenHdr1) (extRecordLen : Nat) : Wr Unit :=
  if h.addGenHdrBlocks ≠ 0 ∧ extRecordLen ≠ 0 then
    wrPut (writeU16 .be ((0x0fff ||| (toU 4 h.recordType <<< 12 % 2 ^ 32) : Nat) : Int))
  else do
    wrBcd 4 h.recordType false 1
    wrBcd 4 h.recordLength true 3

/-- Polarity and scans per block. OSEGD.cpp:205-209. `lg` is the C library's `log2` applied to
the number of scans converted to `double`. -/
def wrScans (lg : Int → Dbl) (h : GenHdr1) : Wr Unit := do
  wrBcd 4 h.polarity false 1
  let l ← (fun c => do pure ((← dblToU 4 (lg h.scansPerBlock)), c) : Wr Int)
  let exp := l.toNat % 16
  wrOr (BitVec.ofNat 8 exp)
  wrDblChar (ddivPow2 (dblOfInt h.scansPerBlock) exp)

/-- The statements of `write_general_header1`. OSEGD.cpp:186-228 -/
def wrGenHdr1 (lg : Int → Dbl) (h : GenHdr1) (extRecordLen : Nat) : Wr Unit := do
  wrBcdOr 4 h.fileNumber 9999 4 (writeU16 .be 0xffff)
  wrBcd 4 h.formatCode false 4
  wrBcd 8 h.genConst false 12
  wrBcd 4 h.year false 2
  wrPoke (chr (h.addGenHdrBlocks * 16))
  wrBcd 4 h.day true 3
  wrBcd 4 h.hour false 2
  wrBcd 4 h.minute false 2
  wrBcd 4 h.second false 2
  wrBcd 4 h.manufacCode false 2
  wrBcd 4 h.manufacNum false 4
  wrBcd 8 h.bytesPerScan false 6
  wrDblChar (dmul h.baseScanInt (pow2 4))
  wrScans lg h
  wrRecord h extRecordLen
  wrBcdOr 4 h.scanTypesPerRecord 99 2 [0xff]
  wrBcd 4 h.channelSetsPerScanType false 2
  wrBcd 4 h.skewBlocks false 2
  wrBcdOr 4 h.extendedHdrBlocks 99 2 [0xff]
  wrBcdOr 4 h.externalHdrBlocks 99 2 [0xff]

/-- The 32 bytes `write_general_header1` writes. OSEGD.cpp:186-229 -/
def writeGenHdr1 (lg : Int → Dbl) (h : GenHdr1) (extRecordLen : Nat) : Out Bytes :=
  wrBlock 32 (wrGenHdr1 lg h extRecordLen)

/-- `from_bcd<int>` -/
def rdBcd (skip : Bool) (num : Nat) : Rd Int := do
  let v ← fromBcd skip num
  pure (v : Int)

/-- Scans per block: `unsigned * pow(2, exp)` converted to `long`. ISEGD.cpp:334-335 -/
def rdScans : Rd Int := do
  let e ← readU8
  let u ← readU8
  (fun bs => do pure ((← dblToS 8 (dmul (dblOfInt u) (pow2 ((e % 16 : Nat) : Int)))), bs) : Rd Int)

/-- `read_gen_hdr1`. ISEGD.cpp:318-344 -/
def readGenHdr1 : Rd GenHdr1 := do
  let fileNumber ← rdBcd false 4
  let formatCode ← rdBcd false 4
  let genConst ← rdBcd false 12
  let year ← rdBcd false 2
  let addGenHdrBlocks ← rdBcd false 1
  let day ← rdBcd true 3
  let hour ← rdBcd false 2
  let minute ← rdBcd false 2
  let second ← rdBcd false 2
  let manufacCode ← rdBcd false 2
  let manufacNum ← rdBcd false 4
  let bytesPerScan ← rdBcd false 6
  let base ← readU8
  let polarity ← rdBcd false 1
  let scansPerBlock ← rdScans
  let recordType ← rdBcd false 1
  let recordLength ← rdBcd true 3
  let scanTypesPerRecord ← rdBcd false 2
  let channelSetsPerScanType ← rdBcd false 2
  let skewBlocks ← rdBcd false 2
  let extendedHdrBlocks ← rdBcd false 2
  let externalHdrBlocks ← rdBcd false 2
  pure { fileNumber, formatCode, genConst, year, addGenHdrBlocks, day, hour, minute, second,
         manufacCode, manufacNum, bytesPerScan, baseScanInt := ddivPow2 (dblOfInt base) 4,
         polarity, scansPerBlock, recordType, recordLength, scanTypesPerRecord,
         channelSetsPerScanType, skewBlocks, extendedHdrBlocks, externalHdrBlocks }

/-- The statements of `write_general_header2_rev2`. OSEGD.cpp:231-248 -/
def wrGenHdr2 (h : GenHdr2) : Wr Unit := do
  wrPut (writeU24 .be h.expandedFileNum)
  wrPut (writeU16 .be h.extChSetsPerScanType)
  wrPut (writeU16 .be h.extendedHdrBlocks)
  wrPut (writeU16 .be h.externalHdrBlocks)
  wrSkip 1
  wrPut [chr h.segdRevMajor]
  wrPut [chr h.segdRevMinor]
  wrPut (writeU16 .be h.genTrailerNumOfBlocks)
  wrPut (writeU24 .be h.extRecordLen)
  wrSkip 1
  wrPut [chr h.genHdrBlockNum]
  wrSkip 1
  wrPut (writeU16 .be h.sequenceNumber)

/-- The 32 bytes `write_general_header2_rev2` writes. OSEGD.cpp:231-249 -/
def writeGenHdr2 (h : GenHdr2) : Out Bytes := wrBlock 32 (wrGenHdr2 h)

/-- Revision numbers at offset 10. ISEGD.cpp:292-294 -/
def readRevision (g : GenHdr2) : Rd GenHdr2 := do
  rdSkip 10
  let segdRevMajor ← readU8
  let segdRevMinor ← readU8
  pure { g with segdRevMajor, segdRevMinor }

/-- `read_gen_hdr2_rev2`: members not present in the block keep their values.
`*++buf` steps over byte 17 and reads byte 18 without moving on, hence the following
`buf += 2` is one byte from the model's cursor. ISEGD.cpp:346-359 -/
def readGenHdr2 (g : GenHdr2) : Rd GenHdr2 := do
  let expandedFileNum ← readU24 .be
  let extChSetsPerScanType ← readU16 .be
  let extendedHdrBlocks ← readU16 .be
  let externalHdrBlocks ← readU16 .be
  rdSkip 3
  let genTrailerNumOfBlocks ← readU16 .be
  let extRecordLen ← readU24 .be
  rdSkip 1
  let genHdrBlockNum ← readU8
  rdSkip 1
  let sequenceNumber ← readU16 .be
  pure { g with expandedFileNum, extChSetsPerScanType, extendedHdrBlocks, externalHdrBlocks,
                genTrailerNumOfBlocks, extRecordLen, genHdrBlockNum, sequenceNumber }

/-- A source line or point number: integer part as `uint32_t` (undefined if negative), fraction
times `2^16` as `uint16_t`. OSEGD.cpp:262-265, 266-269 -/
def wrSource (d : Dbl) : Wr Unit := do
  let integer ← (fun c => do pure ((← dblToU 4 d), c) : Wr Int)
  let frac := dsub d (dblOfInt integer)
  wrPut (writeI24 .be integer)
  let f ← (fun c => do pure ((← dblToU 2 (dmul frac (pow2 16))), c) : Wr Int)
  wrPut (writeU16 .be f)

/-- The statements of one iteration of `write_rev2_add_gen_hdrs`. OSEGD.cpp:257-275 -/
def wrGenHdrN (h : GenHdrN) : Wr Unit := do
  wrPut (writeU24 .be h.expandedFileNumber)
  wrSource h.souLineNum
  wrSource h.souPointNum
  wrPut [chr h.souPointIndex]
  wrPut [chr h.phaseControl]
  wrPut [chr h.typeVibrator]
  wrPut (writeI16 .be h.phaseAngle)
  wrPut [chr h.genHdrBlockNum]
  wrPut [chr h.souSetNum]

/-- The 32 bytes one iteration of `write_rev2_add_gen_hdrs` writes. OSEGD.cpp:251-278 -/
def writeGenHdrN (h : GenHdrN) : Out Bytes := wrBlock 32 (wrGenHdrN h)

/-- A source line or point number. ISEGD.cpp:365-366, 367-368 -/
def rdSource : Rd Dbl := do
  let i ← readI24 .be
  let f ← readU16 .be
  pure (dadd (dblOfInt i) (ddivPow2 (dblOfInt f) 16))

/-- `read_rev2_add_gen_hdr_blks` up to storing the block in the map. ISEGD.cpp:361-374 -/
def readGenHdrN : Rd GenHdrN := do
  let expandedFileNumber ← readU24 .be
  let souLineNum ← rdSource
  let souPointNum ← rdSource
  let souPointIndex ← readU8
  let phaseControl ← readU8
  let typeVibrator ← readU8
  let phaseAngle ← readI16 .be
  let genHdrBlockNum ← readU8
  let souSetNum ← readU8
  pure { expandedFileNumber, souLineNum, souPointNum, souPointIndex, phaseControl,
         typeVibrator, phaseAngle, genHdrBlockNum, souSetNum }

end Sedaman
