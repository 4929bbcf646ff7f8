import Verif.Model.SegdGen

/-!
# Vocabulary for the SEG-D general header properties
-/

namespace Sedaman.Spec

/-- The `double` `k / 2^j`. -/
def dyadic (k : Nat) (j : Nat) : Dbl := toDbl (.fin false k (-(j : Int)))

/-- `log2` of the C library is right to the last integer for the numbers of scans that fit the
header: truncating it gives the position of the highest set bit. -/
def LogOk (lg : Int → Dbl) : Prop :=
  ∀ v : Nat, 1 ≤ v → v < 2 ^ 16 → dblToU 4 (lg (v : Int)) = .ok ((v.log2 : Nat) : Int)

/-- A correct `log2` for examples: the integer part of the logarithm. -/
def floorLog (v : Int) : Dbl := dblOfInt ((v.toNat.log2 : Nat) : Int)

/-- Which values the fields of general header 1 can take in the C++ structure without being
negative: `int` fields below `2^31`, `long` fields below `2^63`. -/
structure GenHdr1Typed (h : GenHdr1) : Prop where
  fileNumber : 0 ≤ h.fileNumber ∧ h.fileNumber < 2 ^ 31
  formatCode : 0 ≤ h.formatCode ∧ h.formatCode < 2 ^ 31
  genConst : 0 ≤ h.genConst ∧ h.genConst < 2 ^ 63
  year : 0 ≤ h.year ∧ h.year < 2 ^ 31
  addGenHdrBlocks : 0 ≤ h.addGenHdrBlocks ∧ h.addGenHdrBlocks < 2 ^ 31
  day : 0 ≤ h.day ∧ h.day < 2 ^ 31
  hour : 0 ≤ h.hour ∧ h.hour < 2 ^ 31
  minute : 0 ≤ h.minute ∧ h.minute < 2 ^ 31
  second : 0 ≤ h.second ∧ h.second < 2 ^ 31
  manufacCode : 0 ≤ h.manufacCode ∧ h.manufacCode < 2 ^ 31
  manufacNum : 0 ≤ h.manufacNum ∧ h.manufacNum < 2 ^ 31
  bytesPerScan : 0 ≤ h.bytesPerScan ∧ h.bytesPerScan < 2 ^ 63
  polarity : 0 ≤ h.polarity ∧ h.polarity < 2 ^ 31
  recordType : 0 ≤ h.recordType ∧ h.recordType < 2 ^ 31
  recordLength : 0 ≤ h.recordLength ∧ h.recordLength < 2 ^ 31
  scanTypesPerRecord : 0 ≤ h.scanTypesPerRecord ∧ h.scanTypesPerRecord < 2 ^ 31
  channelSetsPerScanType : 0 ≤ h.channelSetsPerScanType ∧ h.channelSetsPerScanType < 2 ^ 31
  skewBlocks : 0 ≤ h.skewBlocks ∧ h.skewBlocks < 2 ^ 31
  extendedHdrBlocks : 0 ≤ h.extendedHdrBlocks ∧ h.extendedHdrBlocks < 2 ^ 31
  externalHdrBlocks : 0 ≤ h.externalHdrBlocks ∧ h.externalHdrBlocks < 2 ^ 31

instance (h : GenHdr1) : Decidable (GenHdr1Typed h) :=
  decidable_of_iff ((0 ≤ h.fileNumber ∧ h.fileNumber < 2 ^ 31) ∧
    (0 ≤ h.formatCode ∧ h.formatCode < 2 ^ 31) ∧ (0 ≤ h.genConst ∧ h.genConst < 2 ^ 63) ∧
    (0 ≤ h.year ∧ h.year < 2 ^ 31) ∧ (0 ≤ h.addGenHdrBlocks ∧ h.addGenHdrBlocks < 2 ^ 31) ∧
    (0 ≤ h.day ∧ h.day < 2 ^ 31) ∧ (0 ≤ h.hour ∧ h.hour < 2 ^ 31) ∧
    (0 ≤ h.minute ∧ h.minute < 2 ^ 31) ∧ (0 ≤ h.second ∧ h.second < 2 ^ 31) ∧
    (0 ≤ h.manufacCode ∧ h.manufacCode < 2 ^ 31) ∧ (0 ≤ h.manufacNum ∧ h.manufacNum < 2 ^ 31) ∧
    (0 ≤ h.bytesPerScan ∧ h.bytesPerScan < 2 ^ 63) ∧ (0 ≤ h.polarity ∧ h.polarity < 2 ^ 31) ∧
    (0 ≤ h.recordType ∧ h.recordType < 2 ^ 31) ∧ (0 ≤ h.recordLength ∧ h.recordLength < 2 ^ 31) ∧
    (0 ≤ h.scanTypesPerRecord ∧ h.scanTypesPerRecord < 2 ^ 31) ∧
    (0 ≤ h.channelSetsPerScanType ∧ h.channelSetsPerScanType < 2 ^ 31) ∧
    (0 ≤ h.skewBlocks ∧ h.skewBlocks < 2 ^ 31) ∧
    (0 ≤ h.extendedHdrBlocks ∧ h.extendedHdrBlocks < 2 ^ 31) ∧
    (0 ≤ h.externalHdrBlocks ∧ h.externalHdrBlocks < 2 ^ 31))
    ⟨fun ⟨a, b, c, d, e, f, g, i, j, k, l, m, n, o, p, q, r, s, t, u⟩ =>
      ⟨a, b, c, d, e, f, g, i, j, k, l, m, n, o, p, q, r, s, t, u⟩,
     fun ⟨a, b, c, d, e, f, g, i, j, k, l, m, n, o, p, q, r, s, t, u⟩ =>
      ⟨a, b, c, d, e, f, g, i, j, k, l, m, n, o, p, q, r, s, t, u⟩⟩

/-- The fields fit the decimal digits the block has for them. -/
structure GenHdr1Fits (h : GenHdr1) : Prop where
  fileNumber : 0 ≤ h.fileNumber ∧ h.fileNumber < 10 ^ 4
  formatCode : 0 ≤ h.formatCode ∧ h.formatCode < 10 ^ 4
  genConst : 0 ≤ h.genConst ∧ h.genConst < 10 ^ 12
  year : 0 ≤ h.year ∧ h.year < 100
  addGenHdrBlocks : 0 ≤ h.addGenHdrBlocks ∧ h.addGenHdrBlocks < 16
  day : 0 ≤ h.day ∧ h.day < 1000
  hour : 0 ≤ h.hour ∧ h.hour < 100
  minute : 0 ≤ h.minute ∧ h.minute < 100
  second : 0 ≤ h.second ∧ h.second < 100
  manufacCode : 0 ≤ h.manufacCode ∧ h.manufacCode < 100
  manufacNum : 0 ≤ h.manufacNum ∧ h.manufacNum < 10 ^ 4
  bytesPerScan : 0 ≤ h.bytesPerScan ∧ h.bytesPerScan < 10 ^ 6
  polarity : 0 ≤ h.polarity ∧ h.polarity < 10
  recordType : 0 ≤ h.recordType ∧ h.recordType < 10
  recordLength : 0 ≤ h.recordLength ∧ h.recordLength < 1000
  scanTypesPerRecord : 0 ≤ h.scanTypesPerRecord ∧ h.scanTypesPerRecord < 100
  channelSetsPerScanType : 0 ≤ h.channelSetsPerScanType ∧ h.channelSetsPerScanType < 100
  skewBlocks : 0 ≤ h.skewBlocks ∧ h.skewBlocks < 100
  extendedHdrBlocks : 0 ≤ h.extendedHdrBlocks ∧ h.extendedHdrBlocks < 100
  externalHdrBlocks : 0 ≤ h.externalHdrBlocks ∧ h.externalHdrBlocks < 100

/-- What a reader gets from the block for header `h`, whatever its size: digits that do not
fit are lost, an escaped number shows the value of its `F` nibbles, the number of scans
per block is rounded down to a power of two. -/
def genHdr1Stored (h : GenHdr1) (extRecordLen : Nat) : GenHdr1 :=
  { h with
    fileNumber := if h.fileNumber > 9999 then 16665 else h.fileNumber
    formatCode := h.formatCode % 10 ^ 4
    genConst := h.genConst % 10 ^ 12
    year := h.year % 100
    addGenHdrBlocks := h.addGenHdrBlocks % 16
    day := h.day % 1000
    hour := h.hour % 100
    minute := h.minute % 100
    second := h.second % 100
    manufacCode := h.manufacCode % 100
    manufacNum := h.manufacNum % 10 ^ 4
    bytesPerScan := h.bytesPerScan % 10 ^ 6
    polarity := h.polarity % 10
    scansPerBlock := 2 ^ h.scansPerBlock.toNat.log2
    recordType := if h.addGenHdrBlocks ≠ 0 ∧ extRecordLen ≠ 0 then h.recordType % 16
      else h.recordType % 10
    recordLength := if h.addGenHdrBlocks ≠ 0 ∧ extRecordLen ≠ 0 then 1665
      else h.recordLength % 1000
    scanTypesPerRecord := if h.scanTypesPerRecord > 99 then 165 else h.scanTypesPerRecord
    channelSetsPerScanType := h.channelSetsPerScanType % 100
    skewBlocks := h.skewBlocks % 100
    extendedHdrBlocks := if h.extendedHdrBlocks > 99 then 165 else h.extendedHdrBlocks
    externalHdrBlocks := if h.externalHdrBlocks > 99 then 165 else h.externalHdrBlocks }

/-- Ranges of the fields of general header 2 stored in a revision 2 block. -/
structure GenHdr2Fits (h : GenHdr2) : Prop where
  expandedFileNum : h.expandedFileNum < 2 ^ 24
  extChSetsPerScanType : h.extChSetsPerScanType < 2 ^ 16
  extendedHdrBlocks : h.extendedHdrBlocks < 2 ^ 16
  externalHdrBlocks : h.externalHdrBlocks < 2 ^ 16
  segdRevMajor : h.segdRevMajor < 2 ^ 8
  segdRevMinor : h.segdRevMinor < 2 ^ 8
  genTrailerNumOfBlocks : h.genTrailerNumOfBlocks < 2 ^ 16
  extRecordLen : h.extRecordLen < 2 ^ 24
  genHdrBlockNum : h.genHdrBlockNum < 2 ^ 8
  sequenceNumber : h.sequenceNumber < 2 ^ 16

end Sedaman.Spec
