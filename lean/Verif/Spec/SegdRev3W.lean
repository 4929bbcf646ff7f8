import Verif.Spec.SegdRev3
import Verif.Model.SegdRev3W
import Mathlib.Data.List.Forall2

/-!
# Values that fit the revision 3 blocks
-/

namespace Sedaman.Spec

/-- A value has the kind of the field and can be represented in its bytes. -/
def KindFits : FieldKind → BlkVal → Prop
  | .uns n, .num v => 0 ≤ v ∧ v < 256 ^ n
  | .sgn n, .num v => -(256 ^ n / 2) ≤ v ∧ v < 256 ^ n / 2
  | .packed, .num v => 0 ≤ v ∧ v < 100
  | .fixed, .dbl d => ∃ k < 2 ^ 40, d = dyadic k 16
  | .chars n, .text b => b.length = n
  | _, _ => False

/-- The members of a block object: one for each field, with a value that fits. -/
def BlkFits (fields : List BlkField) (ms : List (String × BlkVal)) : Prop :=
  List.Forall₂ (fun f m => m.1 = f.name ∧ KindFits f.kind m.2) fields ms

/-- The block types whose objects survive. -/
def keptTypes : List Nat :=
  [0x20, 0x21, 0x43, 0x44, 0x45, 0x50, 0x51, 0x52, 0x55, 0x56, 0x60, 0x61]

/-- The types of the name blocks. -/
def nameTypes : List Nat := [0x10, 0x11, 0x12, 0x13, 0x14]

/-- All fields of a block by the standard. -/
def stdFields (c : Nat) : Option (List BlkField) :=
  match stdOther c with
  | some f => some f
  | none => (stdSourceOwn c).map fun own => stdSourceHead ++ own ++ stdSourceMid ++ stdSourceEnd

/-- Ranges of the members of general header 2 in a revision 3 block. -/
structure GenHdr2FitsR3 (h : GenHdr2) : Prop where
  expandedFileNum : h.expandedFileNum < 2 ^ 24
  extChSetsPerScanType : h.extChSetsPerScanType < 2 ^ 16
  extendedHdrBlocks : h.extendedHdrBlocks < 2 ^ 24
  extendedSkewBlocks : h.extendedSkewBlocks < 2 ^ 16
  segdRevMajor : h.segdRevMajor < 2 ^ 8
  segdRevMinor : h.segdRevMinor < 2 ^ 8
  genTrailerNumOfBlocks : h.genTrailerNumOfBlocks < 2 ^ 32
  extRecordLen : h.extRecordLen < 2 ^ 32
  recordSetNumber : h.recordSetNumber < 2 ^ 16
  extNumAddBlksInGenHdr : h.extNumAddBlksInGenHdr < 2 ^ 16
  dominantSamplingInt : h.dominantSamplingInt < 2 ^ 24
  externalHdrBlocks : h.externalHdrBlocks < 2 ^ 24
  genHdrBlockNum : h.genHdrBlockNum < 2 ^ 8

/-- Where the SEG-D revision 3 standard has the members of general header 2. -/
def GenHdr2At (b : Bytes) (h : GenHdr2) : Prop :=
  decNat .be (slice b 0 3) = h.expandedFileNum ∧
  decNat .be (slice b 3 2) = h.extChSetsPerScanType ∧
  decNat .be (slice b 5 3) = h.extendedHdrBlocks ∧
  decNat .be (slice b 8 2) = h.extendedSkewBlocks ∧
  decNat .be (slice b 10 1) = h.segdRevMajor ∧
  decNat .be (slice b 11 1) = h.segdRevMinor ∧
  decNat .be (slice b 12 4) = h.genTrailerNumOfBlocks ∧
  decNat .be (slice b 16 4) = h.extRecordLen ∧
  decNat .be (slice b 20 2) = h.recordSetNumber ∧
  decNat .be (slice b 22 2) = h.extNumAddBlksInGenHdr ∧
  decNat .be (slice b 24 3) = h.dominantSamplingInt ∧
  decNat .be (slice b 27 3) = h.externalHdrBlocks ∧
  decNat .be (slice b 31 1) = h.genHdrBlockNum

/-- Ranges of the members of a channel set header in a revision 3 block; the descale multiplier is a
whole number. -/
structure ChSetFitsR3 (c : ChSetR3) : Prop where
  scanTypeNumber : 0 ≤ c.base.scanTypeNumber ∧ c.base.scanTypeNumber < 100
  channelSetNumber : c.base.channelSetNumber < 2 ^ 16
  channelType : c.base.channelType < 2 ^ 8
  startTime : c.base.startTime < 2 ^ 32
  endTime : c.base.endTime < 2 ^ 32
  samples : ∃ n < 2 ^ 32, c.base.numberOfSamples = some n
  descale : ∃ k : Nat, k < 2 ^ 32 ∧ c.base.descaleMultiplier = dblOfInt k
  numberOfChannels : c.base.numberOfChannels < 2 ^ 24
  subscans : c.base.subscansPerChSet = 0
  channelGain : c.base.channelGain < 16
  aliasFilterFreq : c.base.aliasFilterFreq < 2 ^ 32
  aliasFilterSlope : c.base.aliasFilterSlope < 2 ^ 32
  lowCutFilterFreq : c.base.lowCutFilterFreq < 2 ^ 32
  lowCutFilterSlope : c.base.lowCutFilterSlope < 2 ^ 32
  firstNotchFilter : c.base.firstNotchFilter < 2 ^ 32
  secondNotchFilter : c.base.secondNotchFilter < 2 ^ 32
  thirdNotchFilter : c.base.thirdNotchFilter < 2 ^ 32
  extChSetNum : c.base.extChSetNum = 0
  extHdrFlag : c.base.extHdrFlag < 16
  trcHdrExt : c.base.trcHdrExt < 2 ^ 8
  vertStack : c.base.vertStack < 2 ^ 8
  streamerNo : c.base.streamerNo < 2 ^ 8
  arrayForming : c.base.arrayForming < 2 ^ 8
  sampInt : c.sampInt < 2 ^ 24
  filterPhase : c.filterPhase < 2 ^ 8
  physicalUnit : c.physicalUnit < 2 ^ 8
  filterDelay : c.filterDelay < 2 ^ 32
  description : c.description.length = 27

/-- What comes back of a channel set header in place of what was written: the number of the channel
set is replaced by the low 16 bits of the start time, the alias filter slope and the low cut filter
frequency are exchanged, the filter delay is cut to 8 bits, and a header extension flag of 8 or more
is read as a negative number. All other members are kept. -/
def chSetStoredR3 (c : ChSetR3) : ChSetR3 :=
  let base : ChSet := { c.base with
    channelSetNumber := c.base.startTime % 2 ^ 16
    aliasFilterSlope := c.base.lowCutFilterFreq
    lowCutFilterFreq := c.base.aliasFilterSlope
    extHdrFlag := if c.base.extHdrFlag < 8 then c.base.extHdrFlag else c.base.extHdrFlag + 240 }
  { c with base, filterDelay := c.filterDelay % 2 ^ 8 }

end Sedaman.Spec
