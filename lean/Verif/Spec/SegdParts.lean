import Verif.Spec.SegdLayout
import Verif.Model.SegdReader

/-!
# The headers of a SEG-D record as a sequence of blocks
-/

namespace Sedaman.Spec

/-- A scan type: channel set headers, then the bytes of the skew blocks. -/
structure ScanBytes where
  sets : List Bytes
  skew : Bytes

/-- What stands between the general headers and the first trace. -/
structure RecordTail where
  scans : List ScanBytes
  extended : List Bytes
  external : List Bytes

/-- The bytes, in the order of the file. -/
def RecordTail.bytes (t : RecordTail) : Bytes :=
  (t.scans.map fun q => q.sets.flatten ++ q.skew).flatten ++ t.extended.flatten ++ t.external.flatten

/-- There is as much of everything as the general headers announce, and the blocks have the right sizes: `width` bytes for
a channel set header, 32 for all other blocks. -/
structure RecordTail.Announced (t : RecordTail) (g1 : GenHdr1) (g2 : GenHdr2) (width : Nat) : Prop where
  scans : (t.scans.length : Int) = g1.scanTypesPerRecord
  sets : ∀ q ∈ t.scans, q.sets.length = numberOr 2 g1.channelSetsPerScanType 1665 g2.extChSetsPerScanType
  width : ∀ q ∈ t.scans, ∀ b ∈ q.sets, b.length = width
  skew : ∀ q ∈ t.scans, q.skew.length = numberOr 2 g1.skewBlocks 165 g2.extendedSkewBlocks * 32
  extended : t.extended.length = numberOr 4 g1.extendedHdrBlocks 165 g2.extendedHdrBlocks
  extended32 : ∀ b ∈ t.extended, b.length = 32
  external : t.external.length = numberOr 4 g1.externalHdrBlocks 165 g2.externalHdrBlocks
  external32 : ∀ b ∈ t.external, b.length = 32

/-- The reader shows these headers: every channel set is what `decode` makes of its own block, the other blocks are
returned as they are, and as many traces are expected as the channel sets have channels. -/
structure RecordTail.ShownBy (t : RecordTail) (decode : Bytes → Out ChSet) (s : ISegd) : Prop where
  sets : List.Forall₂ (fun q l => List.Forall₂ (fun b c => decode b = .ok c) q.sets l) t.scans s.chSets
  extended : s.extended = t.extended
  external : s.external = t.external
  channels : s.chansIn = (s.chSets.flatten.map ChSet.numberOfChannels).sum
  fresh : s.chansRead = 0

end Sedaman.Spec
