import Verif.Spec.SegdIO
import Mathlib.Data.List.Dedup

/-!
# Sizes and consistency of what is given to the SEG-D writer
-/

namespace Sedaman.Spec

/-- A number from general header 1, or the one from general header 2 when the first has the escape
value; negative numbers and large ones are reduced to `8 * w` bits. -/
def numberOr (w : Nat) (v escape : Int) (ext : Nat) : Nat :=
  if v = escape then ext else (v % (256 ^ w : Nat)).toNat

/-- Channel sets in each scan type, extended header blocks and external header blocks, as the general
headers announce them. -/
def announcedSets (a : OSegdArgs) : Nat :=
  numberOr 2 a.gh1.channelSetsPerScanType 1665 a.gh2.extChSetsPerScanType
def announcedExtended (a : OSegdArgs) : Nat :=
  numberOr 4 a.gh1.extendedHdrBlocks 165 a.gh2.extendedHdrBlocks
def announcedExternal (a : OSegdArgs) : Nat :=
  numberOr 4 a.gh1.externalHdrBlocks 165 a.gh2.externalHdrBlocks

/-- The channel set table has the shape the general headers announce. -/
def Consistent (a : OSegdArgs) : Prop :=
  (a.chSets.length : Int) = a.gh1.scanTypesPerRecord ∧ ∀ sets ∈ a.chSets, sets.length = announcedSets a

/-- The announced number of blocks was supplied, each with all its 32 bytes. -/
def Supplied (n : Nat) (blocks : List Bytes) : Prop :=
  n ≤ blocks.length ∧ ∀ b ∈ blocks.take n, 32 ≤ b.length

/-- Everything that is written as a single block can be written. -/
structure Encodable (H : Host) (a : OSegdArgs) : Prop where
  stored : ∃ m b, storeAdd a.addHdrs [] = .ok m ∧ writeAddHdrs m = .ok b
  format : ∃ w, segdWriter H.packEst a.gh1.formatCode = .ok w
  gen1 : ∃ b, writeGenHdr1 H.lg a.gh1 a.gh2.extRecordLen = .ok b
  gen2 : ∃ b, writeGenHdr2 a.gh2 = .ok b
  sets : ∀ l ∈ a.chSets, ∀ c ∈ l, ∃ b, writeChSetHdr H a c = .ok b

/-- Bytes in front of the first trace: blocks of 32 bytes for the two general headers, for every type
among the additional headers, for the channel sets and the skew of each scan type, and for the
extended and external headers. -/
def headerBytes (a : OSegdArgs) : Nat :=
  32 * (2 + (a.addHdrs.map AddBlk.type).dedup.length +
    a.chSets.length * (announcedSets a + a.gh1.skewBlocks.toNat) + announcedExtended a + announcedExternal a)

/-- Bits of a sample in the format codes the writer knows. -/
def formatBits : List (Int × Nat) :=
  [(8015, 20), (8022, 8), (8024, 16), (8036, 24), (8038, 32), (8042, 8), (8044, 16), (8048, 32),
   (8058, 32), (8080, 64), (9036, 24), (9038, 32), (9058, 32), (9080, 64)]

/-- Extension blocks of a trace: the header of that name, reduced to a byte, 0 if it is not set. -/
def extBlocks (t : Trace) : Nat :=
  match t.header.get "TR_HDR_EXT" with
  | some (.int v) => (v % 256).toNat
  | _ => 0

/-- Bytes of a trace whose samples have `bits` bits. -/
def traceBytes (bits : Nat) (t : Trace) : Nat := 20 + 32 * extBlocks t + t.samples.length * bits / 8

end Sedaman.Spec
