import Verif.Model.SegdRev3
import Verif.Model.SegdExt
import Verif.Model.SegdSample
import Verif.Model.ISEGY

/-!
# SEG-D reader

`ISEGD` (ISEGD.cpp:127-210, 283-316, 1264-1388, 1398-1726): opening a file, reading the headers of
a record, reading traces one after the other, moving to the next record. `read_trailer` and
`check_trc_hdr_ext` are never called.
-/

namespace Sedaman

/-- The members of `ISEGD::Impl` and `CommonSEGD` the reader uses. `curr_pos` is always the
position of the file and `end_of_data` its size. ISEGD.cpp:34-46, CommonSEGD.hpp:1540-1564 -/
structure ISegd where
  file : File
  gh1 : GenHdr1
  gh2 : GenHdr2
  gh3 : GenHdr3
  blks : BlkMap
  chSets : List (List ChSet)
  extended : List Bytes
  external : List Bytes
  extMap : ExtMap
  chansIn : Nat
  chansRead : Nat
  deriving DecidableEq, Repr

/-- `fill_buf_from_file`. ISEGD.cpp:1378-1382 -/
def ISegd.fill (s : ISegd) (n : Nat) : Out (Bytes × ISegd) := do
  let (b, f) ← s.file.read n
  pure (b, { s with file := f })

/-- A reader of the remaining bytes of the file. When the position is beyond the end there are
none. -/
def ISegd.onRest {α : Type} (s : ISegd) (r : Rd α) : Out (α × ISegd) := do
  let rest := s.file.data.drop s.file.pos
  let (a, rest') ← r rest
  pure (a, { s with file := { s.file with pos := s.file.pos + (rest.length - rest'.length) } })

/-- The loop over additional blocks; `rd` stores one block in the map. ISEGD.cpp:298-302, 308-313 -/
def readBlks (rd : Bytes → BlkMap → Out BlkMap) : Nat → ISegd → Out ISegd
  | 0, s => .ok s
  | n + 1, s => do
    let (b, s) ← s.fill 32
    let m ← rd b s.blks
    readBlks rd n { s with blks := m }

/-- Additional general header blocks for revisions up to 2. ISEGD.cpp:296-302 -/
def readGeneral2 (b : Bytes) (s : ISegd) : Out ISegd := do
  let (g2, _) ← readGenHdr2 s.gh2 b
  readBlks readRev2Blk (s.gh1.addGenHdrBlocks - 1).toNat { s with gh2 := g2 }

/-- Number of additional blocks, stored in `uint16_t`. ISEGD.cpp:305-307 -/
def addBlksNum (s : ISegd) : Nat :=
  if s.gh1.addGenHdrBlocks = 0xf then s.gh2.extNumAddBlksInGenHdr
  else toU 2 s.gh1.addGenHdrBlocks

/-- Additional general header blocks from revision 3: two of the announced blocks are read before
the loop, whose counter is a `uint16_t`. ISEGD.cpp:303-314 -/
def readGeneral3 (b : Bytes) (s : ISegd) : Out ISegd := do
  let (g2, _) ← readGenHdr2R3 s.gh2 b
  let (b, s) ← ({ s with gh2 := g2 } : ISegd).fill 32
  let (g3, _) ← readGenHdr3 b
  let s := { s with gh3 := g3 }
  readBlks readRev3Blk (toU 2 ((addBlksNum s : Int) - 2)) s

/-- The part of `read_general_headers` for a record with additional blocks. ISEGD.cpp:288-315 -/
def readGeneralAdd (s : ISegd) : Out ISegd := do
  let (b, s) ← s.fill 32
  let (g2, _) ← readRevision s.gh2 b
  let s := { s with gh2 := g2 }
  if s.gh2.segdRevMajor < 3 then readGeneral2 b s else readGeneral3 b s

/-- `read_general_headers`. ISEGD.cpp:283-316 -/
def readGeneral (s : ISegd) : Out ISegd := do
  let (b, s) ← s.fill 32
  let (g1, _) ← readGenHdr1 b
  let s := { s with gh1 := g1 }
  if s.gh1.addGenHdrBlocks ≠ 0 then readGeneralAdd s else .ok s

/-- Whether channel set headers have the revision 3 layout. ISEGD.cpp:176-180, 1085-1086 -/
def ISegd.rev3 (s : ISegd) : Bool := s.gh1.addGenHdrBlocks ≠ 0 ∧ 3 ≤ s.gh2.segdRevMajor

/-- `read_ch_set_hdr`. ISEGD.cpp:1070-1163 -/
def readChSetHdr (s : ISegd) : Out (ChSet × ISegd) := do
  let (b, s) ← s.fill (if s.rev3 then 96 else 32)
  let (h, _) ← (if s.rev3 then readChSetR3 else readChSet) b
  pure (h, s)

/-- The channel sets of one scan type. ISEGD.cpp:183-187 -/
def readChSets : Nat → ISegd → Out (List ChSet × ISegd)
  | 0, s => .ok ([], s)
  | n + 1, s => do
    let (h, s) ← readChSetHdr s
    let (t, s) ← readChSets n { s with chansIn := s.chansIn + h.numberOfChannels }
    pure (h :: t, s)

/-- Number of channel sets of a scan type, a `uint16_t`. ISEGD.cpp:172-175 -/
def ISegd.setsPerScan (s : ISegd) : Nat :=
  if s.gh1.channelSetsPerScanType = 1665 then s.gh2.extChSetsPerScanType
  else toU 2 s.gh1.channelSetsPerScanType

/-- Number of skew blocks, a `uint16_t`. ISEGD.cpp:188-190 -/
def ISegd.skewBlks (s : ISegd) : Nat :=
  if s.gh1.skewBlocks = 165 then s.gh2.extendedSkewBlocks else toU 2 s.gh1.skewBlocks

/-- `file_skip_bytes` for the skew blocks. ISEGD.cpp:191, 1384-1388 -/
def ISegd.skipSkew (s : ISegd) : Out ISegd := do
  let f ← s.file.seekCur ((s.skewBlks * 32 : Nat) : Int)
  pure { s with file := f }

/-- The loop over the scan types; the list of channel sets is empty when it starts. The counter of
channels is a `uint64_t`; the sum of at most 165 · 65535 numbers of 24 bits does not reach `2^64`.
ISEGD.cpp:181-192 -/
def readScanTypes : Nat → ISegd → Out ISegd
  | 0, s => .ok s
  | n + 1, s => do
    let (sets, s) ← readChSets s.setsPerScan s
    let s ← ({ s with chSets := s.chSets ++ [sets] } : ISegd).skipSkew
    readScanTypes n s

/-- Number of extended header blocks, a `uint32_t`. ISEGD.cpp:193-195 -/
def ISegd.extendedBlks (s : ISegd) : Nat :=
  if s.gh1.extendedHdrBlocks = 165 then s.gh2.extendedHdrBlocks else toU 4 s.gh1.extendedHdrBlocks

/-- Number of external header blocks, a `uint32_t`. ISEGD.cpp:196-198 -/
def ISegd.externalBlks (s : ISegd) : Nat :=
  if s.gh1.externalHdrBlocks = 165 then s.gh2.externalHdrBlocks else toU 4 s.gh1.externalHdrBlocks

/-- Blocks of 32 bytes kept as they are. ISEGD.cpp:200-204, 206-210 -/
def readBlocks32 : Nat → ISegd → Out (List Bytes × ISegd)
  | 0, s => .ok ([], s)
  | n + 1, s => do
    let (b, s) ← s.fill 32
    let (t, s) ← readBlocks32 n s
    pure (b :: t, s)

/-- `read_headers_before_traces`. ISEGD.cpp:167-210 -/
def readHeaders (s : ISegd) : Out ISegd := do
  let s ← readGeneral s
  let _ ← segdReader s.gh1.formatCode
  let s ← readScanTypes s.gh1.scanTypesPerRecord.toNat s
  let (extended, s) ← readBlocks32 s.extendedBlks s
  let s := { s with extended }
  let (external, s) ← readBlocks32 s.externalBlks s
  pure { s with external }

/-- The value-initialised headers of a new reader. ISEGD.cpp:1719-1726 -/
def GenHdr1.zero : GenHdr1 :=
  ⟨0, 0, 0, 0, 0, 0, 0, 0, 0, 0, 0, 0, 0, 0, 0, 0, 0, 0, 0, 0, 0, 0⟩

/-- See `GenHdr1.zero`. -/
def GenHdr2.zero : GenHdr2 := ⟨0, 0, 0, 0, 0, 0, 0, 0, 0, 0, 0, 0, 0, 0⟩

/-- See `GenHdr1.zero`. -/
def GenHdr3.zero : GenHdr3 := ⟨0, 0, 0, 0, 0, 0, 0⟩

/-- The reader before the first header is read. ISEGD.cpp:154-163, 1719-1726 -/
def ISegd.init (data : Bytes) (m : ExtMap) : ISegd :=
  { file := ⟨data, 0⟩, gh1 := .zero, gh2 := .zero, gh3 := .zero, blks := [], chSets := [],
    extended := [], external := [], extMap := m, chansIn := 0, chansRead := 0 }

/-- The constructor `ISEGD(name, tr_hdr_ext)`. ISEGD.cpp:154-165, 1719-1726 -/
def openSegd (data : Bytes) (m : ExtMap) : Out ISegd := readHeaders (.init data m)

/-- `has_record()`. ISEGD.cpp:127-130 -/
def ISegd.hasRecord (s : ISegd) : Bool := s.file.pos ≠ s.file.data.length

/-- `has_trace()`. ISEGD.cpp:132-135 -/
def ISegd.hasTrace (s : ISegd) : Bool := s.chansIn ≠ s.chansRead

/-- `get<int64_t>(hdr[name]) - 1` as an index. ISEGD.cpp:1358-1360 -/
def subscript {α : Type} (xs : List α) (v : Value) : Out α :=
  match v with
  | .dbl _ => throwExn .badVariantAccess
  | .int i =>
    if i < 1 then isUb .outOfBounds
    else match xs[(i - 1).toNat]? with
      | none => isUb .outOfBounds
      | some a => .ok a

/-- The channel set a trace belongs to. ISEGD.cpp:1358-1360 -/
def ISegd.chSetOf (s : ISegd) (h : Header) : Out (ChSet × Header) := do
  let sets ← subscript s.chSets (Header.at h "SCAN_TYPE_NUM").1
  let h := (Header.at h "SCAN_TYPE_NUM").2
  let c ← subscript sets (Header.at h "CH_SET_NUM").1
  pure (c, (Header.at h "CH_SET_NUM").2)

/-- Number of samples of a trace, a `uint32_t`. ISEGD.cpp:1361-1366 -/
def sampNumD (c : ChSet) (h : Header) : Out Nat :=
  match h.get "SAMP_NUM" with
  | some (.int v) => .ok (toU 4 v)
  | some (.dbl _) => throwExn .badVariantAccess
  | none => match c.numberOfSamples with
    | some n => .ok n
    | none => .ok (toU 4 c.subscansPerChSet)

/-- Header, extensions and samples of the next trace. `pw` is `pow(2, ·)`.
ISEGD.cpp:139-142, 1238-1376 -/
def readTraceBody (pw : Dbl → Dbl) (s : ISegd) : Out (Trace × ISegd) := do
  let (b, s) ← s.fill 20
  let (h, _) ← readTraceHdrD b
  let (h, s) ← s.onRest (readExt s.gh2.segdRevMajor s.extMap h)
  let (c, h) ← s.chSetOf h
  let n ← sampNumD c h
  let (xs, s) ← s.onRest (readSamplesD s.gh1.formatCode (pw c.descaleMultiplier) n)
  pure (⟨h, xs⟩, s)

/-- What follows after the samples of a trace are read. ISEGD.cpp:143-149 -/
def ISegd.advance (s : ISegd) : Out ISegd :=
  let s := { s with chansRead := s.chansRead + 1 }
  if s.chansIn = s.chansRead then
    let s := { s with chansIn := 0, chansRead := 0, chSets := [] }
    if s.hasRecord then readHeaders s else .ok s
  else .ok s

/-- `read_trace()`. ISEGD.cpp:137-152 -/
def readTraceD (pw : Dbl → Dbl) (s : ISegd) : Out (Trace × ISegd) := do
  let (t, s) ← readTraceBody pw s
  let s ← s.advance
  pure (t, s)

/-! ## Access to the headers -/

/-- `general_header2()`. ISEGD.cpp:1403-1408 -/
def ISegd.generalHeader2 (s : ISegd) : Option GenHdr2 :=
  if s.gh1.addGenHdrBlocks ≠ 0 then some s.gh2 else none

/-- `*dynamic_cast<GeneralHeaderN*>(…)` -/
def AddBlk.asN : AddBlk → Out GenHdrN
  | .n h => .ok h
  | .r3 _ _ _ => isUb .nullDeref

/-- `general_headerN()`. ISEGD.cpp:1410-1425 -/
def ISegd.generalHeaderN (s : ISegd) : Out (List GenHdrN) :=
  if s.gh1.addGenHdrBlocks = 0 ∨ 2 < s.gh2.segdRevMajor then .ok []
  else s.blks.mapM fun p => p.2.asN

/-- `general_header3()`. ISEGD.cpp:1427-1433 -/
def ISegd.generalHeader3 (s : ISegd) : Option GenHdr3 :=
  if s.gh1.addGenHdrBlocks ≠ 0 ∧ 2 < s.gh2.segdRevMajor then some s.gh3 else none

/-- The getter for the block class of type `code`, for example `general_header_vessel_crew_id()`
for 0x10: the value of `gen_hdr_block_type` and the other members. A `GeneralHeaderN` in that place
makes the cast yield a null pointer. ISEGD.cpp:1435-1699 -/
def ISegd.generalBlock (s : ISegd) (code : Nat) : Out (Option (Nat × List (String × BlkVal))) :=
  match s.blks.find code with
  | none => .ok none
  | some (.r3 c ty ms) => if c = code then .ok (some (ty, ms)) else isUb .nullDeref
  | some (.n _) => isUb .nullDeref

end Sedaman
