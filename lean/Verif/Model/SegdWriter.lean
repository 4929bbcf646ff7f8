import Verif.Model.SegdReader

/-!
# SEG-D revision 2.1 writer

`OSEGDRev2_1` (OSEGDRev2_1.cpp:24-93), the constructor of `OSEGD` (OSEGD.cpp:1277-1296), the part
of the constructor of `CommonSEGD` that sorts the additional headers (CommonSEGD.cpp:45-179) and
`write_trace_samples` (OSEGD.cpp:1059-1085).

`file.write` appends to the file, the operating system is assumed not to fail.
-/

namespace Sedaman

/-- Arguments of the constructor `OSEGDRev2_1`. OSEGDRev2_1.cpp:83-88 -/
structure OSegdArgs where
  gh1 : GenHdr1
  gh2 : GenHdr2
  chSets : List (List ChSet)
  addHdrs : List AddBlk
  extended : List Bytes
  external : List Bytes
  extMap : ExtMap
  deriving DecidableEq, Repr

/-- Functions and values the model takes as parameters: `log2` of an `int`, `pow(2, ·)`, the
estimate of the IBM exponent (see `Verif.Model.Samples`), those of the packed sample formats
(see `PackEst`), and the room at the address of `trc_hdr_buf` (see `writeExtBlock`). -/
structure Host where
  lg : Int → Dbl
  pw : Dbl → Dbl
  est : LogEst
  packEst : PackEst
  room : Nat

/-- `type()` of an additional header. CommonSEGD.hpp:253 and repetitions -/
def AddBlk.type : AddBlk → Nat
  | .n h => h.genHdrBlockNum
  | .r3 _ ty _ => ty

/-- The object stored in the map: the header is cast to the class its type stands for, and to
`GeneralHeaderN` if the type has no class. A failing cast is dereferenced.
CommonSEGD.cpp:46-178 -/
def AddBlk.stored : AddBlk → Out AddBlk
  | .n h => if (blkItems h.genHdrBlockNum).isSome then isUb .nullDeref else .ok (.n h)
  | .r3 c ty ms => if (blkItems ty).isSome ∧ c = ty then .ok (.r3 c ty ms) else isUb .nullDeref

/-- The loop that fills `add_gen_hdr_blks_map`. CommonSEGD.cpp:45-179 -/
def storeAdd : List AddBlk → BlkMap → Out BlkMap
  | [], m => .ok m
  | b :: t, m => do
    let o ← b.stored
    storeAdd t (m.put b.type o)

/-- An open writer: the bytes of the file, the arguments it was opened with, the counters, and what
sample writing keeps from trace to trace. The static array in `mem` belongs to the process: the model
assumes that no other writer puts samples of format 8015 into it while this one is used. -/
structure OSegd where
  out : Bytes
  args : OSegdArgs
  chansInRecord : Nat
  chansWritten : Nat
  mem : SampMem := {}
  deriving DecidableEq, Repr

/-- `write_rev2_add_gen_hdrs`: every block is cast to `GeneralHeaderN` and the result is
dereferenced. OSEGD.cpp:251-278 -/
def writeAddHdrs : BlkMap → Out Bytes
  | [] => .ok []
  | (_, b) :: t => do
    let h ← b.asN
    let x ← writeGenHdrN h
    let y ← writeAddHdrs t
    pure (x ++ y)

/-- `write_ch_set_hdr` in a buffer of 32 bytes; the revision 3 layout does not fit into it.
OSEGD.cpp:818-882, OSEGDRev2_1.cpp:34 -/
def writeChSetHdr (H : Host) (a : OSegdArgs) (h : ChSet) : Out Bytes :=
  if a.gh1.addGenHdrBlocks = 0 ∨ a.gh2.segdRevMajor < 3 then writeChSet H.lg h
  else isUb .outOfBounds

/-- The channel sets of one scan type. OSEGDRev2_1.cpp:45-47 -/
def writeChSets (H : Host) (a : OSegdArgs) : List ChSet → Out Bytes
  | [] => .ok []
  | h :: t => do
    let x ← writeChSetHdr H a h
    let y ← writeChSets H a t
    pure (x ++ y)

/-- Number of channel sets of a scan type, a `uint16_t`. OSEGDRev2_1.cpp:37-40 -/
def OSegdArgs.setsPerScan (a : OSegdArgs) : Nat :=
  if a.gh1.channelSetsPerScanType = 1665 then a.gh2.extChSetsPerScanType
  else toU 2 a.gh1.channelSetsPerScanType

/-- The loop over the scan types; a negative number of skew blocks writes none.
OSEGDRev2_1.cpp:35-54 -/
def writeScanTypes (H : Host) (a : OSegdArgs) : List (List ChSet) → Out Bytes
  | [] => .ok []
  | sets :: t =>
    if sets.length ≠ a.setsPerScan then throwExn .channelSetCount
    else do
      let x ← writeChSets H a sets
      let y ← writeScanTypes H a t
      pure (x ++ List.replicate (a.gh1.skewBlocks.toNat * 32) 0 ++ y)

/-- `n` blocks of 32 bytes from vectors the user gave. OSEGDRev2_1.cpp:63-69 -/
def writeBlocks32 (hs : List Bytes) : (n i : Nat) → Out Bytes
  | 0, _ => .ok []
  | n + 1, i =>
    match hs[i]? with
    | none => isUb .outOfBounds
    | some b =>
      if b.length < 32 then isUb .outOfBounds
      else do
        let y ← writeBlocks32 hs n (i + 1)
        pure (b.take 32 ++ y)

/-- Number of extended header blocks, a `uint32_t`. OSEGDRev2_1.cpp:55-58 -/
def OSegdArgs.extendedBlks (a : OSegdArgs) : Nat :=
  if a.gh1.extendedHdrBlocks = 165 then a.gh2.extendedHdrBlocks else toU 4 a.gh1.extendedHdrBlocks

/-- Number of external header blocks, a `uint32_t`. OSEGDRev2_1.cpp:59-62 -/
def OSegdArgs.externalBlks (a : OSegdArgs) : Nat :=
  if a.gh1.externalHdrBlocks = 165 then a.gh2.externalHdrBlocks else toU 4 a.gh1.externalHdrBlocks

/-- All that the constructor writes. OSEGDRev2_1.cpp:28-69 -/
def writeHeaders (H : Host) (a : OSegdArgs) (m : BlkMap) : Out Bytes := do
  let _ ← segdWriter H.packEst a.gh1.formatCode
  let b1 ← writeGenHdr1 H.lg a.gh1 a.gh2.extRecordLen
  let b2 ← writeGenHdr2 a.gh2
  let bn ← writeAddHdrs m
  let bs ← writeScanTypes H a a.chSets
  let be ← writeBlocks32 a.extended a.extendedBlks 0
  let bx ← writeBlocks32 a.external a.externalBlks 0
  pure (b1 ++ b2 ++ bn ++ bs ++ be ++ bx)

/-- Sum of the numbers of channels of all channel sets. OSEGD.cpp:1293-1295 -/
def totalChannels (sets : List (List ChSet)) : Nat :=
  (sets.map fun l => (l.map ChSet.numberOfChannels).sum).sum

/-- The constructor `OSEGDRev2_1(…)`. `heap` is what the memory of the counter of announced
channels contains before the numbers of channels are added to it: it is not initialised. The static
array of format 8015 is taken to be empty: this is the first writer of the process that uses it.
The number of scan types is converted to `size_t`. OSEGD.cpp:1277-1296, OSEGDRev2_1.cpp:24-93 -/
def openSegdWriter (H : Host) (heap : Nat) (a : OSegdArgs) : Out OSegd := do
  let m ← storeAdd a.addHdrs []
  if a.chSets.length ≠ toU 8 a.gh1.scanTypesPerRecord then throwExn .channelSetCount
  else do
    let out ← writeHeaders H a m
    pure { out, args := a, chansInRecord := (heap + totalChannels a.chSets) % 2 ^ 64,
           chansWritten := 0 }

/-- A channel set index: the header as `uint16_t`, 1 if it is not set, minus 1 as `int` used as a
subscript. OSEGD.cpp:1067-1079 -/
def subscriptW {α : Type} (xs : List α) (h : Header) (name : String) : Out α := do
  let i ← (match h.get name with
    | none => .ok 1
    | some (.int v) => .ok (toU 2 v)
    | some (.dbl _) => throwExn .badVariantAccess : Out Nat)
  if i = 0 then isUb .outOfBounds
  else match xs[i - 1]? with
    | none => isUb .outOfBounds
    | some a => .ok a

/-- The channel set whose descale multiplier is used. OSEGD.cpp:1067-1080 -/
def OSegdArgs.chSetOf (a : OSegdArgs) (h : Header) : Out ChSet := do
  let sets ← subscriptW a.chSets h "SCAN_TYPE_NUM"
  subscriptW sets h "CH_SET_NUM"

/-- `write_trace_samples`. OSEGD.cpp:1059-1085 -/
def writeSamplesOf (H : Host) (a : OSegdArgs) (t : Trace) (m : SampMem) : Out (Bytes × SampMem) := do
  let c ← a.chSetOf t.header
  writeSamplesD H.packEst a.gh1.formatCode (H.pw c.descaleMultiplier) t.samples m

/-- The sample memory after `trc_samp_buf` was resized. OSEGD.cpp:1061-1064 -/
def resizedMem (H : Host) (a : OSegdArgs) (t : Trace) (m : SampMem) : SampMem :=
  match segdWriter H.packEst a.gh1.formatCode with
  | .error _ => m
  | .ok (bits, _) => { m with buf := resizeTo (t.samples.length * bits / 8) m.buf }

/-- The blocks `write_ext_trace_headers` writes before it returns or fails. OSEGD.cpp:924-1056 -/
def extIO (H : Host) (a : OSegdArgs) (h : Header) : (n i : Nat) → Bytes × Out Unit
  | 0, _ => ([], .ok ())
  | n + 1, i =>
    match writeExtBlock H.est H.room a.gh2.segdRevMajor a.extMap h i with
    | .error e => ([], .error e)
    | .ok b =>
      let (t, r) := extIO H a h n (i + 1)
      (b ++ t, r)

/-- `write_trace`: what was written before a failure stays in the file and the counter is not
increased. An exception of `write_trace_samples` comes after the sample buffer was resized and before
a sample is written. OSEGDRev2_1.cpp:71-81 -/
def writeTraceD (H : Host) (t : Trace) (s : OSegd) : Out Unit × OSegd :=
  if s.chansWritten = s.chansInRecord then (throwExn .allTracesWritten, s)
  else match writeTraceHdrD t.header with
    | .error e => (.error e, s)
    | .ok b =>
      let s1 := { s with out := s.out ++ b }
      match intOf t.header "TR_HDR_EXT" with
      | .error e => (.error e, s1)
      | .ok n =>
        match extIO H s.args t.header (toU 1 n) 0 with
        | (b, .error e) => (.error e, { s1 with out := s1.out ++ b })
        | (b, .ok _) =>
          let s2 := { s1 with out := s1.out ++ b }
          match writeSamplesOf H s.args t s.mem with
          | .error e => (.error e, { s2 with mem := resizedMem H s.args t s.mem })
          | .ok (b, m) => (.ok (), { s2 with out := s2.out ++ b, chansWritten := s.chansWritten + 1, mem := m })

end Sedaman
