import Verif.Model.SegdReader

/-!
# SEG-D readers after an exception

`Verif.Model.SegdReader` gives no state after an exception. Here the same functions are modelled with
the state they leave behind in any case. The stream has `exceptions(failbit | badbit)`
(CommonSEGD.cpp:40-42): a `read` beyond the end sets `failbit`, which nothing in the library clears, and
from then on every `read`, `seekg` and `tellg` throws.
-/

namespace Sedaman

/-- A reader and the `failbit` of its stream. -/
structure DS where
  s : ISegd
  bad : Bool
  deriving DecidableEq, Repr

/-- A function that may throw and changes the reader in any case. -/
def SM (α : Type) := DS → Out α × DS

instance : Monad SM where
  pure a := fun d => (.ok a, d)
  bind x f := fun d =>
    match x d with
    | (.ok a, d) => f a d
    | (.error e, d) => (.error e, d)

/-- A computation that does not touch the reader. -/
def smLift {α : Type} (x : Out α) : SM α := fun d => (x, d)

/-- The members. -/
def smGet : SM ISegd := fun d => (.ok d.s, d)

/-- Assignment to members. -/
def smMod (f : ISegd → ISegd) : SM Unit := fun d => (.ok (), { d with s := f d.s })

/-- `fill_buf_from_file`: `curr_pos` follows the stream after a successful read only.
ISEGD.cpp:1378-1382 -/
def smFill (n : Nat) : SM Bytes := fun d =>
  if d.bad then (throwExn .iosFailure, d)
  else match d.s.file.read n with
    | .ok (b, f) => (.ok b, { d with s := { d.s with file := f } })
    | .error e => (.error e, { d with bad := true })

/-- `file_skip_bytes`. ISEGD.cpp:1384-1388 -/
def smSkip (off : Int) : SM Unit := fun d =>
  if d.bad then (throwExn .iosFailure, d)
  else match d.s.file.seekCur off with
    | .ok f => (.ok (), { d with s := { d.s with file := f } })
    | .error e => (.error e, { d with bad := true })

/-- The loop over additional blocks. ISEGD.cpp:298-302, 308-313 -/
def smBlks (rd : Bytes → BlkMap → Out BlkMap) : Nat → SM Unit
  | 0 => pure ()
  | n + 1 => do
    let b ← smFill 32
    let s ← smGet
    let m ← smLift (rd b s.blks)
    smMod fun s => { s with blks := m }
    smBlks rd n

/-- ISEGD.cpp:296-302 -/
def smGeneral2 (b : Bytes) : SM Unit := do
  let s ← smGet
  let (g2, _) ← smLift (readGenHdr2 s.gh2 b)
  smMod fun s => { s with gh2 := g2 }
  smBlks readRev2Blk (s.gh1.addGenHdrBlocks - 1).toNat

/-- ISEGD.cpp:303-314 -/
def smGeneral3 (b : Bytes) : SM Unit := do
  let s ← smGet
  let (g2, _) ← smLift (readGenHdr2R3 s.gh2 b)
  smMod fun s => { s with gh2 := g2 }
  let b ← smFill 32
  let (g3, _) ← smLift (readGenHdr3 b)
  smMod fun s => { s with gh3 := g3 }
  let s ← smGet
  smBlks readRev3Blk (toU 2 ((addBlksNum s : Int) - 2))

/-- ISEGD.cpp:288-315 -/
def smGeneralAdd : SM Unit := do
  let b ← smFill 32
  let s ← smGet
  let (g2, _) ← smLift (readRevision s.gh2 b)
  smMod fun s => { s with gh2 := g2 }
  let s ← smGet
  if s.gh2.segdRevMajor < 3 then smGeneral2 b else smGeneral3 b

/-- `read_general_headers`. The members of a block are assigned one after the other; the functions that
decode blocks do not throw, so that an exception finds a block assigned or not. ISEGD.cpp:283-316 -/
def smGeneral : SM Unit := do
  let b ← smFill 32
  let (g1, _) ← smLift (readGenHdr1 b)
  smMod fun s => { s with gh1 := g1 }
  let s ← smGet
  if s.gh1.addGenHdrBlocks ≠ 0 then smGeneralAdd else pure ()

/-- `read_ch_set_hdr`. ISEGD.cpp:1070-1163 -/
def smChSetHdr : SM ChSet := do
  let s ← smGet
  let b ← smFill (if s.rev3 then 96 else 32)
  let (h, _) ← smLift ((if s.rev3 then readChSetR3 else readChSet) b)
  pure h

/-- `channel_sets[i].emplace_back(hdr)` for the last scan type, the one the loop is at. -/
def addToLast (sets : List (List ChSet)) (h : ChSet) : List (List ChSet) :=
  match sets.reverse with
  | [] => []
  | l :: r => r.reverse ++ [l ++ [h]]

/-- The channel sets of one scan type. ISEGD.cpp:183-187 -/
def smChSets : Nat → SM Unit
  | 0 => pure ()
  | n + 1 => do
    let h ← smChSetHdr
    smMod fun s => { s with chansIn := s.chansIn + h.numberOfChannels, chSets := addToLast s.chSets h }
    smChSets n

/-- ISEGD.cpp:181-192 -/
def smScanTypes : Nat → SM Unit
  | 0 => pure ()
  | n + 1 => do
    smMod fun s => { s with chSets := s.chSets ++ [[]] }
    let s ← smGet
    smChSets s.setsPerScan
    let s ← smGet
    smSkip ((s.skewBlks * 32 : Nat) : Int)
    smScanTypes n

/-- Blocks of 32 bytes kept as they are. ISEGD.cpp:200-204, 206-210 -/
def smBlocks32 : Nat → SM (List Bytes)
  | 0 => pure []
  | n + 1 => do
    let b ← smFill 32
    let t ← smBlocks32 n
    pure (b :: t)

/-- `read_headers_before_traces`. When reading an extended or external header block throws, the blocks
read before it are already in place; the model keeps those of the record before.
ISEGD.cpp:167-210 -/
def smHeaders : SM Unit := do
  smGeneral
  let s ← smGet
  let _ ← smLift (segdReader s.gh1.formatCode)
  smScanTypes s.gh1.scanTypesPerRecord.toNat
  let s ← smGet
  let extended ← smBlocks32 s.extendedBlks
  smMod fun s => { s with extended }
  let s ← smGet
  let external ← smBlocks32 s.externalBlks
  smMod fun s => { s with external }

/-- The loop over the extension blocks. ISEGD.cpp:1268-1351 -/
def smExtLoop (rev : Int) (m : ExtMap) : (n i : Nat) → Header → SM Header
  | 0, _, h => pure h
  | n + 1, i, h => do
    let buf ← smFill 32
    let h ← smLift (readExtBlock rev m buf h i)
    smExtLoop rev m n (i + 1) h

/-- `read_trace_samples`. After an unsupported format the sample reader of the record before stays
assigned, but no trace can be read with it: the channel sets are gone, so that the subscript before it is
undefined. ISEGD.cpp:1354-1376 -/
def smSamples (pw : Dbl → Dbl) (h : Header) : SM (Header × List Dbl) := do
  let s ← smGet
  let (c, h) ← smLift (s.chSetOf h)
  let n ← smLift (sampNumD c h)
  let (bits, r) ← smLift (segdReader s.gh1.formatCode)
  let buf ← smFill (n * bits % 2 ^ 32 / 8)
  let (xs, _) ← smLift (rdSamples r (pw c.descaleMultiplier) n buf)
  pure (h, xs)

/-- Header, extensions and samples. ISEGD.cpp:139-142, 1238-1376 -/
def smTraceBody (pw : Dbl → Dbl) : SM Trace := do
  let b ← smFill 20
  let (h, _) ← smLift (readTraceHdrD b)
  let n ← smLift (intOf h "TR_HDR_EXT")
  let s ← smGet
  let h ← smExtLoop s.gh2.segdRevMajor s.extMap n.toNat 0 h
  let (h, xs) ← smSamples pw h
  pure ⟨h, xs⟩

/-- What follows after the samples are read. ISEGD.cpp:143-149 -/
def smAdvance : SM Unit := do
  smMod fun s => { s with chansRead := s.chansRead + 1 }
  let s ← smGet
  if s.chansIn = s.chansRead then do
    smMod fun s => { s with chansIn := 0, chansRead := 0, chSets := [] }
    let s ← smGet
    if s.hasRecord then smHeaders else pure ()
  else pure ()

/-- `read_trace()`: the trace is returned after the headers of the next record have been read.
ISEGD.cpp:137-152 -/
def smReadTrace (pw : Dbl → Dbl) : SM Trace := do
  let t ← smTraceBody pw
  smAdvance
  pure t

end Sedaman
