import Verif.Model.ISEGY

/-!
# SEG-Y readers after an exception

`Verif.Model.ISEGY` gives no state after an exception. Here the same functions are modelled with the
state they leave behind in any case. The stream has `exceptions(failbit | badbit)`
(CommonSEGY.cpp:26-29): a `read` beyond the end or a `seekg` to a negative position sets `failbit`,
which nothing in the library clears, and from then on every `read`, `seekg` and `tellg` throws.
-/

namespace Sedaman

/-- A reader and the `failbit` of its stream. -/
structure RS where
  r : Reader
  bad : Bool
  deriving DecidableEq, Repr

/-- A function that may throw and changes the reader in any case. -/
def RM (α : Type) := RS → Out α × RS

instance : Monad RM where
  pure a := fun s => (.ok a, s)
  bind x f := fun s =>
    match x s with
    | (.ok a, s) => f a s
    | (.error e, s) => (.error e, s)

/-- A computation that does not touch the reader. -/
def rmLift {α : Type} (x : Out α) : RM α := fun s => (x, s)

/-- The members. -/
def rmGet : RM Reader := fun s => (.ok s.r, s)

/-- `fill_buf_from_file`: `curr_pos` follows the stream after a successful read only. The position
after a short read (the end of the file) is not followed: a failed stream has none (`tellg` throws).
ISEGY.cpp:132-136 -/
def rmFill (n : Nat) : RM Bytes := fun s =>
  if s.bad then (throwExn .iosFailure, s)
  else match s.r.file.read n with
    | .ok (b, f) => (.ok b, { s with r := { s.r with file := f, curr := f.pos } })
    | .error e => (.error e, { s with bad := true })

/-- `file_skip_bytes`. ISEGY.cpp:138-142 -/
def rmSkip (off : Int) : RM Unit := fun s =>
  if s.bad then (throwExn .iosFailure, s)
  else match s.r.file.seekCur off with
    | .ok f => (.ok (), { s with r := { s.r with file := f, curr := f.pos } })
    | .error e => (.error e, { s with bad := true })

/-- `common.samp_buf.resize(n)`; nothing changes when it throws. ISEGY.cpp:539-540 -/
def rmResize (n : Nat) : RM Unit := fun s =>
  if s.r.bufLen ≠ n then
    match resizeVec (List.replicate s.r.bufLen 0) n with
    | .ok b => (.ok (), { s with r := { s.r with bufLen := b.length } })
    | .error e => (.error e, s)
  else (.ok (), s)

/-- The loop of `read_trc_header`. ISEGY.cpp:453-509 -/
def rmBlocks (bo : ByteOrder) (m : HdrMap) : (n i : Nat) → Header → RM Header
  | 0, _, acc => pure acc
  | n + 1, i, acc =>
    match m[i]? with
    | some b => do
      let buf ← rmFill trHeaderSize
      let acc ← rmLift (readFields bo b.fields buf acc)
      rmBlocks bo m n (i + 1) acc
    | none => do
      rmSkip trHeaderSize
      rmBlocks bo m n (i + 1) acc

/-- `read_trc_header`. ISEGY.cpp:450-511 -/
def rmTrcHeader : RM Header := do
  let r ← rmGet
  if r.bh.maxNumAddTrHeaders = 2 ^ 31 - 1 then rmLift (isUb .signedOverflow)
  else rmBlocks r.bo r.map (r.bh.maxNumAddTrHeaders + 1).toNat 0 []

/-- `ISEGY::read_header`. ISEGY.cpp:509-522 -/
def rmReadHeader : RM Header := do
  let r ← rmGet
  let hdr ← rmTrcHeader
  if fixedLength r.bh then do
    rmSkip (← rmLift (mulInt32 r.spt r.bps))
    pure hdr
  else do
    let (n, hdr) ← rmLift (sampNum hdr)
    rmSkip (toS 8 (toU 8 (n * r.bps)))
    pure hdr

/-- `read_trc_smpls_fix`. ISEGY.cpp:524-533 -/
def rmSamplesFix : RM (List Dbl) := do
  let r ← rmGet
  let buf ← rmFill r.bufLen
  let rd ← rmLift (sampleReader r.bh.formatCode)
  let (xs, _) ← rmLift (decodeSamples (rd r.bo) (r.bufLen / r.bps) buf)
  pure xs

/-- `ISEGY::read_trace`. ISEGY.cpp:535-549 -/
def rmReadTrace : RM Trace := do
  let r ← rmGet
  let hdr ← rmTrcHeader
  if fixedLength r.bh then do
    pure ⟨hdr, ← rmSamplesFix⟩
  else do
    let (n, hdr) ← rmLift (sampNum hdr)
    rmResize (toU 8 (n * r.bps))
    pure ⟨hdr, ← rmSamplesFix⟩

end Sedaman
