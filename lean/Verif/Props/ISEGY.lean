import Verif.Lemmas.OpenOf
import Verif.Model.TextHdr
import Verif.Props.BinHeader

/-!
# Properties C18, C19 and C30 to C35: reading SEG-Y files
-/

namespace Sedaman.Props

open Spec

/-! Small files for the examples. -/

/-- One trace header field map: the field record number and the number of samples. -/
def exMap : HdrMap := [⟨"SEG00000", [⟨8, "FFID", .i32⟩, ⟨114, "SAMP_NUM", .i16⟩]⟩]

/-- A 240 byte header block: field record number and number of samples. -/
def exBlock (ffid n : Int) : Bytes :=
  List.replicate 8 0 ++ writeI32 .be ffid ++ List.replicate 102 0 ++ writeI16 .be n ++
    List.replicate 124 0

/-- Text header, binary header `h` (big endian), `body`. -/
def exFile (h : BinHeader) (body : Bytes) : Bytes :=
  List.replicate 3200 0x40 ++ (binHeaderBytes .be h ++ body)

/-- Revision 0, two 16 bit samples per trace. -/
def exRev0 : BinHeader := { sampPerTr := 2, formatCode := 3 }

/-- Revision 1, variable length, 16 bit samples. -/
def exRev1 : BinHeader := { sampPerTr := 2, formatCode := 3, revMajor := 1 }

/-! ## C18 -/

/-- **C18.** From any reachable state in which `read_trace` succeeds, `read_header` succeeds too and
returns the same header and the same file position. -/
theorem C18_header_succeeds (data : Bytes) (ub : Option BinHeader) (m : HdrMap) (r rt : Reader)
    (t : Trace) (hr : Reachable data ub m r) (ht : readTrace r = .ok (t, rt)) :
    ∃ rh, readHeader r = .ok (t.header, rh) ∧ rh.file = rt.file ∧ rh.curr = rt.curr :=
  ⟨_, header_of_trace (inv_reachable hr) ht, rfl, rfl⟩

/-- **C18.** When both succeed they return the same header and leave the reader at the same
position; all that can differ afterwards is the size of an internal buffer. -/
theorem C18_same (data : Bytes) (ub : Option BinHeader) (m : HdrMap) (r rt rh : Reader)
    (t : Trace) (h : Header) (hr : Reachable data ub m r) (ht : readTrace r = .ok (t, rt))
    (hh : readHeader r = .ok (h, rh)) :
    h = t.header ∧ rh.file = rt.file ∧ rh.curr = rt.curr ∧ rh = { rt with bufLen := rh.bufLen } := by
  have := header_of_trace (inv_reachable hr) ht
  rw [hh] at this
  simp only [Except.ok.injEq, Prod.mk.injEq] at this
  obtain ⟨rfl, rfl⟩ := this
  exact ⟨rfl, rfl, rfl, rfl⟩

/-- A fixed length file with one trace: header and samples are read, and the position is the end
of the file in both cases. -/
example :
    (do let r ← openReader (exFile exRev0 (exBlock 7 2 ++ [0, 5, 0xff, 0xfe])) none exMap
        let (t, rt) ← readTrace r
        let (h, rh) ← readHeader r
        pure (t.header, t.samples, h, rt.file.pos, rh.file.pos)) =
      .ok ([("FFID", .int 7), ("SAMP_NUM", .int 2)], [dblOfInt 5, dblOfInt (-2)],
        [("FFID", .int 7), ("SAMP_NUM", .int 2)], 3844, 3844) := by decide +kernel

/-! ## C19 -/

/-- **C19.** Open a file whose bytes between the first trace position and the end of the data are
the traces `ts`, one after the other. The loop over `has_trace` meets each of them once, in order,
and nothing else. -/
theorem C19_visits (data : Bytes) (ub : Option BinHeader) (m : HdrMap) (r : Reader)
    (ho : openReader data ub m = .ok r) (head rest : Bytes) (chunks : List Bytes)
    (ts : List Trace) (hc : List.Forall₂ (IsTrace r) chunks ts)
    (hd : data = head ++ (chunks.flatten ++ rest)) (hp : r.file.pos = head.length)
    (he : r.endData = head.length + chunks.flatten.length) :
    Visits r ts ∧ ts.length = chunks.length := by
  obtain ⟨-, -, -, -, -, -, -, -, -, -, -, -, -, -, hcurr, -⟩ := openReader_ok ho
  exact ⟨visits_opened (inv_opened ho) hc head rest hd hp hcurr he, hc.length_eq.symm⟩

theorem forall2_of_exists {α β : Type} {R : α → β → Prop} {l : List α} (h : ∀ a ∈ l, ∃ b, R a b) :
    ∃ l', List.Forall₂ R l l' := by
  induction l with
  | nil => exact ⟨[], .nil⟩
  | cons a l ih =>
    obtain ⟨b, hb⟩ := h a List.mem_cons_self
    obtain ⟨l', hl'⟩ := ih fun x hx => h x (List.mem_cons_of_mem _ hx)
    exact ⟨b :: l', .cons hb hl'⟩

/-- **C19, fixed length.** The traces may be any bytes: `n` pieces of the length given by the
binary header (header blocks and samples) are `n` traces, and the loop meets exactly these. -/
theorem C19_fixed (data : Bytes) (ub : Option BinHeader) (m : HdrMap) (r : Reader)
    (ho : openReader data ub m = .ok r) (hm : MapInBounds m)
    (hfix : r.bh.fixedTrLength ≠ 0 ∨ r.bh.revMajor = 0)
    (hmax : 0 ≤ r.bh.maxNumAddTrHeaders ∧ r.bh.maxNumAddTrHeaders < 2 ^ 31 - 1)
    (head rest : Bytes) (chunks : List Bytes)
    (hl : ∀ c ∈ chunks, (c.length : Int) = 240 * (r.bh.maxNumAddTrHeaders + 1) + r.spt * r.bps)
    (hd : data = head ++ (chunks.flatten ++ rest)) (hp : r.file.pos = head.length)
    (he : r.endData = head.length + chunks.flatten.length) :
    ∃ ts, List.Forall₂ (IsTrace r) chunks ts ∧ ts.length = chunks.length ∧ Visits r ts := by
  have hi := inv_opened ho
  have hf : fixedLength r.bh = true := by
    unfold fixedLength
    rcases hfix with h | h <;> simp [h]
  have hb := hi.fix hf
  obtain ⟨ts, hts⟩ := forall2_of_exists (l := chunks) (R := IsTrace r) fun c hc =>
    isTrace_fixed hi hf hm hmax (by have := hl c hc; unfold hdrBlocks; omega)
  obtain ⟨h1, h2⟩ := C19_visits data ub m r ho head rest chunks ts hts hd hp he
  exact ⟨ts, hts, h2, h1⟩

/-- **C19, variable length.** A piece is a trace when its header blocks announce in `SAMP_NUM` the
number of samples that follow. -/
theorem C19_variable (data : Bytes) (ub : Option BinHeader) (m : HdrMap) (r : Reader)
    (ho : openReader data ub m = .ok r)
    (hvar : r.bh.fixedTrLength = 0 ∧ r.bh.revMajor ≠ 0) (hmax : 0 ≤ r.bh.maxNumAddTrHeaders)
    (head rest : Bytes) (chunks : List Bytes)
    (hl : ∀ c ∈ chunks, ∃ h f, ∃ n : Nat,
      readTrcHeader { r with file := ⟨c, 0⟩ } = .ok (h, f) ∧ h.get "SAMP_NUM" = some (.int n) ∧
      n * r.bps < 2 ^ 63 ∧
      (c.length : Int) = 240 * (r.bh.maxNumAddTrHeaders + 1) + (n : Int) * r.bps)
    (hd : data = head ++ (chunks.flatten ++ rest)) (hp : r.file.pos = head.length)
    (he : r.endData = head.length + chunks.flatten.length) :
    ∃ ts, List.Forall₂ (IsTrace r) chunks ts ∧ ts.length = chunks.length ∧ Visits r ts := by
  have hi := inv_opened ho
  have hf : fixedLength r.bh = false := by
    unfold fixedLength
    simp [hvar.1, hvar.2]
  obtain ⟨ts, hts⟩ := forall2_of_exists (l := chunks) (R := IsTrace r) fun c hc => by
    obtain ⟨h, f, n, h1, h2, h3, h4⟩ := hl c hc
    obtain ⟨t, ht, -⟩ := isTrace_var hi hf hmax h1 h2 h3
      (by have : ((n * r.bps : Nat) : Int) = (n : Int) * r.bps := by push_cast; ring
          unfold hdrBlocks; omega)
    exact ⟨t, ht⟩
  obtain ⟨h1, h2⟩ := C19_visits data ub m r ho head rest chunks ts hts hd hp he
  exact ⟨ts, hts, h2, h1⟩

/-- Two traces of different length in a revision 1 file; `has_trace` is true, true, false. -/
example :
    (do let r ← openReader (exFile exRev1 (exBlock 7 1 ++ [0, 5] ++ exBlock 8 3 ++
              [0, 1, 0, 2, 0, 3])) none exMap
        let (t1, r1) ← readTrace r
        let (t2, r2) ← readTrace r1
        pure (hasTrace r, t1.samples.length, hasTrace r1, t2.header.get "FFID", t2.samples.length,
          hasTrace r2)) =
      .ok (true, 1, true, some (.int 8), 3, false) := by decide +kernel

/-! ## C30: extended text headers, reading -/

/-- **C30, reading.** A positive count `n`: the reader returns the text header and the `n` records
behind the binary header, and without a byte offset the traces start right after them. -/
theorem C30_read_counted (text bin rest : Bytes) (exts : List Bytes) (ub : Option BinHeader)
    (m : HdrMap) (r : Reader) (ht : text.length = 3200) (hb : bin.length = 400)
    (hl : ∀ t ∈ exts, t.length = 3200)
    (ho : openReader (text ++ (bin ++ (exts.flatten ++ rest))) ub m = .ok r)
    (hn : r.bh.extTextHeadersNum = exts.length) :
    r.texts = text :: exts ∧
      (r.bh.byteOffOfFirstTr = 0 → r.file.pos = 3600 + 3200 * exts.length) := by
  obtain ⟨ex, f2, -, -, -, -, -, -, -, hx, htx, hpos, -⟩ := openReader_ok ho
  have e1 : (text ++ (bin ++ (exts.flatten ++ rest))).take 3200 = text := List.take_left' ht
  have key : readExtText r.bh.extTextHeadersNum ⟨text ++ (bin ++ (exts.flatten ++ rest)), 3600⟩ =
      .ok (exts, ⟨text ++ (bin ++ (exts.flatten ++ rest)), 3600 + 3200 * exts.length⟩) := by
    rw [hn]
    by_cases h0 : exts = []
    · subst h0; exact readExtText_none _
    · have := readExtText_count (text ++ bin) rest exts hl h0
      rw [List.append_assoc, List.length_append, ht, hb] at this
      exact this
  rw [key] at hx
  simp only [Except.ok.injEq, Prod.mk.injEq] at hx
  obtain ⟨rfl, rfl⟩ := hx
  refine ⟨by rw [htx, e1], fun h0 => ?_⟩
  rw [if_neg (by simp [h0])] at hpos
  exact hpos

/-- **C30, reading.** The count -1: the records up to and including the first one that starts with
`((SEG: EndText))`. -/
theorem C30_read_delimited (text bin rest last : Bytes) (init : List Bytes) (ub : Option BinHeader)
    (m : HdrMap) (r : Reader) (ht : text.length = 3200) (hb : bin.length = 400)
    (hl : ∀ t ∈ init ++ [last], t.length = 3200) (hlast : ascii "((SEG: EndText))" <+: last)
    (hinit : ∀ t ∈ init, ¬ ascii "((SEG: EndText))" <+: t)
    (ho : openReader (text ++ (bin ++ ((init ++ [last]).flatten ++ rest))) ub m = .ok r)
    (hn : r.bh.extTextHeadersNum = -1) :
    r.texts = text :: (init ++ [last]) ∧
      (r.bh.byteOffOfFirstTr = 0 → r.file.pos = 3600 + 3200 * (init.length + 1)) := by
  have hend : ascii "((SEG: EndText))" = endText := by decide +kernel
  rw [hend] at hlast hinit
  have he : ∀ t, isEndText t = true ↔ endText <+: t := by
    intro t
    unfold isEndText
    rw [beq_iff_eq, List.prefix_iff_eq_take, eq_comm]
  obtain ⟨ex, f2, -, -, -, -, -, -, -, hx, htx, hpos, -⟩ := openReader_ok ho
  have e1 : (text ++ (bin ++ ((init ++ [last]).flatten ++ rest))).take 3200 = text :=
    List.take_left' ht
  have key := readExtText_end (text ++ bin) rest init last
    (fun t h => hl t (List.mem_append_left _ h))
    (fun t h => by
      have := hinit t h
      rw [← he] at this
      simpa using this)
    (hl last (by simp)) ((he last).2 hlast)
  rw [List.append_assoc, List.length_append, ht, hb] at key
  rw [hn, key] at hx
  simp only [Except.ok.injEq, Prod.mk.injEq] at hx
  obtain ⟨rfl, rfl⟩ := hx
  refine ⟨by rw [htx, e1], fun h0 => ?_⟩
  rw [if_neg (by simp [h0])] at hpos
  exact hpos

/-- Two extended headers, the second one the end stanza, found through the count -1. -/
example :
    (do let r ← openReader (exFile { exRev1 with extTextHeadersNum := -1 }
              (List.replicate 3200 0x41 ++ (ascii "((SEG: EndText))" ++ List.replicate 3184 0))) none exMap
        pure (r.texts.length, r.file.pos)) = .ok (3, 10000) := by decide +kernel

/-! ## C31: user supplied binary header -/

/-- **C31.** With a user supplied header everything except the endianness marker is taken from it;
bytes 97 to 100 of the file's header decide the byte order. -/
theorem C31_override (data : Bytes) (b : BinHeader) (m : HdrMap) (r : Reader)
    (h : openReader data (some b) m = .ok r) :
    r.bh = { b with endianness := decInt .le ((data.drop 3296).take 4) } ∧
      byteOrderOf (decInt .le ((data.drop 3296).take 4)) = .ok r.bo := by
  obtain ⟨-, -, -, -, -, hlen, hf, -⟩ := openReader_ok h
  have e : (((data.drop 3200).take 400).drop 96).take 4 = (data.drop 3296).take 4 := by
    rw [List.drop_take, List.drop_drop, List.take_take]
    rfl
  have e2 : decInt .le ((data.drop 3296).take 4) = toS 4 (leVal ((data.drop 3296).take 4)) := by
    have : ((data.drop 3296).take 4).length = 4 := by simp; omega
    rw [decInt_eq, decNat_le, this]
  unfold fillBinHeader at hf
  simp only [e, Option.isSome_some, if_true] at hf
  obtain ⟨bo, h1, h2⟩ := bind_ok hf
  simp only [pure_eq_ok, Except.ok.injEq, Prod.mk.injEq] at h2
  obtain ⟨rfl, h2⟩ := h2
  rw [e2]
  exact ⟨h2.symm, h1⟩

/-- The file says three samples of format 5 in little endian order; the user says two of format 3. -/
example :
    (do let r ← openReader (List.replicate 3200 0 ++ binHeaderBytes .le
            { sampPerTr := 3, formatCode := 5, endianness := 0x01020304 } ++ exBlock 7 2 ++
            [5, 0, 1, 0]) (some exRev0) exMap
        let (t, _) ← readTrace r
        pure (r.bh, t.samples)) =
      .ok ({ exRev0 with endianness := 0x01020304 }, [dblOfInt 5, dblOfInt 1]) := by
  decide +kernel

/-! ## C32: samples per trace -/

/-- **C32.** The number of samples per trace is the extended count when it is not zero, else the
16 bit count read as an unsigned number; in a fixed length file every trace read has that many
samples. -/
theorem C32_decision (data : Bytes) (ub : Option BinHeader) (m : HdrMap) (r : Reader)
    (h : openReader data ub m = .ok r) :
    (r.bh.extSampPerTr ≠ 0 → r.spt = r.bh.extSampPerTr) ∧
    (r.bh.extSampPerTr = 0 → 0 ≤ r.spt ∧ r.spt < 65536 ∧ (r.spt - r.bh.sampPerTr) % 65536 = 0) := by
  obtain ⟨-, -, -, -, -, -, -, -, -, -, -, -, -, hs, -⟩ := openReader_ok h
  rw [hs]
  unfold samplesPerTrace
  refine ⟨fun h0 => by rw [if_pos h0], fun h0 => ?_⟩
  rw [if_neg (by simp [h0])]
  unfold toU
  norm_num
  omega

theorem reachable_spt {data : Bytes} {ub : Option BinHeader} {m : HdrMap} {r : Reader}
    (hr : Reachable data ub m r) :
    ∃ r0, openReader data ub m = .ok r0 ∧ r.bh = r0.bh ∧ r.spt = r0.spt ∧ r.bps = r0.bps ∧
      r.endData = r0.endData ∧ r.bo = r0.bo := by
  induction hr with
  | opened h => exact ⟨_, h, rfl, rfl, rfl, rfl, rfl⟩
  | header _ h ih =>
    obtain ⟨h0, off, -, -, -, rfl⟩ := readHeader_ok h
    exact ih
  | trace _ h ih =>
    obtain ⟨h0, n, buf, rd, rest, -, -, -, -, -, rfl⟩ := readTrace_ok h
    exact ih
  | moved p _ ih => exact ih

/-- **C32.** In a fixed length file every trace has the number of samples of `C32_decision`. -/
theorem C32_every_trace (data : Bytes) (ub : Option BinHeader) (m : HdrMap) (r r' : Reader)
    (t : Trace) (hr : Reachable data ub m r) (hfix : r.bh.fixedTrLength ≠ 0 ∨ r.bh.revMajor = 0)
    (ht : readTrace r = .ok (t, r')) : (t.samples.length : Int) = r.spt := by
  have hi := inv_reachable hr
  have hf : fixedLength r.bh = true := by
    unfold fixedLength
    rcases hfix with h | h <;> simp [h]
  obtain ⟨h0, n, buf, rd, rest, -, h2, -, -, h5, -⟩ := readTrace_ok ht
  have h6 := (sampleBytes_ok hi.buf h2).2
  rw [if_pos hf] at h6
  obtain ⟨k, rd', hk, hk0, -⟩ := decodeSamples_total hi.fmt r.bo
  rw [hi.bps] at hk
  have hk := Option.some.inj hk
  subst hk
  rw [decodeSamples_length h5, h6.1]
  have h7 := hi.fix hf
  have h8 := Int.ediv_eq_of_eq_mul_left (c := r.spt) (by omega : (r.bps : Int) ≠ 0) h7
  rw [← h8]
  push_cast
  rfl

/-- 40000 samples per trace, stored as the negative 16 bit number -25536. -/
example :
    (do let r ← openReader (exFile { sampPerTr := -25536, formatCode := 8 } []) none exMap
        pure r.spt) = .ok 40000 := by decide +kernel

/-! ## C33: first trace position -/

/-- **C33.** The first trace is expected at the byte offset of the binary header when that is not
zero, else right after the text header, the binary header and the extended text headers read. -/
theorem C33_position (data : Bytes) (ub : Option BinHeader) (m : HdrMap) (r : Reader)
    (h : openReader data ub m = .ok r) :
    (r.bh.byteOffOfFirstTr = 0 → r.file.pos = 3600 + 3200 * (r.texts.length - 1)) ∧
    (r.bh.byteOffOfFirstTr ≠ 0 → 0 ≤ r.bh.byteOffOfFirstTr → r.bh.byteOffOfFirstTr < 2 ^ 64 →
      (r.file.pos : Int) = r.bh.byteOffOfFirstTr) ∧ r.curr = r.file.pos := by
  obtain ⟨ex, f2, -, -, -, -, -, -, -, hx, htx, hpos, -, -, hc, -⟩ := openReader_ok h
  have hf2 := readExtText_file hx
  refine ⟨fun h0 => ?_, fun h0 hnn hlt => ?_, hc⟩
  · rw [if_neg (by simp [h0])] at hpos
    rw [hpos, hf2, htx]
    simp
  · rw [if_pos h0] at hpos
    rw [hpos]
    have hu := toU_nat_of_nonneg hnn hlt
    by_cases hb : toU 8 r.bh.byteOffOfFirstTr < 2 ^ 63
    · rw [toS_small hb, hu]
    · exfalso
      have h64 : toU 8 r.bh.byteOffOfFirstTr < 2 ^ 64 := by omega
      unfold toS at hpos
      norm_num at hpos
      rw [if_neg (by omega)] at hpos
      omega

/-- A revision 2 file whose traces start 100 bytes after the headers. -/
example :
    (do let r ← openReader (exFile { exRev1 with revMajor := 2, byteOffOfFirstTr := 3700 }
            (List.replicate 100 0 ++ exBlock 9 0)) none exMap
        let (h, _) ← readHeader r
        pure (r.file.pos, h.get "FFID")) = .ok (3700, some (.int 9)) := by decide +kernel

/-! ## C34: truncated files -/

theorem readBlocks_short (bo : ByteOrder) (m : HdrMap) (hm : MapInBounds m) (n i : Nat) (f : File)
    (hi : i + n ≤ m.length) (hn : 0 < n) (hl : f.data.length < f.pos + 240 * n) (acc : Header) :
    readBlocks bo m n i f acc = throwExn .iosFailure := by
  induction n generalizing i f acc with
  | zero => omega
  | succ n ih =>
    unfold readBlocks
    rw [List.getElem?_eq_getElem (by omega)]
    simp only
    by_cases hs : f.data.length < f.pos + 240
    · rw [read_fail (by decide) hs]
      rfl
    · obtain ⟨⟨buf, f'⟩, hp⟩ := (read_iff f trHeaderSize).2 (.inr (by unfold trHeaderSize; omega))
      obtain ⟨-, hbl, rfl⟩ := read_ok hp
      obtain ⟨a, ha⟩ := readFields_total bo m[i].fields buf hbl (hm _ (List.getElem_mem _)) acc
      rw [hp, ok_bind]
      simp only
      rw [ha, ok_bind]
      exact ih (i + 1) ⟨f.data, f.pos + trHeaderSize⟩ (by omega) (by omega)
        (by simp only [trHeaderSize]; omega) a

/-- **C34.** If the file ends inside the header blocks of the next trace, `read_trace` and
`read_header` throw. -/
theorem C34_short_header (data : Bytes) (ub : Option BinHeader) (m : HdrMap) (r : Reader)
    (hr : Reachable data ub m r) (hm : MapInBounds m)
    (hmax : 0 ≤ r.bh.maxNumAddTrHeaders ∧ r.bh.maxNumAddTrHeaders + 1 ≤ m.length ∧
      r.bh.maxNumAddTrHeaders < 2 ^ 31 - 1)
    (hs : (data.length : Int) < r.file.pos + 240 * (r.bh.maxNumAddTrHeaders + 1)) :
    readTrace r = throwExn .iosFailure ∧ readHeader r = throwExn .iosFailure := by
  have hi := inv_reachable hr
  have key : readTrcHeader r = throwExn .iosFailure := by
    unfold readTrcHeader
    rw [if_neg (by omega)]
    apply readBlocks_short r.bo r.map (by rw [hi.map]; exact hm)
    · rw [hi.map]; omega
    · omega
    · rw [hi.data]; omega
  constructor
  · rw [readTrace_eq, key]; rfl
  · unfold readHeader; rw [key]; rfl

/-- **C34, fixed length.** If the file ends inside the samples, `read_trace` throws. -/
theorem C34_short_samples_fixed (data : Bytes) (ub : Option BinHeader) (m : HdrMap) (r : Reader)
    (hr : Reachable data ub m r) (hm : MapInBounds m)
    (hfix : r.bh.fixedTrLength ≠ 0 ∨ r.bh.revMajor = 0)
    (hmax : 0 ≤ r.bh.maxNumAddTrHeaders ∧ r.bh.maxNumAddTrHeaders < 2 ^ 31 - 1)
    (hh : (r.file.pos : Int) + 240 * (r.bh.maxNumAddTrHeaders + 1) ≤ data.length)
    (hs : (data.length : Int) < r.file.pos + 240 * (r.bh.maxNumAddTrHeaders + 1) + r.spt * r.bps) :
    readTrace r = throwExn .iosFailure := by
  have hi := inv_reachable hr
  have hf : fixedLength r.bh = true := by
    unfold fixedLength
    rcases hfix with h | h <;> simp [h]
  have hb := hi.fix hf
  have hblk : (hdrBlocks r.bh : Int) = r.bh.maxNumAddTrHeaders + 1 := by unfold hdrBlocks; omega
  obtain ⟨h0, h1⟩ := readTrcHeader_total (r := r) (by rw [hi.map]; exact hm) hmax.2
    (by rw [hi.data]; omega)
  rw [readTrace_eq, h1, ok_bind]
  simp only
  unfold sampleBytes
  rw [if_pos hf, ok_bind]
  simp only
  unfold readSamplesFix
  rw [read_fail (by omega) (by simp only [hi.data]; omega)]
  rfl

/-- **C34, variable length.** The same, with the number of samples announced by the header that was
just read. -/
theorem C34_short_samples_variable (data : Bytes) (ub : Option BinHeader) (m : HdrMap) (r : Reader)
    (hr : Reachable data ub m r) (hvar : r.bh.fixedTrLength = 0 ∧ r.bh.revMajor ≠ 0)
    (h : Header) (f : File) (n : Nat) (hh : readTrcHeader r = .ok (h, f))
    (hn : h.get "SAMP_NUM" = some (.int n)) (hn0 : 0 < n) (hn1 : n * r.bps < 2 ^ 63)
    (hs : data.length < f.pos + n * r.bps) :
    readTrace r = throwExn .iosFailure := by
  have hi := inv_reachable hr
  have hf : fixedLength r.bh = false := by
    unfold fixedLength
    simp [hvar.1, hvar.2]
  have hfd : f.data = data := by rw [readTrcHeader_file hh]; exact hi.data
  obtain ⟨k, rd', hk, hk0, -⟩ := decodeSamples_total hi.fmt r.bo
  rw [hi.bps] at hk
  have hk := Option.some.inj hk
  subst hk
  have hu : toU 8 ((n : Int) * (r.bps : Int)) = n * r.bps := by
    rw [← Int.natCast_mul, toU_of_nat_lt (by omega)]
  have hsn : sampNum h = .ok ((n : Int), h) := by
    unfold sampNum Header.at
    rw [hn]
  rw [readTrace_eq, hh, ok_bind]
  simp only
  unfold sampleBytes
  simp only [hf, Bool.false_eq_true, if_false]
  rw [hsn, ok_bind]
  simp only [hu]
  rw [if_neg (by omega)]
  simp only [pure_eq_ok, ok_bind]
  unfold readSamplesFix
  have : 0 < n * r.bps := Nat.mul_pos hn0 hk0
  rw [read_fail (by omega) (by rw [hfd]; exact hs)]
  rfl

/-- **C34.** A trace that is returned consists of bytes of the file: it is what the same reader
finds in the piece of the file between the positions before and after the call. -/
theorem C34_bytes_of_file (data : Bytes) (ub : Option BinHeader) (m : HdrMap) (r r' : Reader)
    (t : Trace) (hr : Reachable data ub m r) (hm : MapInBounds m)
    (hmax : 0 ≤ r.bh.maxNumAddTrHeaders ∧ r.bh.maxNumAddTrHeaders + 1 ≤ m.length ∧
      r.bh.maxNumAddTrHeaders < 2 ^ 31 - 1)
    (ht : readTrace r = .ok (t, r')) :
    r.file.pos + 240 ≤ r'.file.pos ∧ r'.file.pos ≤ data.length ∧
      IsTrace r ((data.drop r.file.pos).take (r'.file.pos - r.file.pos)) t := by
  have hi := inv_reachable hr
  have hblk := hdrBlocks_pos hmax.1
  obtain ⟨h0, n, buf, rd, rest, h1, h2, h3, h4, h5, rfl⟩ := readTrace_ok ht
  rw [hi.data] at h1 h3
  have hend : r.file.pos + 240 * hdrBlocks r.bh + n ≤ data.length := by
    have ha : r.file.pos + 240 * hdrBlocks r.bh ≤ data.length := by
      by_contra hc
      have := (C34_short_header data ub m r hr hm hmax
        (by unfold hdrBlocks at hc; omega)).1
      rw [ht] at this
      cases this
    rcases (read_iff _ _).1 ⟨_, h3⟩ with hz | hz
    · omega
    · exact hz
  simp only
  refine ⟨by omega, hend, ?_⟩
  generalize hc : (data.drop r.file.pos).take (r.file.pos + 240 * hdrBlocks r.bh + n - r.file.pos) = c
  have hcl : c.length = 240 * hdrBlocks r.bh + n := by rw [← hc]; simp; omega
  have hsplit : data = data.take r.file.pos ++ (c ++ data.drop (r.file.pos + 240 * hdrBlocks r.bh + n)) := by
    rw [← hc]
    conv_lhs => rw [← List.take_append_drop r.file.pos data]
    congr 1
    conv_lhs => rw [← List.take_append_drop (r.file.pos + 240 * hdrBlocks r.bh + n - r.file.pos)
      (data.drop r.file.pos), List.drop_drop]
    congr 2
    omega
  have hplen : (data.take r.file.pos).length = r.file.pos := by simp; omega
  obtain ⟨g0, g1⟩ := readTrcHeader_total (r := { r with file := ⟨c, 0⟩ })
    (by simp only [hi.map]; exact hm) hmax.2.2 (by simp only; omega)
  have g2 := (readTrcHeader_frame rfl g1).2 (data.take r.file.pos)
    (data.drop (r.file.pos + 240 * hdrBlocks r.bh + n))
  rw [← hsplit, hplen] at g2
  have e0 : { r with file := ⟨data, r.file.pos⟩ } = r := by rw [← hi.data]
  simp only [Nat.add_zero, Nat.zero_add] at g2 g1
  rw [e0, h1] at g2
  simp only [Except.ok.injEq, Prod.mk.injEq, File.mk.injEq] at g2
  obtain ⟨rfl, -⟩ := g2
  have g3 : File.read ⟨c, 240 * hdrBlocks r.bh⟩ n = .ok (buf, ⟨c, 240 * hdrBlocks r.bh + n⟩) := by
    obtain ⟨⟨buf', f'⟩, hp⟩ := (read_iff ⟨c, 240 * hdrBlocks r.bh⟩ n).2 (.inr (by simp only; omega))
    have h6 := (read_frame hp (data.take r.file.pos)
      (data.drop (r.file.pos + 240 * hdrBlocks r.bh + n)))
    rw [← hsplit, hplen] at h6
    obtain ⟨rfl, h6⟩ := h6
    rw [h3] at h6
    simp only [Except.ok.injEq, Prod.mk.injEq] at h6
    rw [hp, h6.1]
  refine ⟨?_, _, readTrace_of (r := { r with file := ⟨c, 0⟩ }) g1 h2 g3 h4 h5, hcl.symm⟩
  intro hz
  rw [hz] at hcl
  simp at hcl
  omega

/-- **C34.** A file shorter than the text and binary headers cannot be opened. -/
theorem C34_short_file (data : Bytes) (ub : Option BinHeader) (m : HdrMap)
    (hm : checkMap (initHeader ub) m = .ok ()) (hs : data.length < 3600) :
    openReader data ub m = throwExn .iosFailure := by
  unfold openReader
  rw [hm, ok_bind]
  simp only
  by_cases h1 : data.length < 3200
  · rw [read_fail (by decide) (by simp only [textHeaderSize]; omega)]
    rfl
  · obtain ⟨⟨text, f1⟩, hp⟩ := (read_iff ⟨data, 0⟩ textHeaderSize).2
      (.inr (by simp only [textHeaderSize]; omega))
    obtain ⟨-, -, rfl⟩ := read_ok hp
    rw [hp, ok_bind]
    simp only
    rw [read_fail (by decide) (by simp only [textHeaderSize, binHeaderSize]; omega)]
    rfl

/-- The file of C18 cut anywhere: opening throws before byte 3600, reading the trace throws before
byte 3844. Shown at five places. -/
example : [0, 3599, 3600, 3839, 3843].map (fun n =>
    (do let r ← openReader ((exFile exRev0 (exBlock 7 2 ++ [0, 5, 0xff, 0xfe])).take n) none exMap
        let (t, _) ← readTrace r
        pure t.samples.length)) = List.replicate 5 (throwExn .iosFailure) := by decide +kernel

/-! ## C35: progress -/

/-- **C35.** `read_trace` moves forward by at least one header block. -/
theorem C35_read_trace (data : Bytes) (ub : Option BinHeader) (m : HdrMap) (r r' : Reader)
    (t : Trace) (_hr : Reachable data ub m r) (hmax : 0 ≤ r.bh.maxNumAddTrHeaders)
    (ht : readTrace r = .ok (t, r')) :
    r.file.pos + 240 ≤ r'.file.pos ∧ r'.curr = r'.file.pos := by
  have hblk := hdrBlocks_pos hmax
  obtain ⟨h0, n, buf, rd, rest, h1, h2, h3, h4, h5, rfl⟩ := readTrace_ok ht
  exact ⟨by simp only; omega, rfl⟩

/-- **C35.** `read_header` moves forward by at least one header block in fixed length files, and in
variable length files when the trace does not announce a negative number of samples. -/
theorem C35_read_header_partial (data : Bytes) (ub : Option BinHeader) (m : HdrMap) (r r' : Reader)
    (h : Header) (hr : Reachable data ub m r) (hmax : 0 ≤ r.bh.maxNumAddTrHeaders)
    (hn : r.bh.fixedTrLength = 0 → r.bh.revMajor ≠ 0 →
      ∃ n : Nat, h.get "SAMP_NUM" = some (.int n) ∧ n * r.bps < 2 ^ 63)
    (ht : readHeader r = .ok (h, r')) :
    r.file.pos + 240 ≤ r'.file.pos ∧ r'.curr = r'.file.pos := by
  have hi := inv_reachable hr
  have hblk := hdrBlocks_pos hmax
  obtain ⟨h0, off, h1, h2, h3, rfl⟩ := readHeader_ok ht
  refine ⟨?_, rfl⟩
  have hoff : 0 ≤ off := by
    by_cases hf : fixedLength r.bh = true
    · rw [if_pos hf] at h2
      have := hi.spt
      rw [h2.1] at this
      have e := Except.ok.inj this.2
      omega
    · rw [if_neg hf] at h2
      obtain ⟨k, h4, rfl⟩ := h2
      unfold fixedLength at hf
      simp only [ne_eq, Bool.or_eq_true, decide_eq_true_eq, not_or, Decidable.not_not] at hf
      obtain ⟨n, hn1, hn2⟩ := hn hf.1 hf.2
      have : k = (n : Int) := by
        unfold sampNum Header.at at h4
        cases hg : h0.get "SAMP_NUM" with
        | none =>
          rw [hg] at h4
          simp only [Except.ok.injEq, Prod.mk.injEq] at h4
          obtain ⟨rfl, rfl⟩ := h4
          rw [get_set, if_pos rfl] at hn1
          simpa using hn1
        | some v =>
          rw [hg] at h4
          cases v with
          | int x =>
            simp only [Except.ok.injEq, Prod.mk.injEq] at h4
            obtain ⟨rfl, rfl⟩ := h4
            rw [hg] at hn1
            simpa using hn1
          | dbl d => cases h4
      rw [this, ← Int.natCast_mul, toU_of_nat_lt (by omega), toS_small hn2]
      omega
  simp only
  omega

/-- `n` successive calls of `read_trace`. -/
def readMany : Nat → Reader → Out (List Trace × Reader)
  | 0, r => .ok ([], r)
  | n + 1, r => do
    let (t, r) ← readTrace r
    let (ts, r) ← readMany n r
    pure (t :: ts, r)

/-- **C35.** A loop over `read_trace` ends: `n` successful reads need at least `240 n` bytes after
the position they start from. -/
theorem C35_read_trace_terminates (data : Bytes) (ub : Option BinHeader) (m : HdrMap)
    (r r' : Reader) (n : Nat) (ts : List Trace) (hr : Reachable data ub m r) (hm : MapInBounds m)
    (hmax : 0 ≤ r.bh.maxNumAddTrHeaders ∧ r.bh.maxNumAddTrHeaders + 1 ≤ m.length ∧
      r.bh.maxNumAddTrHeaders < 2 ^ 31 - 1)
    (hrun : readMany n r = .ok (ts, r')) : n = 0 ∨ r.file.pos + 240 * n ≤ data.length := by
  induction n generalizing r ts with
  | zero => exact .inl rfl
  | succ n ih =>
    right
    unfold readMany at hrun
    obtain ⟨⟨t, r1⟩, h1, hrun⟩ := bind_ok hrun
    obtain ⟨⟨ts', r2⟩, h2, hrun⟩ := bind_ok hrun
    simp only [pure_eq_ok, Except.ok.injEq, Prod.mk.injEq] at hrun
    obtain ⟨-, rfl⟩ := hrun
    obtain ⟨g1, g2, -⟩ := C34_bytes_of_file data ub m r r1 t hr hm hmax h1
    have hbh : r1.bh = r.bh := by
      obtain ⟨h0, k, buf, rd, rest, -, -, -, -, -, rfl⟩ := readTrace_ok h1
      rfl
    rcases ih r1 ts' (.trace hr h1) (by rw [hbh]; exact hmax) h2 with h | h <;> omega

/-- **C35 fails for `read_header`.** A variable length file with 4 byte samples whose first trace
announces -60 samples: `read_header` succeeds and leaves the reader exactly where it was, so a loop
over `has_trace` and `read_header` never ends. -/
theorem C35_negative_count_stalls :
    ∃ data m r h, MapInBounds m ∧ openReader data none m = .ok r ∧ hasTrace r = true ∧
      readHeader r = .ok (h, r) := by
  refine ⟨exFile { exRev1 with formatCode := 5 } (exBlock 7 (-60)), exMap, ?_⟩
  have e : ∃ r h, openReader (exFile { exRev1 with formatCode := 5 } (exBlock 7 (-60))) none exMap = .ok r ∧
      hasTrace r = true ∧ readHeader r = .ok (h, r) := by
    cases ho : openReader (exFile { exRev1 with formatCode := 5 } (exBlock 7 (-60))) none exMap with
    | error e =>
      exfalso
      have : (openReader (exFile { exRev1 with formatCode := 5 } (exBlock 7 (-60))) none exMap).isOk = true := by
        decide +kernel
      rw [ho] at this
      cases this
    | ok r =>
      have : (do let r ← openReader (exFile { exRev1 with formatCode := 5 } (exBlock 7 (-60))) none exMap
                 pure (decide (hasTrace r = true ∧
                  readHeader r = Except.ok ([("FFID", Value.int 7), ("SAMP_NUM", Value.int (-60))], r)))) =
                (Except.ok true : Out Bool) := by
        decide +kernel
      rw [ho, ok_bind] at this
      exact ⟨r, _, rfl, of_decide_eq_true (Except.ok.inj this)⟩
  obtain ⟨r, h, h1, h2, h3⟩ := e
  exact ⟨r, h, by decide +kernel, h1, h2, h3⟩

end Sedaman.Props
