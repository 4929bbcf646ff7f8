import Verif.Lemmas.Mirror
import Verif.Lemmas.MirrorStanza
import Verif.Props.ISEGY
import Verif.Props.SegyCut

/-!
# Properties of files in both byte orders
-/

namespace Sedaman.Props

open Spec

set_option maxRecDepth 20000

theorem fill_marker {init bh : BinHeader} {ov : Bool} {b : Bytes} {bo : ByteOrder}
    (h : fillBinHeader init ov b = .ok (bo, bh)) : byteOrderOf (toS 4 (leVal ((b.drop 96).take 4))) = .ok bo := by
  unfold fillBinHeader at h
  obtain ⟨bo1, h1, h2⟩ := bind_ok h
  rw [h1]
  cases ov with
  | true =>
    rw [if_pos rfl] at h2
    rw [(Prod.mk.inj (Except.ok.inj h2)).1]
  | false =>
    rw [if_neg (by decide)] at h2
    obtain ⟨_, _, h3⟩ := bind_ok h2
    rw [(Prod.mk.inj (Except.ok.inj h3)).1]

theorem forall2_mirror {data : Bytes} {m : HdrMap} {r : Reader} (hi : Inv data m r) {bo' : ByteOrder} (hbo : r.bo ≠ bo')
    {cs cs' : List Bytes} {ts : List Trace} (hts : List.Forall₂ (IsTrace r) cs ts)
    (hcs : List.Forall₂ (MirrorTrace m (headerBlocks r.bh) r.bps) cs cs') {e : Int} {f : File} {ed : Nat} :
    List.Forall₂ (IsTrace { r with bo := bo', bh := { r.bh with endianness := e }, file := f, endData := ed }) cs' ts := by
  induction hts generalizing cs' with
  | nil => cases hcs; exact .nil
  | cons h1 h2 ih =>
    cases hcs with
    | cons k1 k2 => exact .cons (isTrace_mirror hi hbo k1 h1) (ih k2)

theorem both_orders {text bin bin' ext : Bytes} {cs cs' : List Bytes} {ub : Option BinHeader} {m : HdrMap} {r : Reader}
    {ts : List Trace} {w : Nat} {bo bo' : ByteOrder} (ht : text.length = 3200) (hl : bin.length = 400) (hl' : bin'.length = 400)
    (hm : ∀ f ∈ binLayout, f.byte ≠ 3297 → Mirrored (f.byte - 3201) f.width bin bin')
    (hmark : byteOrderOf (toS 4 (leVal ((bin.drop 96).take 4))) = .ok bo)
    (hmark' : byteOrderOf (toS 4 (leVal ((bin'.drop 96).take 4))) = .ok bo') (hbo : bo ≠ bo')
    (ho : openReader (text ++ (bin ++ (ext ++ cs.flatten))) ub m = .ok r) (hw : bytesPerSample r.bh.formatCode = some w)
    (hpos : r.file.pos = 3600 + ext.length) (hx : headersEnd r ≤ r.file.pos) (htr : r.bh.numOfTrailerStanza = 0)
    (hts : List.Forall₂ (IsTrace r) cs ts) (hcs : List.Forall₂ (MirrorTrace m (headerBlocks r.bh) w) cs cs') :
    ∃ r' e, openReader (text ++ (bin' ++ (ext ++ cs'.flatten))) ub m = .ok r' ∧ r'.bh = { r.bh with endianness := e } ∧
      r'.texts = r.texts ∧ Visits r ts ∧ Visits r' ts := by
  have hi := inv_opened ho
  obtain rfl : w = r.bps := Option.some.inj (hw.symm.trans hi.bps)
  obtain ⟨exts, f2, rd, size, h0, h1, h3, h4, h5, h6, h7, h8, h9, h10, h11, h12, h13, h14, h15, h16⟩ := openReader_ok ho
  have hrbo : r.bo = bo := by
    rw [List.drop_left' ht, List.take_left' hl] at h3
    exact Except.ok.inj ((fill_marker h3).symm.trans hmark)
  have hed : r.endData = (text ++ (bin ++ (ext ++ cs.flatten))).length := by
    rw [readTrailers_none htr] at h9
    rw [← (Prod.mk.inj (Except.ok.inj h9)).2, h12]
  unfold headersEnd at hx
  have hxt : 3200 * (r.texts.length - 1) ≤ ext.length := by
    have : 1 ≤ r.texts.length := by rw [h7, List.length_cons]; omega
    omega
  have hopen := open_mirror (tail' := cs'.flatten) ht hl hl' hm hmark' (by rw [hrbo]; exact hbo) ho htr hxt
  have hlen (b c : Bytes) (hb : b.length = 400) : text ++ (b ++ (ext ++ c)) = (text ++ (b ++ ext)) ++ (c ++ []) ∧
      (text ++ (b ++ ext)).length = 3600 + ext.length := by
    refine ⟨by rw [List.append_nil, List.append_assoc, List.append_assoc], ?_⟩
    rw [List.length_append, List.length_append, ht, hb]
    omega
  refine ⟨_, _, hopen, rfl, rfl, ?_, ?_⟩
  · obtain ⟨e1, e2⟩ := hlen bin cs.flatten hl
    refine visits_opened hi hts _ [] e1 (hpos.trans e2.symm) h11 ?_
    rw [hed, e1, List.append_nil, List.length_append]
  · obtain ⟨e1, e2⟩ := hlen bin' cs'.flatten hl'
    refine visits_opened (inv_opened hopen) (chunks := cs') ?_ _ [] e1 (hpos.trans e2.symm) h11 ?_
    · exact forall2_mirror hi (by rw [hrbo]; exact hbo) hts hcs
    · simp only
      rw [e1, List.append_nil, List.length_append]

theorem bytes4_eq {b : Bytes} {l : Bytes} (h : (b.drop 96).take 4 = l) : toS 4 (leVal ((b.drop 96).take 4)) = toS 4 (leVal l) := by
  rw [h]

/-- **C89 (little endian like big endian).** A big endian file without trailer stanzas consists of headers and
the traces `ts`, and another file has the same text headers, and binary header and traces in little endian
order. It can be opened too, with the same texts, and a binary header that differs in the byte order marker
only. The traces of both, with all values and samples, are `ts`. -/
theorem C89_big_to_little_partial (text big little ext : Bytes) (cs cs' : List Bytes) (ub : Option BinHeader) (m : HdrMap)
    (r : Reader) (ts : List Trace) (w : Nat) (ht : text.length = 3200) (hm : MirrorBin big little)
    (ho : openReader (text ++ (big ++ (ext ++ cs.flatten))) ub m = .ok r) (hw : bytesPerSample r.bh.formatCode = some w)
    (hpos : r.file.pos = 3600 + ext.length) (hx : headersEnd r ≤ r.file.pos) (htr : r.bh.numOfTrailerStanza = 0)
    (hts : List.Forall₂ (IsTrace r) cs ts) (hcs : List.Forall₂ (MirrorTrace m (headerBlocks r.bh) w) cs cs') :
    ∃ r' e, openReader (text ++ (little ++ (ext ++ cs'.flatten))) ub m = .ok r' ∧ r'.bh = { r.bh with endianness := e } ∧
      r'.texts = r.texts ∧ Visits r ts ∧ Visits r' ts := by
  refine both_orders (bo := .be) (bo' := .le) ht hm.big400 hm.little400 hm.fields ?_ ?_ (by decide) ho hw hpos hx htr hts hcs
  · rcases hm.bigMarker with h | h <;> rw [bytes4_eq h] <;> decide
  · rw [bytes4_eq hm.littleMarker]
    decide

/-- **C89 (big endian like little endian).** The other way round. -/
theorem C89_little_to_big_partial (text big little ext : Bytes) (cs cs' : List Bytes) (ub : Option BinHeader) (m : HdrMap)
    (r : Reader) (ts : List Trace) (w : Nat) (ht : text.length = 3200) (hm : MirrorBin big little)
    (ho : openReader (text ++ (little ++ (ext ++ cs.flatten))) ub m = .ok r) (hw : bytesPerSample r.bh.formatCode = some w)
    (hpos : r.file.pos = 3600 + ext.length) (hx : headersEnd r ≤ r.file.pos) (htr : r.bh.numOfTrailerStanza = 0)
    (hts : List.Forall₂ (IsTrace r) cs ts) (hcs : List.Forall₂ (MirrorTrace m (headerBlocks r.bh) w) cs cs') :
    ∃ r' e, openReader (text ++ (big ++ (ext ++ cs'.flatten))) ub m = .ok r' ∧ r'.bh = { r.bh with endianness := e } ∧
      r'.texts = r.texts ∧ Visits r ts ∧ Visits r' ts := by
  refine both_orders (bo := .le) (bo' := .be) ht hm.little400 hm.big400 (fun f h1 h2 => mirrored_symm (hm.fields f h1 h2)) ?_ ?_
    (by decide) ho hw hpos hx htr hts hcs
  · rw [bytes4_eq hm.littleMarker]
    decide
  · rcases hm.bigMarker with h | h <;> rw [bytes4_eq h] <;> decide

/-- A binary header in both orders, a trace of two samples in both orders, and what they are read as. -/
example : MirrorBin (binHeaderBytes .be exRev0) (binHeaderBytes .le { exRev0 with endianness := 0x01020304 }) :=
  ⟨by decide +kernel, by decide +kernel, by decide +kernel, by decide +kernel, by decide +kernel⟩

def littleBlock (ffid n : Int) : Bytes :=
  List.replicate 8 0 ++ writeI32 .le ffid ++ List.replicate 102 0x77 ++ writeI16 .le n ++ List.replicate 124 0

example : MirrorTrace exMap 1 2 (exBlock 7 2 ++ [0, 5, 0xff, 0xfe]) (littleBlock 7 2 ++ [5, 0, 0xfe, 0xff]) :=
  ⟨exBlock 7 2, littleBlock 7 2, [[0, 5], [0xff, 0xfe]], rfl, rfl, by decide +kernel, by decide +kernel, by decide +kernel,
    by decide +kernel⟩

example : ∃ r t, openReader (List.replicate 3200 0x40 ++ (binHeaderBytes .be exRev0 ++
      ([] ++ [exBlock 7 2 ++ [0, 5, 0xff, 0xfe]].flatten))) none exMap = .ok r ∧
    bytesPerSample r.bh.formatCode = some 2 ∧ r.file.pos = 3600 ∧ headersEnd r ≤ r.file.pos ∧ r.bh.numOfTrailerStanza = 0 ∧
    headerBlocks r.bh = 1 ∧ IsTrace r (exBlock 7 2 ++ [0, 5, 0xff, 0xfe]) t ∧
    Header.get t.header "FFID" = some (Value.int 7) ∧ t.samples = [dblOfInt 5, dblOfInt (-2)] := by
  have h : (do
      let r ← openReader (List.replicate 3200 0x40 ++ (binHeaderBytes .be exRev0 ++
        ([] ++ [exBlock 7 2 ++ [0, 5, 0xff, 0xfe]].flatten))) none exMap
      let (t, r1) ← readTrace { r with file := ⟨exBlock 7 2 ++ [0, 5, 0xff, 0xfe], 0⟩ }
      pure (decide (bytesPerSample r.bh.formatCode = some 2 ∧ r.file.pos = 3600 ∧ headersEnd r ≤ r.file.pos ∧
        r.bh.numOfTrailerStanza = 0 ∧ headerBlocks r.bh = 1 ∧ r1.file.pos = (exBlock 7 2 ++ [0, 5, 0xff, 0xfe]).length ∧
        Header.get t.header "FFID" = some (Value.int 7) ∧ t.samples = [dblOfInt 5, dblOfInt (-2)]))) = .ok true := by decide +kernel
  obtain ⟨r, h1, k⟩ := bind_ok h
  obtain ⟨⟨t, r1⟩, h2, k2⟩ := bind_ok k
  have h4 := of_decide_eq_true (Except.ok.inj k2)
  exact ⟨r, t, h1, h4.1, h4.2.1, h4.2.2.1, h4.2.2.2.1, h4.2.2.2.2.1,
    ⟨fun h => by have := congrArg List.length h; revert this; decide +kernel, r1, h2, h4.2.2.2.2.2.1⟩, h4.2.2.2.2.2.2⟩

/-- 240 samples of two bytes, the middle of which spell the end stanza. -/
def wordsOfEnd : List Bytes :=
  List.replicate 120 [0, 0] ++ [[0x28, 0x28], [0x53, 0x45], [0x47, 0x3a], [0x20, 0x45], [0x6e, 0x64], [0x54, 0x65], [0x78, 0x74],
    [0x29, 0x29]] ++ List.replicate 112 [0, 0]

/-- The binary header of a file of fixed length traces with trailer stanzas up to an end stanza. -/
def withTrailers : BinHeader :=
  { sampPerTr := 240, formatCode := 3, revMajor := 2, fixedTrLength := 1, numOfTrInFile := 1, numOfTrailerStanza := -1 }

/-- **C89 fails with trailer stanzas.** The place where they are looked for lies among the samples, because the
trace headers are not counted. The same samples spell the end stanza in one byte order and not in the other:
the big endian file is opened, the little endian file with the same contents is refused. -/
theorem C89_trailers :
    MirrorBin (binHeaderBytes .be withTrailers) (binHeaderBytes .le { withTrailers with endianness := 0x01020304 }) ∧
    MirrorTrace exMap 1 2 (exBlock 7 240 ++ wordsOfEnd.flatten) (littleBlock 7 240 ++ (wordsOfEnd.map List.reverse).flatten) ∧
    (openReader (List.replicate 3200 0x40 ++ (binHeaderBytes .be withTrailers ++
      (exBlock 7 240 ++ wordsOfEnd.flatten ++ exLast))) none exMap).isOk = true ∧
    (openReader (List.replicate 3200 0x40 ++ (binHeaderBytes .le { withTrailers with endianness := 0x01020304 } ++
      (littleBlock 7 240 ++ (wordsOfEnd.map List.reverse).flatten ++ exLast))) none exMap).isOk = false := by
  refine ⟨⟨by decide +kernel, by decide +kernel, by decide +kernel, by decide +kernel, by decide +kernel⟩,
    ⟨exBlock 7 240, littleBlock 7 240, wordsOfEnd, rfl, rfl, by decide +kernel, by decide +kernel, by decide +kernel,
      by decide +kernel⟩, by decide +kernel, by decide +kernel⟩

/-! ## Trailer stanzas behind traces of variable length -/

theorem both_orders_stanzas {text bin bin' ext stz : Bytes} {cs cs' : List Bytes} {ub : Option BinHeader} {m : HdrMap} {r : Reader}
    {ts : List Trace} {w : Nat} {bo bo' : ByteOrder} (ht : text.length = 3200) (hl : bin.length = 400) (hl' : bin'.length = 400)
    (hm : ∀ f ∈ binLayout, f.byte ≠ 3297 → Mirrored (f.byte - 3201) f.width bin bin')
    (hmark : byteOrderOf (toS 4 (leVal ((bin.drop 96).take 4))) = .ok bo)
    (hmark' : byteOrderOf (toS 4 (leVal ((bin'.drop 96).take 4))) = .ok bo') (hbo : bo ≠ bo')
    (ho : openReader (text ++ (bin ++ (ext ++ (cs.flatten ++ stz)))) ub m = .ok r) (hw : bytesPerSample r.bh.formatCode = some w)
    (hpos : r.file.pos = 3600 + ext.length) (hx : headersEnd r ≤ r.file.pos) (htr : r.bh.numOfTrailerStanza = -1)
    (hvar : r.bh.fixedTrLength = 0) (hnum : r.bh.numOfTrInFile = cs.length)
    (hann : ∀ c ∈ cs, Announces bo r.bh.maxNumAddTrHeaders w c)
    (hts : List.Forall₂ (IsTrace r) cs ts) (hcs : List.Forall₂ (MirrorTrace m (headerBlocks r.bh) w) cs cs')
    (hcnt : List.Forall₂ (MirrorCount r.bh.maxNumAddTrHeaders) cs cs') :
    ∃ r' e, openReader (text ++ (bin' ++ (ext ++ (cs'.flatten ++ stz)))) ub m = .ok r' ∧
      r'.bh = { r.bh with endianness := e } ∧ r'.texts = r.texts ∧ r'.trailers = r.trailers ∧
      Visits r ts ∧ Visits r' ts := by
  have hi := inv_opened ho
  obtain rfl : w = r.bps := Option.some.inj (hw.symm.trans hi.bps)
  have hw8 : r.bps ≤ 8 := (bps_small hw).2
  obtain ⟨exts, f2, rd, size, h0, h1, h3, h4, h5, h6, h7, h8, h9, h10, h11, h12, h13, h14, h15, h16⟩ := openReader_ok ho
  have hrbo : r.bo = bo := by
    rw [List.drop_left' ht, List.take_left' hl] at h3
    exact Except.ok.inj ((fill_marker h3).symm.trans hmark)
  have hlen (b c : Bytes) (hb : b.length = 400) : text ++ (b ++ (ext ++ (c ++ stz))) = (text ++ (b ++ ext)) ++ (c ++ stz) ∧
      (text ++ (b ++ ext)).length = 3600 + ext.length := by
    refine ⟨by simp only [List.append_assoc], ?_⟩
    rw [List.length_append, List.length_append, ht, hb]
    omega
  obtain ⟨e1, e2⟩ := hlen bin cs.flatten hl
  obtain ⟨e1', e2'⟩ := hlen bin' cs'.flatten hl'
  have hls : List.Forall₂ (fun c c' : Bytes => c'.length = c.length) cs cs' := hcs.imp fun _ _ h => mirror_length h
  have hfl := flatten_same hls
  have hcl : cs'.length = cs.length := hcs.length_eq.symm
  have hann' := announces_all hbo hls hcnt hann
  have hnat : r.bh.numOfTrInFile.toNat = cs.length := by rw [hnum]; rfl
  have hw1 := walks_announced hw8 hann (text ++ (bin ++ ext)) stz
  have hw2 := walks_announced hw8 hann' (text ++ (bin' ++ ext)) stz
  rw [e2, ← e1] at hw1
  rw [e2', ← e1', hcl] at hw2
  have hne : ¬r.bh.numOfTrInFile = 0 := by
    intro h
    unfold readTrailers at h9
    rw [if_pos htr, if_pos h] at h9
    cases h9
  have hfile : r.file = ⟨text ++ (bin ++ (ext ++ (cs.flatten ++ stz))), 3600 + ext.length⟩ := by
    rw [← hpos, ← h12]
  unfold readTrailers at h9
  rw [if_pos htr, if_neg hne, if_neg (by rw [hvar]; simp), hnat, hrbo, hfile, hw1, ok_bind] at h9
  obtain ⟨⟨recs, f3⟩, hu, h9⟩ := bind_ok h9
  obtain ⟨hrec, hed⟩ := Prod.mk.inj (Except.ok.inj h9)
  simp only at hed hrec hu
  have hA : (text ++ (bin ++ ext) ++ cs.flatten).length = (text ++ (bin' ++ ext) ++ cs'.flatten).length := by
    rw [List.length_append, e2, List.length_append (as := text ++ (bin' ++ ext)), e2', hfl]
  have hu' := until_tail (k := 0) (A := text ++ (bin ++ ext) ++ cs.flatten) (B := text ++ (bin' ++ ext) ++ cs'.flatten) (t := stz)
    hA.symm (by rw [List.append_assoc, ← e1]; exact hu)
  rw [List.append_assoc (text ++ (bin' ++ ext)), ← e1', Nat.add_zero, hA] at hu'
  have hrecs : File.records ⟨text ++ (bin ++ (ext ++ (cs.flatten ++ stz))), (text ++ (bin' ++ ext) ++ cs'.flatten).length⟩ =
      File.records ⟨text ++ (bin' ++ (ext ++ (cs'.flatten ++ stz))), (text ++ (bin' ++ ext) ++ cs'.flatten).length⟩ := by
    unfold File.records
    simp only [e1, e1', List.length_append, hfl, hl, hl']
  rw [hrecs] at hu'
  have htrl : readTrailers bo' { r.bh with endianness := toS 4 (leVal ((bin'.drop 96).take 4)) } r.spt r.bps
      ⟨text ++ (bin' ++ (ext ++ (cs'.flatten ++ stz))), r.file.pos⟩ =
        .ok (r.trailers, (text ++ (bin' ++ ext) ++ cs'.flatten).length) := by
    unfold readTrailers
    simp only
    rw [if_pos htr, if_neg hne, if_neg (by rw [hvar]; simp), hnat, hpos, hw2, ok_bind, hu', ok_bind, hrec]
    rfl
  unfold headersEnd at hx
  have hxt : 3200 * (r.texts.length - 1) ≤ ext.length := by
    have : 1 ≤ r.texts.length := by rw [h7, List.length_cons]; omega
    omega
  have hopen := open_mirror_of (tail' := cs'.flatten ++ stz) ht hl hl' hm hmark' (by rw [hrbo]; exact hbo) ho htrl hxt
  refine ⟨_, _, hopen, rfl, rfl, rfl, ?_, ?_⟩
  · refine visits_opened hi hts _ stz e1 (hpos.trans e2.symm) h11 ?_
    rw [← hed, List.length_append]
  · refine visits_opened (inv_opened hopen) (chunks := cs') ?_ _ stz e1' (hpos.trans e2'.symm) h11 ?_
    · exact forall2_mirror hi (by rw [hrbo]; exact hbo) hts hcs
    · simp only
      rw [List.length_append]

/-- **C89 (trailer stanzas up to an end stanza, traces of variable length).** A big endian file consists of headers, the
traces `ts`, which say at the places of the standard how long they are, and stanzas. The file with the same contents in
little endian order can be opened too, with the same texts, stanzas and traces. -/
theorem C89_stanzas_to_little_partial (text big little ext stz : Bytes) (cs cs' : List Bytes) (ub : Option BinHeader) (m : HdrMap)
    (r : Reader) (ts : List Trace) (w : Nat) (ht : text.length = 3200) (hm : MirrorBin big little)
    (ho : openReader (text ++ (big ++ (ext ++ (cs.flatten ++ stz)))) ub m = .ok r) (hw : bytesPerSample r.bh.formatCode = some w)
    (hpos : r.file.pos = 3600 + ext.length) (hx : headersEnd r ≤ r.file.pos) (htr : r.bh.numOfTrailerStanza = -1)
    (hvar : r.bh.fixedTrLength = 0) (hnum : r.bh.numOfTrInFile = cs.length)
    (hann : ∀ c ∈ cs, Announces .be r.bh.maxNumAddTrHeaders w c)
    (hts : List.Forall₂ (IsTrace r) cs ts) (hcs : List.Forall₂ (MirrorTrace m (headerBlocks r.bh) w) cs cs')
    (hcnt : List.Forall₂ (MirrorCount r.bh.maxNumAddTrHeaders) cs cs') :
    ∃ r' e, openReader (text ++ (little ++ (ext ++ (cs'.flatten ++ stz)))) ub m = .ok r' ∧
      r'.bh = { r.bh with endianness := e } ∧ r'.texts = r.texts ∧ r'.trailers = r.trailers ∧
      Visits r ts ∧ Visits r' ts := by
  refine both_orders_stanzas (bo := .be) (bo' := .le) ht hm.big400 hm.little400 hm.fields ?_ ?_ (by decide) ho hw hpos hx htr
    hvar hnum hann hts hcs hcnt
  · rcases hm.bigMarker with h | h <;> rw [bytes4_eq h] <;> decide
  · rw [bytes4_eq hm.littleMarker]
    decide

/-- **C89 (trailer stanzas up to an end stanza, traces of variable length).** The other way round. -/
theorem C89_stanzas_to_big_partial (text big little ext stz : Bytes) (cs cs' : List Bytes) (ub : Option BinHeader) (m : HdrMap)
    (r : Reader) (ts : List Trace) (w : Nat) (ht : text.length = 3200) (hm : MirrorBin big little)
    (ho : openReader (text ++ (little ++ (ext ++ (cs.flatten ++ stz)))) ub m = .ok r) (hw : bytesPerSample r.bh.formatCode = some w)
    (hpos : r.file.pos = 3600 + ext.length) (hx : headersEnd r ≤ r.file.pos) (htr : r.bh.numOfTrailerStanza = -1)
    (hvar : r.bh.fixedTrLength = 0) (hnum : r.bh.numOfTrInFile = cs.length)
    (hann : ∀ c ∈ cs, Announces .le r.bh.maxNumAddTrHeaders w c)
    (hts : List.Forall₂ (IsTrace r) cs ts) (hcs : List.Forall₂ (MirrorTrace m (headerBlocks r.bh) w) cs cs')
    (hcnt : List.Forall₂ (MirrorCount r.bh.maxNumAddTrHeaders) cs cs') :
    ∃ r' e, openReader (text ++ (big ++ (ext ++ (cs'.flatten ++ stz)))) ub m = .ok r' ∧
      r'.bh = { r.bh with endianness := e } ∧ r'.texts = r.texts ∧ r'.trailers = r.trailers ∧
      Visits r ts ∧ Visits r' ts := by
  refine both_orders_stanzas (bo := .le) (bo' := .be) ht hm.little400 hm.big400
    (fun f h1 h2 => mirrored_symm (hm.fields f h1 h2)) ?_ ?_ (by decide) ho hw hpos hx htr hvar hnum hann hts hcs hcnt
  · rw [bytes4_eq hm.littleMarker]
    decide
  · rcases hm.bigMarker with h | h <;> rw [bytes4_eq h] <;> decide

/-- A trace of two samples says how long it is, in both byte orders. -/
example : Announces .be 0 2 (exBlock 7 2 ++ [0, 5, 0xff, 0xfe]) ∧ Announces .le 0 2 (littleBlock 7 2 ++ [5, 0, 0xfe, 0xff]) ∧
    MirrorCount 0 (exBlock 7 2 ++ [0, 5, 0xff, 0xfe]) (littleBlock 7 2 ++ [5, 0, 0xfe, 0xff]) :=
  ⟨⟨2, by decide +kernel, by decide +kernel⟩, ⟨2, by decide +kernel, by decide +kernel⟩, by unfold MirrorCount; decide +kernel⟩

/-- One with an additional header: a second block with the number of samples at byte 137. -/
example : Announces .be 1 2 (exBlock 7 0 ++ (List.replicate 136 0 ++ writeI32 .be 2 ++ List.replicate 100 0) ++ [0, 5, 0xff, 0xfe]) := by
  unfold Announces
  rw [if_neg (by decide)]
  exact ⟨2, 1, by decide +kernel, .inr (by decide +kernel), by decide, by decide, by decide, by decide +kernel⟩

/-- The file made of these traces and an end stanza, as far as the reader looks at it. -/
example : ∃ r t, openReader (List.replicate 3200 0x40 ++ (binHeaderBytes .be { withTrailers with fixedTrLength := 0 } ++
      ([] ++ ([exBlock 7 2 ++ [0, 5, 0xff, 0xfe]].flatten ++ exLast)))) none exMap = .ok r ∧
    bytesPerSample r.bh.formatCode = some 2 ∧ r.file.pos = 3600 ∧ headersEnd r ≤ r.file.pos ∧ r.bh.numOfTrailerStanza = -1 ∧
    r.bh.fixedTrLength = 0 ∧ r.bh.numOfTrInFile = 1 ∧ r.bh.maxNumAddTrHeaders = 0 ∧ r.trailers = [exLast] ∧
    IsTrace r (exBlock 7 2 ++ [0, 5, 0xff, 0xfe]) t := by
  have h : (do
      let r ← openReader (List.replicate 3200 0x40 ++ (binHeaderBytes .be { withTrailers with fixedTrLength := 0 } ++
        ([] ++ ([exBlock 7 2 ++ [0, 5, 0xff, 0xfe]].flatten ++ exLast)))) none exMap
      let (t, r1) ← readTrace { r with file := ⟨exBlock 7 2 ++ [0, 5, 0xff, 0xfe], 0⟩ }
      pure (t.samples.length, decide (bytesPerSample r.bh.formatCode = some 2 ∧ r.file.pos = 3600 ∧ headersEnd r ≤ r.file.pos ∧
        r.bh.numOfTrailerStanza = -1 ∧ r.bh.fixedTrLength = 0 ∧ r.bh.numOfTrInFile = 1 ∧ r.bh.maxNumAddTrHeaders = 0 ∧
        r.trailers = [exLast] ∧ r1.file.pos = (exBlock 7 2 ++ [0, 5, 0xff, 0xfe]).length))) = .ok (2, true) := by decide +kernel
  obtain ⟨r, h1, k⟩ := bind_ok h
  obtain ⟨⟨t, r1⟩, h2, k2⟩ := bind_ok k
  have h4 := of_decide_eq_true (Prod.mk.inj (Except.ok.inj k2)).2
  exact ⟨r, t, h1, h4.1, h4.2.1, h4.2.2.1, h4.2.2.2.1, h4.2.2.2.2.1, h4.2.2.2.2.2.1, h4.2.2.2.2.2.2.1, h4.2.2.2.2.2.2.2.1,
    ⟨fun h => by have := congrArg List.length h; revert this; decide +kernel, r1, h2, h4.2.2.2.2.2.2.2.2⟩⟩

end Sedaman.Props
