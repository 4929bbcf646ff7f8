import Verif.Spec.E2E
import Verif.Lemmas.WriteOf
import Verif.Lemmas.OpenOf
import Verif.Props.TraceHdr
import Verif.Props.BinHeader

/-!
# Writing a file and reading it back
-/

namespace Sedaman

open Spec

/-- Samples that come back have encodings which decode to what comes back. -/
theorem comes_all {est : LogEst} {fmt : Int} {bo : ByteOrder} {enc : ByteOrder → Dbl → Out Bytes}
    {rd : ByteOrder → Rd Dbl} (he : sampleWriter est fmt = .ok enc) (hr : sampleReader fmt = .ok rd)
    {xs : List Dbl} (hs : ∀ x ∈ xs, ∃ y, ComesBack est fmt bo x y) :
    ∃ ps ys, Encoded (enc bo) xs ps ∧ List.Forall₂ (ComesBack est fmt bo) xs ys ∧
      ∀ rest, decodeSamples (rd bo) xs.length (ps.flatten ++ rest) = .ok (ys, rest) := by
  induction xs with
  | nil => exact ⟨[], [], .nil, .nil, fun rest => rfl⟩
  | cons x xs ih =>
    obtain ⟨ps, ys, h1, h0, h2⟩ := ih fun y hy => hs y (List.mem_cons_of_mem _ hy)
    obtain ⟨y, hy⟩ := hs x List.mem_cons_self
    have hy' := hy
    obtain ⟨w, r, bs, g1, g2, g3, g4⟩ := hy
    rw [he] at g1
    rw [hr] at g2
    have e1 := Except.ok.inj g1
    have e2 := Except.ok.inj g2
    subst e1; subst e2
    refine ⟨bs :: ps, y :: ys, .cons g3 h1, .cons hy' h0, fun rest => ?_⟩
    rw [List.flatten_cons, List.length_cons, List.append_assoc]
    unfold decodeSamples
    rw [rd_bind, g4]
    simp only [ok_bind]
    rw [rd_bind, h2]
    rfl

theorem encoded_unique {enc : Dbl → Out Bytes} {xs : List Dbl} {ps qs : List Bytes} (h : Encoded enc xs ps)
    (h' : Encoded enc xs qs) : ps = qs := by
  induction xs generalizing ps qs with
  | nil => cases h; cases h'; rfl
  | cons x xs ih =>
    cases h with
    | cons a b =>
      cases h' with
      | cons a' b' =>
        rw [a] at a'
        rw [Except.ok.inj a', ih b b']

/-- The bytes of one written trace without additional headers. -/
def Chunk (est : LogEst) (bo : ByteOrder) (fmt : Int) (fields : List HField) (t : Trace) (c : Bytes) : Prop :=
  ∃ hb ps, writeBlock est bo fields t.header (List.replicate 240 0) = .ok hb ∧
    EncodedBy est fmt bo t.samples ps ∧ c = hb ++ ps.flatten

/-- What a trace must meet to be written. -/
structure Writable (est : LogEst) (rev : Rev) (bh : BinHeader) (bo : ByteOrder) (fields : List HField)
    (t : Trace) : Prop where
  ints : ∀ f ∈ fields, ∃ v, headerInt t.header f.name v ∧ FieldStorable est bo f.ty v
  samples : ∀ x ∈ t.samples, ∃ y, ComesBack est bh.formatCode bo x y
  count : Announced rev bh t t.samples.length
  size : t.samples.length < 2 ^ 60

theorem write_chunk {est : LogEst} {rev : Rev} {w : Writer} {t : Trace} {b : HBlock} {m : HdrMap}
    (hi : WInv2 rev w) (hidle : w.auto = true → w.firstPos < w.file.data.length)
    (hmap : w.map = b :: m) (hadd : rev = .r2 → w.bh.maxNumAddTrHeaders = 0)
    (hs : SafeFields b.fields)
    (ht : Writable est rev w.bh w.bo b.fields t) :
    ∃ w' c, rev.write est w t = .ok w' ∧ Chunk est w.bo w.bh.formatCode b.fields t c ∧
      w'.file.data = w.file.data ++ c ∧ w'.bh = w.bh := by
  obtain ⟨hb, hblk⟩ := Props.C15_write_succeeds est w.bo b.fields t.header (List.replicate 240 0)
    (by rw [List.length_replicate]) hs ht.ints
  have hbs := bps_small hi.bps
  have hmul : t.samples.length * w.bps < 2 ^ 63 := by
    have : t.samples.length * w.bps ≤ t.samples.length * 8 := Nat.mul_le_mul (Nat.le_refl _) hbs.2
    have := ht.size
    omega
  obtain ⟨buf, hl, e⟩ := write_eq (wa := w) (b := b) (m := m) (hb := hb) (n := t.samples.length)
    (autoHdrs_idle hi.inv hidle) (fun c => (hi.autoBh c).1) hi.inv.hdr hmap hblk hadd ht.count hmul
    (fun hf => hi.buf hf hidle)
  obtain ⟨n, enc, hn, henc, -⟩ := writer_shape est hi.fmt
  obtain ⟨_, rd, -, hrd, -⟩ := reader_shape hi.fmt
  obtain ⟨ps, ys, h1, -, h2⟩ := comes_all henc hrd ht.samples
  have hpl := encoded_length henc hi.bps h1
  rw [henc, ok_bind, storeSamples_exact h1 (by rw [hpl, hl]), ok_bind] at e
  refine ⟨_, hb ++ ps.flatten, e, ⟨hb, ps, hblk, ⟨enc, henc, h1⟩, rfl⟩, ?_, rfl⟩
  simp only
  rw [write_append hi.inv.atEnd, write_append (by simp), List.append_assoc]

theorem writeAll_chunks {est : LogEst} {rev : Rev} {w : Writer} {b : HBlock} {m : HdrMap} (ts : List Trace)
    (hi : WInv2 rev w) (hidle : w.auto = true → w.firstPos < w.file.data.length)
    (hmap : w.map = b :: m) (hadd : rev = .r2 → w.bh.maxNumAddTrHeaders = 0)
    (hs : SafeFields b.fields)
    (ht : ∀ t ∈ ts, Writable est rev w.bh w.bo b.fields t) :
    ∃ w' cs, writeAll (rev.write est) w ts = .ok w' ∧
      List.Forall₂ (Chunk est w.bo w.bh.formatCode b.fields) ts cs ∧
      w'.file.data = w.file.data ++ cs.flatten ∧ w'.bh = w.bh ∧ w'.trailers = w.trailers := by
  induction ts generalizing w with
  | nil => exact ⟨w, [], rfl, .nil, by simp, rfl, rfl⟩
  | cons t ts ih =>
    obtain ⟨w1, c, h1, h2, h3, h4⟩ := write_chunk hi hidle hmap hadd hs (ht t List.mem_cons_self)
    obtain ⟨hi1, s, -⟩ := step_full hi h1
    have hk := s.kept hi.inv
    have hidle1 : w1.auto = true → w1.firstPos < w1.file.data.length := by
      intro c1
      rw [hk.auto] at c1
      have := hidle c1
      rw [hk.first, h3, List.length_append]
      omega
    obtain ⟨w', cs, g1, g2, g3, g4, g5⟩ := ih hi1 hidle1 (by rw [hk.map, hmap]) (by rw [h4]; exact hadd)
      (by rw [h4, hk.bo]; exact fun x hx => ht x (List.mem_cons_of_mem _ hx))
    rw [h4, hk.bo] at g2
    refine ⟨w', c :: cs, ?_, .cons h2 g2, ?_, g4.trans h4, g5.trans hk.trailers⟩
    · unfold writeAll at g1 ⊢
      rw [List.foldlM_cons, h1, ok_bind, g1]
    · rw [g3, h3, List.flatten_cons, List.append_assoc]

theorem writeAll_inv {est : LogEst} {rev : Rev} {w : Writer} (ts : List Trace) : ∀ w0 : Writer, WInv2 rev w0 →
    writeAll (rev.write est) w0 ts = .ok w → WInv w := by
  induction ts with
  | nil => intro w0 hi h; rw [← Except.ok.inj h]; exact hi.inv
  | cons t ts ih =>
    intro w0 hi h
    unfold writeAll at h
    rw [List.foldlM_cons] at h
    obtain ⟨w1, k1, k2⟩ := bind_ok h
    exact ih w1 (step_full hi k1).1 k2

/-- How the number of samples reaches the reader: either the file has fixed length traces, or the
number is a field of the map that is wide enough. -/
def CountKnown (r : Reader) (fields : List HField) (t : Trace) : Prop :=
  if fixedLength r.bh = true then r.bufLen = t.samples.length * r.bps
  else t.header.get "SAMP_NUM" = some (.int t.samples.length) ∧
    ∃ f ∈ fields, f.name = "SAMP_NUM" ∧ ∃ k, intKind f.ty = some k ∧
      IntKind.InRange (if k = .u64 then .i64 else k) t.samples.length

theorem isTrace_chunk {est : LogEst} {data : Bytes} {m m' : HdrMap} {b : HBlock} {r : Reader} {t : Trace}
    {c : Bytes} (hi : Inv data m r) (hm : m = b :: m') (hs : SafeFields b.fields)
    (hn : (b.fields.map (·.name)).Nodup)
    (hsv : ∀ x ∈ t.samples, ∃ y, ComesBack est r.bh.formatCode r.bo x y) (hsz : t.samples.length < 2 ^ 60)
    (hmax : r.bh.maxNumAddTrHeaders = 0) (hcount : CountKnown r b.fields t)
    (hc : Chunk est r.bo r.bh.formatCode b.fields t c) :
    ∃ back, IsTrace r c back ∧ TraceBack est r.bh.formatCode r.bo b.fields t back := by
  obtain ⟨hb, ps, hblk, ⟨enc, henc, hps⟩, rfl⟩ := hc
  have hbl := writeBlock_length (by rw [List.length_replicate]) hblk
  obtain ⟨back, h1, h2, h3, h3f⟩ := Props.C15_roundtrip_partial est r.bo b.fields t.header (List.replicate 240 0) hb
    (by rw [List.length_replicate]) hs hn hblk
  obtain ⟨_, rd, -, hrd, -⟩ := reader_shape hi.fmt
  obtain ⟨ps', ys, g1, g0, g2⟩ := comes_all henc hrd hsv
  have hpp : ps' = ps := encoded_unique g1 hps
  subst hpp
  have hpl := encoded_length henc hi.bps hps
  have hbs := bps_small hi.bps
  set n := t.samples.length * r.bps with hn'
  have hmul : n < 2 ^ 63 := by
    have : t.samples.length * r.bps ≤ t.samples.length * 8 := Nat.mul_le_mul (Nat.le_refl _) hbs.2
    omega
  -- the header
  have t1 : readTrcHeader { r with file := ⟨hb ++ ps'.flatten, 0⟩ } =
      .ok (back, ⟨hb ++ ps'.flatten, 240⟩) := by
    unfold readTrcHeader
    simp only
    rw [if_neg (by omega), hmax]
    show readBlocks r.bo r.map 1 0 _ [] = _
    unfold readBlocks
    rw [hi.map, hm]
    simp only [List.getElem?_cons_zero]
    have := read_chunk [] hb ps'.flatten (n := trHeaderSize) hbl
    rw [List.nil_append] at this
    simp only [List.length_nil] at this
    rw [this, ok_bind]
    simp only
    rw [h1, ok_bind]
    rfl
  -- the count
  have t2 : sampleBytes { r with file := ⟨hb ++ ps'.flatten, 0⟩ } back = .ok (n, back) := by
    unfold CountKnown at hcount
    unfold sampleBytes
    simp only
    by_cases hf : fixedLength r.bh = true
    · rw [if_pos hf] at hcount
      rw [if_pos hf, hcount]
    · rw [if_neg hf] at hcount
      rw [if_neg hf]
      obtain ⟨q1, f, q2, q3, k, q4, q5⟩ := hcount
      obtain ⟨v, q6, q7⟩ := h3 f q2 k q4 t.samples.length (by rw [q3]; exact .inl q1)
      have hv : v = t.samples.length := by
        apply Props.C15_reduced_in_range k _ _ ?_ q6
        by_cases hk : k = .u64
        · rw [if_pos hk] at q5
          exact .inr ⟨hk, q5⟩
        · rw [if_neg hk] at q5
          exact .inl ⟨hk, q5⟩
      rw [q3, hv] at q7
      have hsn : sampNum back = .ok ((t.samples.length : Int), back) := by
        unfold sampNum Header.at
        rw [q7]
      rw [hsn, ok_bind]
      simp only
      rw [← Int.natCast_mul, toU8_nat hmul, if_neg (by omega)]
      rfl
  have t3 : File.read ⟨hb ++ ps'.flatten, 240⟩ n = .ok (ps'.flatten, ⟨hb ++ ps'.flatten, 240 + n⟩) := by
    have := read_chunk hb ps'.flatten [] (n := n) (by rw [hpl])
    rw [List.append_nil, hbl] at this
    exact this
  have t4 : decodeSamples (rd r.bo) (n / r.bps) ps'.flatten = .ok (ys, []) := by
    have := g2 []
    rw [List.append_nil] at this
    rw [hn', Nat.mul_div_cancel _ (by omega)]
    exact this
  have := readTrace_of (r := { r with file := ⟨hb ++ ps'.flatten, 0⟩ }) t1 t2 t3 hrd t4
  refine ⟨⟨back, ys⟩, ⟨?_, _, this, ?_⟩, g0, h2, h3, h3f⟩
  · intro c0
    have := congrArg List.length c0
    rw [List.length_append, hbl] at this
    simp at this
  · simp only [List.length_append, hbl, hpl]

/-- The reading half of the round trip. -/
theorem e2e_read {est : LogEst} {fmt : Int} {bo : ByteOrder} {data m m' b} {ts : List Trace} {cs : List Bytes}
    {tail : Bytes} {ub : Option BinHeader} {r : Reader}
    (hm : m = b :: m') (hs : SafeFields b.fields) (hn : (b.fields.map (·.name)).Nodup)
    (hsv : ∀ t ∈ ts, (∀ x ∈ t.samples, ∃ y, ComesBack est fmt bo x y) ∧ t.samples.length < 2 ^ 60)
    (hc : List.Forall₂ (Chunk est bo fmt b.fields) ts cs)
    (ho : openReader (data ++ (cs.flatten ++ tail)) ub m = .ok r) (hbo : r.bo = bo)
    (hpos : r.file.pos = data.length) (hcur : r.curr = r.file.pos)
    (hend : r.endData = (data ++ cs.flatten).length)
    (hcount : ∀ t ∈ ts, CountKnown r b.fields t)
    (hfmt : r.bh.formatCode = fmt) (hmax : r.bh.maxNumAddTrHeaders = 0) :
    ∃ backs, List.Forall₂ (TraceBack est fmt bo b.fields) ts backs ∧ Visits r backs := by
  have hinv := inv_opened ho
  have hb : ∃ backs, List.Forall₂ (TraceBack est fmt bo b.fields) ts backs ∧ List.Forall₂ (IsTrace r) cs backs := by
    obtain ⟨d, hinv'⟩ : ∃ d, Inv d m r := ⟨_, hinv⟩
    clear ho hend hinv
    induction hc with
    | nil => exact ⟨[], .nil, .nil⟩
    | @cons t c ts cs hc _ ih =>
      obtain ⟨bs, e1, e2⟩ := ih (fun x hx => hsv x (List.mem_cons_of_mem _ hx))
        (fun x hx => hcount x (List.mem_cons_of_mem _ hx))
      have hw := hsv t List.mem_cons_self
      obtain ⟨back, e3, e4⟩ := isTrace_chunk (est := est) hinv' hm hs hn
        (by rw [hfmt, hbo]; exact hw.1) hw.2 hmax
        (hcount t List.mem_cons_self) (by rw [hfmt, hbo]; exact hc)
      rw [hfmt, hbo] at e4
      exact ⟨back :: bs, .cons e4 e1, .cons e3 e2⟩
  obtain ⟨backs, e1, e2⟩ := hb
  exact ⟨backs, e1, visits_opened hinv e2 data tail rfl hpos hcur (by rw [hend, List.length_append])⟩

/-- `visible` keeps what exists in every revision. -/
theorem visible_same (h : BinHeader) : (visible h).formatCode = h.formatCode ∧
    (visible h).fixedTrLength = h.fixedTrLength ∧ (visible h).revMajor = h.revMajor ∧
    (visible h).sampPerTr = h.sampPerTr ∧ (visible h).extSampPerTr = h.extSampPerTr ∧
    (visible h).extTextHeadersNum = h.extTextHeadersNum := by
  unfold visible
  split <;> simp

theorem fmtOr_wf {rev0 : Bool} {bh : BinHeader} (h : BinHeader.WF bh) : BinHeader.WF (fmtOr rev0 bh) := by
  unfold fmtOr
  split
  · unfold BinHeader.WF at h ⊢
    refine ⟨h.1, h.2.1, h.2.2.1, h.2.2.2.1, h.2.2.2.2.1, h.2.2.2.2.2.1, h.2.2.2.2.2.2.1,
      h.2.2.2.2.2.2.2.1, h.2.2.2.2.2.2.2.2.1, ?_, h.2.2.2.2.2.2.2.2.2.2⟩
    show IntKind.i16.InRange (if rev0 = true then 1 else 5)
    cases rev0 <;> decide
  · exact h

theorem fmtOr_same (rev0 : Bool) (bh : BinHeader) : (fmtOr rev0 bh).endianness = bh.endianness ∧
    (fmtOr rev0 bh).fixedTrLength = bh.fixedTrLength ∧ (fmtOr rev0 bh).revMajor = bh.revMajor ∧
    (fmtOr rev0 bh).sampPerTr = bh.sampPerTr ∧ (fmtOr rev0 bh).extSampPerTr = bh.extSampPerTr ∧
    (fmtOr rev0 bh).extTextHeadersNum = bh.extTextHeadersNum ∧
    (fmtOr rev0 bh).maxNumAddTrHeaders = bh.maxNumAddTrHeaders ∧
    (fmtOr rev0 bh).numOfTrailerStanza = bh.numOfTrailerStanza ∧
    (fmtOr rev0 bh).numOfTrInFile = bh.numOfTrInFile ∧
    (fmtOr rev0 bh).byteOffOfFirstTr = bh.byteOffOfFirstTr := by
  unfold fmtOr
  split <;> simp

theorem checkMap_blocks {bh : BinHeader} {m : HdrMap} (h : checkMap bh m = .ok ()) :
    checkBlocks m = .ok () := by
  unfold checkMap at h
  split at h
  · cases h
  · exact h

theorem checkMap_reader {bh : BinHeader} {m : HdrMap} (h : checkMap bh m = .ok ()) :
    checkMap {} m = .ok () := by
  have e := checkMap_blocks h
  unfold checkMap
  exact (if_neg (fun c => absurd c.1 (by decide))).trans e

/-- Opening a file that starts with what a writer wrote on opening. -/
theorem open_written {bh : BinHeader} {text : Bytes} {exts trl : List Bytes} {m : HdrMap} {bo : ByteOrder}
    {bps ed : Nat} (body : Bytes) (hw : BinHeader.WF bh)
    (hmark : bh.endianness = 0 ∨ bh.endianness = 0x01020304) (hbo : byteOrderOf bh.endianness = .ok bo)
    (hm : checkMap {} m = .ok ()) (ht : text.length = 3200) (hts : ∀ x ∈ exts, x.length = 3200)
    (hfmt : bh.formatCode ∈ supportedFormats) (hbps : bytesPerSample bh.formatCode = some bps)
    (hcnt : bh.extTextHeadersNum = exts.length ∨
      bh.extTextHeadersNum = -1 ∧ ∃ init last, exts = init ++ [last] ∧
        (∀ x ∈ init, isEndText x = false) ∧ isEndText last = true)
    (hoff : (visible bh).byteOffOfFirstTr = 0 ∨
      (visible bh).byteOffOfFirstTr = ((3600 + 3200 * exts.length : Nat) : Int))
    (htr : ∀ data, data = text ++ (binHeaderBytes bo bh ++ (exts.flatten ++ body)) →
      readTrailers bo (visible bh) (samplesPerTrace (visible bh)) bps ⟨data, 3600 + 3200 * exts.length⟩ =
        .ok (trl, ed))
    (hs : 0 ≤ samplesPerTrace bh * bps ∧ samplesPerTrace bh * bps < 2 ^ 31)
    (hsmall : exts.length < 2 ^ 40) :
    openReader (text ++ (binHeaderBytes bo bh ++ (exts.flatten ++ body))) none m = .ok {
      bh := visible bh, bo, map := m,
      file := ⟨text ++ (binHeaderBytes bo bh ++ (exts.flatten ++ body)), 3600 + 3200 * exts.length⟩,
      curr := 3600 + 3200 * exts.length, endData := ed,
      spt := samplesPerTrace bh, bps, bufLen := (samplesPerTrace bh * bps).toNat,
      texts := text :: exts, trailers := trl } := by
  obtain ⟨v1, v2, v3, v4, v5, v6⟩ := visible_same bh
  have hspt : samplesPerTrace (visible bh) = samplesPerTrace bh := by
    unfold samplesPerTrace
    rw [v4, v5]
  obtain ⟨bo', hbo', hfill⟩ := Props.C07_roundtrip_partial bh hw hmark
  rw [hbo] at hbo'
  have := Except.ok.inj hbo'
  subst this
  have hpre : (text ++ binHeaderBytes bo bh).length = 3600 := by
    rw [List.length_append, ht, binHeaderBytes_length]
  have hdata : text ++ (binHeaderBytes bo bh ++ (exts.flatten ++ body)) =
      (text ++ binHeaderBytes bo bh) ++ (exts.flatten ++ body) := by simp only [List.append_assoc]
  have hx : readExtText (visible bh).extTextHeadersNum
      ⟨text ++ (binHeaderBytes bo bh ++ (exts.flatten ++ body)), 3600⟩ =
      .ok (exts, ⟨text ++ (binHeaderBytes bo bh ++ (exts.flatten ++ body)), 3600 + 3200 * exts.length⟩) := by
    rw [v6, hdata]
    rcases hcnt with e | ⟨e, init, last, rfl, h1, h2⟩
    · rw [e]
      by_cases c : exts = []
      · subst c
        exact readExtText_none _
      · have := readExtText_count (text ++ binHeaderBytes bo bh) body exts hts c
        rw [hpre] at this
        exact this
    · rw [e]
      have := readExtText_end (text ++ binHeaderBytes bo bh) body init last
        (fun x hx => hts x (by simp [hx])) h1 (hts last (by simp)) h2
      rw [hpre] at this
      rw [List.length_append, List.length_singleton]
      exact this
  have := openReader_of (ub := none) (bh := visible bh) (exts := exts) (trl := trl)
    (first := 3600 + 3200 * exts.length) (ed := ed) (data := text ++ (binHeaderBytes bo bh ++ (exts.flatten ++ body)))
    rfl ht (binHeaderBytes_length bo bh) (m := m) hm hfill (by rw [v1]; exact hfmt) (by rw [v1]; exact hbps)
    hx (hoff.imp (fun h => ⟨h, rfl⟩) (fun h => ⟨h, by omega, by omega⟩))
    (htr _ rfl) (by rw [hspt]; exact hs)
  rw [hspt] at this
  exact this

/-- The round trip through the state a writer has after opening. -/
theorem roundtrip {est : LogEst} {rev : Rev} {rev0 : Bool} (hrev : rev0 = true ↔ rev = .r0) {text : Bytes}
    {exts trl trl' : List Bytes} {bh : BinHeader} {m : HdrMap} {b : HBlock} {ts : List Trace} {bps : Nat}
    (tail : Bytes) (hbh : HeaderOk bh) (hm : MapOk bh m b)
    (ht : text.length = 3200) (hts : ∀ x ∈ exts, x.length = 3200) (hlen : exts.length < 65536)
    (h0 : rev0 = true → exts = [])
    (hbps : bytesPerSample bh.formatCode = some bps)
    (hauto : memHeader rev0 (exts.length + 1) bh ≠ { formatCode := if rev0 then 1 else 5 })
    (hadd : rev = .r2 → bh.maxNumAddTrHeaders = 0)
    (hmax : (visible bh).maxNumAddTrHeaders = 0)
    (hcnt : TextsDeclared bh exts)
    (hoff : (visible bh).byteOffOfFirstTr = 0 ∨
      (visible bh).byteOffOfFirstTr = ((3600 + 3200 * exts.length : Nat) : Int))
    (hs : 0 ≤ samplesPerTrace bh * bps ∧ samplesPerTrace bh * bps < 2 ^ 31)
    (hst : ∀ t ∈ ts, Storable est bh.formatCode (orderOfMarker bh.endianness) b.fields t ∧
      Announced rev bh t t.samples.length ∧
      if fixedLength bh = true then (samplesPerTrace bh * bps).toNat = t.samples.length * bps
      else LengthKnown { bh with fixedTrLength := 0 } b.fields t)
    (htr : ∀ cs, List.Forall₂ (Chunk est (orderOfMarker bh.endianness) bh.formatCode b.fields) ts cs →
      ∀ pre : Bytes, pre.length = 3600 + 3200 * exts.length →
      readTrailers (orderOfMarker bh.endianness) (visible bh) (samplesPerTrace (visible bh)) bps
        ⟨pre ++ (cs.flatten ++ tail), pre.length⟩ = .ok (trl', (pre ++ cs.flatten).length)) :
    ∃ w r backs, writeAll (rev.write est)
        (openedWriter rev0 text exts trl bh m (orderOfMarker bh.endianness) bps) ts = .ok w ∧
      w.bh = memHeader rev0 (exts.length + 1) bh ∧ w.trailers = trl ∧ WInv w ∧
      openReader (w.file.data ++ tail) none m = .ok r ∧ r.texts = text :: exts ∧ r.bh = visible bh ∧
      r.trailers = trl' ∧ r.endData = w.file.data.length ∧
      List.Forall₂ (TraceBack est bh.formatCode (orderOfMarker bh.endianness) b.fields) ts backs ∧ Visits r backs := by
  set bo := orderOfMarker bh.endianness with hbo
  have hbo' : byteOrderOf bh.endianness = .ok bo := by
    rcases hbh.marker with e | e <;> rw [hbo, e] <;> rfl
  have hfm : fmtOr rev0 bh = bh := by
    unfold fmtOr
    rw [if_neg]
    intro c
    have := hbh.format
    rw [c] at this
    exact absurd this (by decide)
  obtain ⟨m', rfl⟩ : ∃ m', m = b :: m' := by
    have := hm.head
    cases m with
    | nil => cases this
    | cons x y => simp only [List.head?_cons, Option.some.injEq] at this; exact ⟨y, by rw [this]⟩
  have hmem : ∀ w : Writer, w.bh = memHeader rev0 (exts.length + 1) bh → w.bh.formatCode = bh.formatCode ∧
      w.bh.fixedTrLength = bh.fixedTrLength ∧ w.bh.sampPerTr = bh.sampPerTr ∧
      w.bh.maxNumAddTrHeaders = bh.maxNumAddTrHeaders := by
    intro w e
    rw [e]
    unfold memHeader
    rw [hfm]
    cases rev0 <;> simp
  generalize hw0 : openedWriter rev0 text exts trl bh (b :: m') bo bps = w0
  have hi : WInv2 rev w0 := by
    rw [← hw0]
    exact opened_inv2 hrev (by omega) (fun _ => hlen) (by rw [hfm]; exact hbh.format) (by rw [hfm]; exact hbps)
  have e1 : w0.bh = memHeader rev0 (exts.length + 1) bh := by rw [← hw0]; rfl
  have e2 : w0.bo = bo := by rw [← hw0]; rfl
  have e3 : w0.map = b :: m' := by rw [← hw0]; rfl
  have e4 : w0.auto = false := by
    rw [← hw0]
    unfold openedWriter
    simp only [decide_eq_false_iff_not]
    exact hauto
  have e5 : w0.trailers = trl := by rw [← hw0]; rfl
  have e6 : w0.file.data = (text ++ binHeaderBytes bo bh) ++ exts.flatten := by
    rw [← hw0]
    unfold openedWriter
    simp only
    rw [hfm, List.take_of_length_le (by rw [ht]), List.append_assoc]
    cases rev0 with
    | true => rw [h0 rfl]; simp
    | false => rw [textBytes_exact hts]; simp
  obtain ⟨f1, f2, f3, f4⟩ := hmem w0 e1
  have e7 : w0.file.data.length = 3600 + 3200 * exts.length := by
    rw [e6, List.length_append, List.length_append, ht, binHeaderBytes_length, flatten_length_const 3200 hts]
  obtain ⟨w, cs, h1, h2, h3, h4, h5⟩ := writeAll_chunks (est := est) ts hi (by rw [e4]; intro c; cases c) e3
    (by rw [f4]; exact hadd) hm.safe (fun t ht' => by
      obtain ⟨s1, s2, s3⟩ := hst t ht'
      refine ⟨by rw [e2]; exact s1.ints, by rw [f1, e2]; exact s1.samples, ?_, s1.size⟩
      unfold Announced at s2 ⊢
      rw [f2, f3]
      exact s2)
  rw [f1, e2] at h2
  have hopen := open_written (bh := bh) (text := text) (exts := exts) (trl := trl') (m := b :: m') (bo := bo)
    (bps := bps) (ed := (w0.file.data ++ cs.flatten).length) (cs.flatten ++ tail) hbh.range hbh.marker hbo'
    (checkMap_reader hm.accepted) ht hts hbh.format hbps hcnt hoff (by
      intro data hd
      have := htr cs h2 w0.file.data e7
      rw [hd]
      rw [e7, e6] at this
      rw [e6]
      simp only [List.append_assoc] at this ⊢
      exact this) hs (by omega)
  have hdata : text ++ (binHeaderBytes bo bh ++ (exts.flatten ++ (cs.flatten ++ tail))) =
      w0.file.data ++ (cs.flatten ++ tail) := by rw [e6]; simp only [List.append_assoc]
  rw [hdata] at hopen
  obtain ⟨v1, v2, v3, v4, v5, v6⟩ := visible_same bh
  have hfix : fixedLength (visible bh) = fixedLength bh := by unfold fixedLength; rw [v2, v3]
  obtain ⟨backs, g1, g2⟩ := e2e_read (est := est) rfl hm.safe hm.names
    (fun t ht' => ⟨(hst t ht').1.samples, (hst t ht').1.size⟩) h2 hopen rfl e7.symm rfl rfl
    (fun t ht' => by
      obtain ⟨-, -, s3⟩ := hst t ht'
      unfold CountKnown
      simp only
      rw [hfix]
      by_cases c : fixedLength bh = true
      · rw [if_pos c] at s3 ⊢
        exact s3
      · rw [if_neg c] at s3 ⊢
        unfold LengthKnown at s3
        rw [if_neg (by simp)] at s3
        exact s3) v1 hmax
  refine ⟨w, _, backs, h1, by rw [h4, e1], by rw [h5, e5], writeAll_inv ts w0 hi h1, ?_, rfl, rfl, rfl, by rw [h3], g1,
    g2⟩
  rw [h3, List.append_assoc]
  exact hopen

theorem i16_range {n : Nat} (h : n < 32768) : IntKind.i16.InRange n := by
  show -(2 : Int) ^ 15 ≤ n ∧ (n : Int) < 2 ^ 15
  omega

/-- Skipping a written trace by the number of samples at its standard place. -/
theorem skip_chunk {est : LogEst} {bo : ByteOrder} {fmt : Int} {fields : List HField} {t : Trace} {c : Bytes}
    {bps : Nat} (hc : Chunk est bo fmt fields t c) (hs : SafeFields fields)
    (hf : ⟨114, "SAMP_NUM", .i16⟩ ∈ fields) (hn : t.header.get "SAMP_NUM" = some (.int t.samples.length))
    (hl : t.samples.length < 32768) (hb : bytesPerSample fmt = some bps) (pre rest : Bytes) :
    skipVarTrace bo 0 bps ⟨pre ++ (c ++ rest), pre.length⟩ =
      .ok ⟨pre ++ (c ++ rest), (pre ++ c).length⟩ := by
  obtain ⟨hb', ps, hblk, ⟨enc, henc, hps⟩, rfl⟩ := hc
  have hbl := writeBlock_length (by rw [List.length_replicate]) hblk
  have hpl := encoded_length henc hb hps
  have hbs := bps_small hb
  unfold writeBlock at hblk
  rw [memsetHdr_eq (by rw [List.length_replicate]), ok_bind] at hblk
  obtain ⟨-, h2, -⟩ := writeFields_spec hs.2 hblk
  obtain ⟨h3, v, bs, h4, h5, h6⟩ := h2 _ hf
  have hv : v = t.samples.length := by
    unfold intOf at h4
    simp only [hn] at h4
    exact (Except.ok.inj h4).symm
  have hbs' : bs = writeI16 bo t.samples.length := by
    rw [hv] at h5
    exact (Except.ok.inj h5).symm
  have hr : readAt hb' 114 (readI16 bo) = .ok (t.samples.length : Int) := by
    refine readAt_slice hb' 114 2 _ bs _ (by rw [hbl]; omega) h6 ?_
    intro rest
    rw [hbs']
    exact Props.C04_roundtrip bo .i16 t.samples.length (i16_range hl) rest
  unfold skipVarTrace
  rw [List.append_assoc, read_chunk pre hb' (ps.flatten ++ rest) (n := trHeaderSize) hbl, ok_bind]
  simp only
  rw [hr, ok_bind, if_neg (by simp)]
  have hmul : t.samples.length * bps < 2 ^ 32 := by
    have : t.samples.length * bps ≤ t.samples.length * 8 := Nat.mul_le_mul (Nat.le_refl _) hbs.2
    omega
  have hu : toU 4 (t.samples.length : Int) = t.samples.length := by
    unfold toU
    norm_num
    omega
  rw [hu, Nat.mod_eq_of_lt hmul, seekCur_nat]
  simp only [List.length_append, hbl, hpl, trHeaderSize]
  rw [← Nat.add_assoc]

theorem skip_chunks {est : LogEst} {bo : ByteOrder} {fmt : Int} {fields : List HField} {ts : List Trace}
    {cs : List Bytes} {bps : Nat} (hc : List.Forall₂ (Chunk est bo fmt fields) ts cs) (hs : SafeFields fields)
    (hf : ⟨114, "SAMP_NUM", .i16⟩ ∈ fields)
    (hn : ∀ t ∈ ts, t.header.get "SAMP_NUM" = some (.int t.samples.length) ∧ t.samples.length < 32768)
    (hb : bytesPerSample fmt = some bps) (pre rest : Bytes) :
    skipVarTraces bo 0 bps ts.length ⟨pre ++ (cs.flatten ++ rest), pre.length⟩ =
      .ok ⟨pre ++ (cs.flatten ++ rest), (pre ++ cs.flatten).length⟩ := by
  induction hc generalizing pre with
  | nil => simp [skipVarTraces]
  | @cons t c ts cs h1 _ ih =>
    have ht := hn t List.mem_cons_self
    rw [List.length_cons]
    unfold skipVarTraces
    rw [List.flatten_cons, List.append_assoc, skip_chunk h1 hs hf ht.1 ht.2 hb, ok_bind]
    have := ih (fun x hx => hn x (List.mem_cons_of_mem _ hx)) (pre ++ c)
    simp only [List.append_assoc] at this ⊢
    exact this

end Sedaman
