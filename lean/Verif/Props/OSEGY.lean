import Verif.Lemmas.WriteOf
import Verif.Lemmas.Trunc
import Verif.Props.BinHeader

/-!
# C25, C26, C27, C29, C30 (writing), C36: SEG-Y writers

Property theorems about `OSEGYRev0`, `OSEGYRev1` and `OSEGYRev2`.
-/

namespace Sedaman.Props

open Spec

/-- One trace header field map: the field record number and the number of samples. -/
def exWMap : HdrMap := [⟨"SEG00000", [⟨8, "FFID", .i32⟩, ⟨114, "SAMP_NUM", .i16⟩]⟩]

/-- 1.0, 2.0, 3.0 -/
def d1 : Dbl := 0x3FF0000000000000
def d2 : Dbl := 0x4000000000000000
def d3 : Dbl := 0x4008000000000000

/-- A text header of the right size. -/
def exText : Bytes := List.replicate 3200 0x40

/-! ## C36 -/

/-- **C36.** Each `write_trace` call appends: what was in the file stays, except the 400 bytes of
the binary header when an automatic writer gets its first trace. -/
theorem C36_appends (est : LogEst) (rev : Rev) (w0 w w' : Writer) (ts : List Trace) (t : Trace)
    (ho : Opens rev w0) (hw : Written (rev.write est) w0 ts w) (h : rev.write est w t = .ok w') :
    ∃ bin new, bin.length = 400 ∧ 240 ≤ new.length ∧
      w'.file.data = w.file.data.take 3200 ++ (bin ++ (w.file.data.drop 3600 ++ new)) ∧
      (w.auto = false ∨ ts ≠ [] → w'.file.data = w.file.data ++ new) := by
  obtain ⟨i1, i2, i3, i4, i5, i6, i7, i8⟩ := written_inv2 (opens_inv2 ho) hw
  obtain ⟨-, s, -⟩ := step_full i1 h
  obtain ⟨-, -, hc⟩ := autoHdrs_ok i1.inv s.auto
  have h36 := i1.inv.first
  have hsplit : w.file.data =
      w.file.data.take 3200 ++ ((w.file.data.drop 3200).take 400 ++ w.file.data.drop 3600) := by
    have e1 : w.file.data.drop 3600 = (w.file.data.drop 3200).drop 400 := by rw [List.drop_drop]
    rw [e1, List.take_append_drop, List.take_append_drop]
  have hnew : 240 ≤ (s.hb ++ (s.add ++ w'.samp)).length := by
    rw [List.length_append, s.hdrLen]; omega
  split at hc
  · rename_i ha
    refine ⟨binHeaderBytes w.bo s.wa.bh, s.hb ++ (s.add ++ w'.samp), binHeaderBytes_length _ _, hnew, ?_, ?_⟩
    · have := i1.inv.autoFirst ha.1
      rw [s.app.data, hc.2, List.drop_of_length_le (by omega), List.nil_append, List.append_assoc]
    · rintro (h1 | h1)
      · rw [ha.1] at h1; cases h1
      · have := i8 h1; omega
  · rename_i ha
    have e := s.app.data
    rw [hc] at e
    refine ⟨(w.file.data.drop 3200).take 400, s.hb ++ (s.add ++ w'.samp), ?_, hnew, ?_, fun _ => e⟩
    · simp only [List.length_take, List.length_drop]; omega
    · rw [e]
      conv_lhs => rw [hsplit]
      simp only [List.append_assoc]

/-- **C36.** The file grows by 240 bytes and the announced samples (without additional headers). -/
theorem C36_growth (est : LogEst) (rev : Rev) (w0 w w' : Writer) (ts : List Trace) (t : Trace)
    (ho : Opens rev w0) (hadd : w0.bh.maxNumAddTrHeaders = 0)
    (hw : Written (rev.write est) w0 ts w) (h : rev.write est w t = .ok w') :
    ∃ n size, Announced rev w'.bh t n ∧ bytesPerSample w0.bh.formatCode = some size ∧
      w'.file.data.length = w.file.data.length + 240 + n * size := by
  obtain ⟨i1, i2, i3, i4, i5, i6, i7, i8⟩ := written_inv2 (opens_inv2 ho) hw
  obtain ⟨-, s, ha, -, -, -, -, n, hn, hl⟩ := step_full i1 h
  refine ⟨n, w.bps, hn, by rw [← i4]; exact i1.bps, ?_⟩
  have h0 : s.add.length = 0 := by rw [ha, i5, hadd]; split <;> rfl
  have hwa : s.wa.file.data.length = w.file.data.length := by
    obtain ⟨-, -, hc⟩ := autoHdrs_ok i1.inv s.auto
    split at hc
    · rename_i hau
      have := i1.inv.autoFirst hau.1
      rw [hc.2, List.length_append, List.length_take, binHeaderBytes_length]
      omega
    · rw [hc]
  rw [s.app.data, List.length_append, List.length_append, List.length_append, s.hdrLen, h0, hl, hwa]
  omega

/-- A revision 1 file with variable trace length: 242 bytes for one 16 bit sample, 244 for two. -/
example : (do
      let w ← openRev1 [exText] { formatCode := 3, revMajor := 1 } exWMap
      let w1 ← writeTraceRev1 (.strict fun _ => 0) w ⟨[("SAMP_NUM", .int 1)], [d1]⟩
      let w2 ← writeTraceRev1 (.strict fun _ => 0) w1 ⟨[("SAMP_NUM", .int 2)], [d1, d2]⟩
      pure (w.file.data.length, w1.file.data.length, w2.file.data.length,
        w2.file.data.take w1.file.data.length == w1.file.data, w.bh.maxNumAddTrHeaders)) =
    (Except.ok (3600, 3842, 4086, true, 0) : Out (Nat × Nat × Nat × Bool × Int)) := by decide +kernel

/-! ## C29 -/

/-- **C29 (part).** When a trace has as many samples as the file announces for it, its sample block
is exactly the encodings of its samples. The full property also covers other counts; see the next
theorems. -/
theorem C29_exact_partial (est : LogEst) (rev : Rev) (w0 w w' : Writer) (ts : List Trace) (t : Trace)
    (ho : Opens rev w0) (hw : Written (rev.write est) w0 ts w) (h : rev.write est w t = .ok w')
    (hn : Announced rev w'.bh t t.samples.length) :
    ∃ before ps, EncodedBy est w0.bh.formatCode w0.bo t.samples ps ∧
      w'.file.data = before ++ ps.flatten := by
  obtain ⟨i1, i2, i3, i4, i5, i6, i7, i8⟩ := written_inv2 (opens_inv2 ho) hw
  obtain ⟨-, s, ha, -, -, -, -, n, hn', hl⟩ := step_full i1 h
  have hnn : n = t.samples.length := by
    unfold Announced at hn hn'
    split at hn
    · rename_i hf
      rw [if_pos hf] at hn'
      omega
    · rename_i hf
      rw [if_neg hf, hn] at hn'
      simp only [Option.some.injEq, Value.int.injEq] at hn'
      omega
  have hfm : s.wa.bh.formatCode = w.bh.formatCode := by
    obtain ⟨-, -, hc⟩ := autoHdrs_ok i1.inv s.auto
    split at hc
    · rename_i hau
      obtain ⟨_, _, _, -, -, -, -, -, -, -, -, -, e⟩ :=
        setMinHdrs_first (by rw [i1.inv.atEnd]; exact hau.2) hc.1
      rw [e]
    · rw [hc]
  have hst := s.store
  obtain ⟨ps, he, -, hout⟩ := storeSamples_ok hst
  have hw' := s.encOk
  rw [hfm] at hw'
  have hpl := encoded_length hw' i1.bps he
  have hps : w'.samp = ps.flatten := by
    by_cases hx : t.samples = []
    · rw [hx] at hnn
      rw [hx] at hpl
      simp only [List.length_nil, Nat.zero_mul] at hpl hnn
      rw [hnn, Nat.zero_mul] at hl
      rw [List.length_eq_zero_iff.1 hl, List.length_eq_zero_iff.1 hpl]
    · rw [if_neg hx] at hout
      rw [hout, List.take_zero, List.nil_append, List.drop_of_length_le, List.append_nil]
      rw [hpl, ← s.sampLen, hl, hnn]
      omega
  refine ⟨s.wa.file.data ++ (s.hb ++ s.add), ps, ⟨s.enc, by rw [← i4]; exact hw', ?_⟩, ?_⟩
  · rw [← i2.bo]; exact he
  · rw [s.app.data, ← hps]
    simp only [List.append_assoc]

/-- **C29.** A successful call never has more samples than announced. -/
theorem C29_at_most (est : LogEst) (rev : Rev) (w0 w w' : Writer) (ts : List Trace) (t : Trace) (n : Nat)
    (ho : Opens rev w0) (hw : Written (rev.write est) w0 ts w) (h : rev.write est w t = .ok w')
    (hn : Announced rev w'.bh t n) : t.samples.length ≤ n := by
  obtain ⟨i1, i2, i3, i4, i5, i6, i7, i8⟩ := written_inv2 (opens_inv2 ho) hw
  obtain ⟨-, s, ha, -, -, -, -, n', hn', hl⟩ := step_full i1 h
  have hnn : n' = n := by
    unfold Announced at hn hn'
    split at hn
    · rename_i hf
      rw [if_pos hf] at hn'
      omega
    · rename_i hf
      rw [if_neg hf, hn] at hn'
      simp only [Option.some.injEq, Value.int.injEq] at hn'
      omega
  have hfm : s.wa.bh.formatCode = w.bh.formatCode := by
    obtain ⟨-, -, hc⟩ := autoHdrs_ok i1.inv s.auto
    split at hc
    · rename_i hau
      obtain ⟨_, _, _, -, -, -, -, -, -, -, -, -, e⟩ :=
        setMinHdrs_first (by rw [i1.inv.atEnd]; exact hau.2) hc.1
      rw [e]
    · rw [hc]
  obtain ⟨ps, he, hle, -⟩ := storeSamples_ok s.store
  have hw' := s.encOk
  rw [hfm] at hw'
  have hpl := encoded_length hw' i1.bps he
  rcases hle with hx | hle
  · rw [hx]; simp
  · rw [hpl, ← s.sampLen, hl, hnn, Nat.zero_add] at hle
    exact Nat.le_of_mul_le_mul_right hle (bps_small i1.bps).1

/-- **C29 fails for longer traces.** A trace with more samples than announced makes `write_trace`
write beyond the end of the sample buffer. -/
theorem C29_too_many_undefined (est : LogEst) (rev : Rev) (w0 w : Writer) (ts : List Trace) (t : Trace)
    (n : Nat) (b : HBlock) (m : HdrMap) (hb : Bytes) (ps : List Bytes)
    (ho : Opens rev w0) (hadd : w0.bh.maxNumAddTrHeaders = 0) (hauto : w0.auto = false)
    (hw : Written (rev.write est) w0 ts w) (hn : Announced rev w.bh t n)
    (hlong : n < t.samples.length) (hsz : n < 2 ^ 60) (hmap : w0.map = b :: m)
    (hblk : writeBlock est w0.bo b.fields t.header (List.replicate 240 0) = .ok hb)
    (hps : EncodedBy est w0.bh.formatCode w0.bo t.samples ps) :
    rev.write est w t = isUb .outOfBounds := by
  obtain ⟨i1, i2, i3, i4, i5, i6, i7, i8⟩ := written_inv2 (opens_inv2 ho) hw
  have hau : w.auto = false := by rw [i2.auto, hauto]
  have hs := bps_small i1.bps
  have hmul : n * w.bps < 2 ^ 63 := by
    have : n * w.bps ≤ n * 8 := Nat.mul_le_mul (Nat.le_refl _) hs.2
    omega
  obtain ⟨buf, hl, e⟩ := write_eq (wa := w) (b := b) (m := m) (hb := hb) (n := n)
    (autoHdrs_idle i1.inv (by rw [hau]; simp)) (fun c => (i1.autoBh c).1) i1.inv.hdr
    (by rw [i2.map, hmap]) (by rw [i2.bo]; exact hblk) (fun _ => by rw [i5, hadd]) hn hmul
    (fun hf => i1.buf hf (by rw [hau]; simp))
  obtain ⟨enc, h1, h2⟩ := hps
  have h1' : sampleWriter est w.bh.formatCode = .ok enc := by rw [i4, h1]
  rw [← i2.bo] at h2
  have hpl := encoded_length h1' i1.bps h2
  rw [e, h1', ok_bind, storeSamples_overflow h2 (Nat.zero_le _)]
  · rfl
  · rw [hl, hpl, Nat.zero_add]
    exact Nat.mul_lt_mul_of_pos_right hlong hs.1

/-- Three samples in a file of two sample traces. -/
example : (do
      let w ← openRev0 exText { formatCode := 3, sampPerTr := 2 } exWMap
      writeTraceRev0 (.strict fun _ => 0) w ⟨[], [d1, d2, d3]⟩) = isUb .outOfBounds := by decide +kernel

/-- **C29 fails for shorter traces.** A trace with fewer samples than announced is completed with
the samples of the trace before it: the one sample 3 is followed by the 2 of the first trace. -/
theorem C29_too_few_stale :
    (do
      let w ← openRev0 exText { formatCode := 3, sampPerTr := 2 } exWMap
      let w ← writeTraceRev0 (.strict fun _ => 0) w ⟨[], [d1, d2]⟩
      let w ← writeTraceRev0 (.strict fun _ => 0) w ⟨[], [d3]⟩
      pure (w.file.data.drop (3600 + 244 + 240))) = (Except.ok [0, 3, 0, 2] : Out Bytes) := by
  decide +kernel

/-! ## C25 -/

/-- **C25.** Revision 0 refuses a text header that is not 3200 bytes long. -/
theorem C25_rev0_refuses (text : Bytes) (bh : BinHeader) (m : HdrMap) (hm : checkMap bh m = .ok ())
    (hne : text ≠ []) (hl : text.length ≠ 3200) :
    openRev0 text bh m = throwExn .textHeaderSize := by
  unfold openRev0
  rw [hm, ok_bind, if_neg hne, textsOr_bad (t := text) (by simp) hl]
  rfl

/-- **C25.** Revision 1 refuses a list with a text header that is not 3200 bytes long. -/
theorem C25_rev1_refuses (texts : List Bytes) (bh : BinHeader) (m : HdrMap)
    (hm : checkMap bh m = .ok ()) (t : Bytes) (ht : t ∈ texts) (hl : t.length ≠ 3200) :
    openRev1 texts bh m = throwExn .textHeaderSize := by
  unfold openRev1
  rw [hm, ok_bind, textsOr_bad ht hl]
  rfl

/-- **C25.** So does revision 2. -/
theorem C25_rev2_refuses (texts trailers : List Bytes) (bh : BinHeader) (m : HdrMap)
    (hm : checkMap bh m = .ok ()) (t : Bytes) (ht : t ∈ texts) (hl : t.length ≠ 3200) :
    openRev2 texts bh trailers m = throwExn .textHeaderSize := by
  unfold openRev2
  rw [hm, ok_bind, textsOr_bad ht hl]
  rfl

/-- **C25.** Revision 2 refuses a trailer stanza that is not 3200 bytes long. -/
theorem C25_trailer_refused (texts trailers : List Bytes) (bh : BinHeader) (m : HdrMap)
    (hm : checkMap bh m = .ok ()) (hts : ∀ t ∈ texts, t.length = 3200) (t : Bytes)
    (ht : t ∈ trailers) (hl : t.length ≠ 3200) :
    openRev2 texts bh trailers m = throwExn .trailerSize := by
  have hc : checkSizes .trailerSize trailers = throwExn .trailerSize := by
    unfold checkSizes
    rw [if_neg]
    simp only [List.all_eq_true, decide_eq_true_eq]
    exact fun c => hl (c t ht)
  unfold openRev2
  rw [hm, ok_bind]
  by_cases hn : texts = []
  · subst hn
    rw [show textsOr (some [defaultTextRev2]) [] = .ok [defaultTextRev2] from rfl, ok_bind, hc]
    rfl
  · rw [textsOr_good hn hts, ok_bind, hc]
    rfl

/-- **C25.** Text headers of 3200 bytes are accepted (format and byte order marker being
supported), and are at their places in the file: the first one at the start, the others after the
binary header. -/
theorem C25_accepts (texts trailers : List Bytes) (bh : BinHeader) (m : HdrMap) (t : Bytes)
    (exts : List Bytes) (hm : checkMap bh m = .ok ()) (hts : texts = t :: exts)
    (hl : ∀ x ∈ texts, x.length = 3200) (htr : ∀ x ∈ trailers, x.length = 3200)
    (hf : bh.formatCode = 0 ∨ bh.formatCode ∈ supportedFormats) (bo : ByteOrder)
    (hbo : byteOrderOf bh.endianness = .ok bo) :
    (∃ w bin, openRev0 t bh m = .ok w ∧ bin.length = 400 ∧ w.file.data = t ++ bin) ∧
    (∃ w bin, openRev1 texts bh m = .ok w ∧ bin.length = 400 ∧
      w.file.data = t ++ (bin ++ exts.flatten)) ∧
    (∃ w bin, openRev2 texts bh trailers m = .ok w ∧ bin.length = 400 ∧
      w.file.data = t ++ (bin ++ exts.flatten)) := by
  have htl : t.length = 3200 := hl t (by rw [hts]; simp)
  have hel : ∀ x ∈ exts, x.length = 3200 := fun x hx => hl x (by rw [hts]; simp [hx])
  have hfm : ∀ r0, (fmtOr r0 bh).formatCode ∈ supportedFormats := by
    intro r0
    unfold fmtOr
    split
    · show (if r0 = true then (1 : Int) else 5) ∈ supportedFormats
      cases r0 <;> decide
    · rename_i h0
      exact hf.resolve_left h0
  have hbp : ∀ r0, ∃ n, bytesPerSample (fmtOr r0 bh).formatCode = some n := by
    intro r0
    obtain ⟨n, _, h, -⟩ := writer_shape (.strict fun _ => 0) (hfm r0)
    exact ⟨n, h⟩
  have e3 : t.take 3200 = t := List.take_of_length_le (by omega)
  obtain ⟨n, hn⟩ := hbp true
  obtain ⟨k, hk⟩ := hbp false
  subst hts
  refine ⟨⟨_, binHeaderBytes bo (fmtOr true bh), openRev0_of hm htl hbo (hfm true) hn,
      binHeaderBytes_length _ _, ?_⟩,
    ⟨_, binHeaderBytes bo (fmtOr false bh), openRev1_of hm hl hbo (hfm false) hk,
      binHeaderBytes_length _ _, ?_⟩,
    ⟨_, binHeaderBytes bo (fmtOr false bh), openRev2_of hm hl htr hbo (hfm false) hk,
      binHeaderBytes_length _ _, ?_⟩⟩ <;>
  · unfold openedWriter
    simp only [e3, if_true, List.append_nil, Bool.false_eq_true, if_false, textBytes_exact hel]

/-- **C25.** The first text header stays at the start of the file, whatever is written later. -/
theorem C25_kept (est : LogEst) (rev : Rev) (w0 w : Writer) (ts : List Trace) (ho : Opens rev w0)
    (hw : Written (rev.write est) w0 ts w) :
    w.file.data.take 3200 = w0.file.data.take 3200 := by
  induction hw with
  | opened => rfl
  | @wrote ts t w w' h1 h2 ih =>
    obtain ⟨bin, new, hb, -, e, -⟩ := C36_appends est rev w0 w w' ts t ho h1 h2
    have := (written_inv2 (opens_inv2 ho) h1).1.inv.first
    rw [e, List.take_left' (by rw [List.length_take]; omega), ih]

example : checkMap { formatCode := 3 } exWMap = .ok () ∧ exText.length = 3200 ∧
    openRev0 (exText ++ [0]) { formatCode := 3 } exWMap = throwExn .textHeaderSize ∧
    openRev1 [exText, exText.drop 1] { formatCode := 3 } exWMap = throwExn .textHeaderSize ∧
    openRev2 [exText] { formatCode := 3 } [[]] exWMap = throwExn .trailerSize := by decide +kernel

/-! ## C27 -/

theorem auto_opens {rev : Rev} {w : Writer} (h : OpensAuto rev w) :
    Opens rev w ∧ w.auto = true ∧ w.bh = { formatCode := rev.defaultFormat } ∧ w.bo = .be ∧
      w.file.data.length = 3600 ∧ w.firstPos = 3600 := by
  have hopen : Opens rev w := by
    cases rev with
    | r0 => obtain ⟨text, m, h⟩ := h; exact ⟨text, {}, m, h⟩
    | r1 => obtain ⟨texts, m, hl, h⟩ := h; exact ⟨texts, {}, m, by omega, h⟩
    | r2 => obtain ⟨texts, tr, m, hl, h⟩ := h; exact ⟨texts, {}, tr, m, by omega, h⟩
  refine ⟨hopen, ?_⟩
  have key : ∀ (r0 : Bool) (t : Bytes) (ts trl : List Bytes) (m : HdrMap) (bo : ByteOrder) (bps : Nat),
      3200 ≤ t.length → ts = [] → byteOrderOf ({} : BinHeader).endianness = .ok bo →
      w = openedWriter r0 t ts trl {} m bo bps →
      w.auto = true ∧ w.bh = { formatCode := if r0 then 1 else 5 } ∧ w.bo = .be ∧
      w.file.data.length = 3600 ∧ w.firstPos = 3600 := by
    rintro r0 t ts trl m bo bps h1 rfl h2 rfl
    have e : memHeader r0 (([] : List Bytes).length + 1) {} = { formatCode := if r0 then 1 else 5 } := by
      cases r0 <;> decide +kernel
    have hbo : bo = .be := by
      have : byteOrderOf ({} : BinHeader).endianness = .ok .be := by decide
      rw [this] at h2
      exact (Except.ok.inj h2).symm
    have hl : (t.take 3200 ++ (binHeaderBytes bo (fmtOr r0 {}) ++ if r0 = true then [] else textBytes [])).length = 3600 := by
      rw [List.length_append, List.length_append, List.length_take, binHeaderBytes_length]
      cases r0 <;> simp [textBytes] <;> omega
    unfold openedWriter
    simp only
    rw [e]
    exact ⟨by cases r0 <;> rfl, rfl, hbo, hl, hl⟩
  cases rev with
  | r0 =>
    obtain ⟨text, m, h⟩ := h
    obtain ⟨-, t, bo, bps, h1, -, -, h2, -, -, rfl⟩ := openRev0_ok h
    exact key true t [] [] m bo bps h1 rfl h2 rfl
  | r1 =>
    obtain ⟨texts, m, hl, h⟩ := h
    obtain ⟨-, t, ts, bo, bps, h1, -, h2, h3, h4, -, -, rfl⟩ := openRev1_ok h
    refine key false t ts [] m bo bps h1 ?_ h4 rfl
    by_cases c : texts = []
    · exact (h3 c).1
    · rw [(h2 c).1, List.length_cons] at hl
      exact List.length_eq_zero_iff.1 (by omega)
  | r2 =>
    obtain ⟨texts, tr, m, hl, h⟩ := h
    obtain ⟨-, -, t, ts, bo, bps, h1, -, h2, h3, h4, -, -, rfl⟩ := openRev2_ok h
    refine key false t ts tr m bo bps h1 ?_ h4 rfl
    by_cases c : texts = []
    · exact (h3 c).1
    · rw [(h2 c).1, List.length_cons] at hl
      exact List.length_eq_zero_iff.1 (by omega)

theorem sampIntOf_of {o : Bool} {hdr : Header} {x : ℚ} (h : HeaderNum hdr "SAMP_INT" x)
    (ho : o = true → ∃ n : Int, hdr.get "SAMP_INT" = some (.int n)) :
    ∃ d, sampIntOf o hdr = .ok d ∧ dblRat d = some x := by
  rcases h with ⟨n, h1, h2, rfl⟩ | ⟨d, h1, h2⟩
  · exact ⟨dblOfInt n, by unfold sampIntOf; rw [h1], dblRat_ofInt h2⟩
  · refine ⟨d, ?_, h2⟩
    unfold sampIntOf
    rw [h1]
    simp only
    rw [if_neg]
    intro c
    obtain ⟨n, hn⟩ := ho c
    rw [h1] at hn
    cases hn

/-- **C27.** The first trace given to an automatic writer decides the binary header in the file:
it is the default one with the number of samples and the sample interval of the trace (without
fraction). -/
theorem C27_first_trace (est : LogEst) (rev : Rev) (w0 w1 : Writer) (t : Trace)
    (ho : OpensAuto rev w0) (h : rev.write est w0 t = .ok w1) :
    ∃ n si : Int, t.header.get "SAMP_NUM" = some (.int n) ∧ 0 ≤ n ∧ n ≤ 32767 ∧
      (∀ x, HeaderNum t.header "SAMP_INT" x → x ≤ 32767 ∧ Truncates x si) ∧
      si ≠ 0 ∧ -32768 ≤ si ∧ si ≤ 32767 ∧
      (w1.file.data.drop 3200).take 400 = binHeaderBytes .be
        { formatCode := rev.defaultFormat, sampPerTr := n, sampInt := si } := by
  obtain ⟨hop, hauto, hbh, hbo, hlen, hfp⟩ := auto_opens ho
  have i1 := opens_inv2 hop
  obtain ⟨-, s, -⟩ := step_full i1 h
  obtain ⟨-, -, hc⟩ := autoHdrs_ok i1.inv s.auto
  rw [if_pos ⟨hauto, by omega⟩] at hc
  obtain ⟨n, d, si, g1, g2, g3, g4, g5, g6, g7, g8, g9, g10⟩ :=
    setMinHdrs_first (by rw [i1.inv.atEnd]; omega) hc.1
  have hs := bps_small i1.bps
  have hn0 : 0 ≤ n := by
    by_contra hneg
    have := mul_neg_toU (by omega) hs.1 (mulInt64_ok g7).2.1
    omega
  have hval : ∀ x, HeaderNum t.header "SAMP_INT" x → x ≤ 32767 ∧ Truncates x si := by
    intro x hnum
    have hx : dblRat d = some x := by
      unfold sampIntOf at g3
      rcases hnum with ⟨k, k1, k2, rfl⟩ | ⟨e, k1, k2⟩
      · rw [k1] at g3
        rw [← Except.ok.inj g3, dblRat_ofInt k2]
      · rw [k1] at g3
        simp only at g3
        split at g3
        · cases g3
        · rw [← Except.ok.inj g3, k2]
    obtain ⟨y, hy, htr⟩ := dblToS_ok g5
    rw [hx] at hy
    have hyx := Option.some.inj hy
    subst hyx
    refine ⟨?_, htr⟩
    by_contra hgt
    have : dblGtNat d 32767 = true := (dblGtNat_iff hx 32767).2 (by push_cast; linarith)
    rw [this] at g4; cases g4
  have hrange : -32768 ≤ si ∧ si ≤ 32767 := by
    unfold dblToS dblToInt at g5
    split at g5
    · split at g5
      · rename_i hr
        have e := Except.ok.inj g5
        norm_num at hr
        omega
      · cases g5
    · cases g5
  refine ⟨n, si, g1, hn0, g2, hval, g6, hrange.1, hrange.2, ?_⟩
  · have e : s.wa.bh = { formatCode := rev.defaultFormat, sampPerTr := n, sampInt := si } := by
      rw [g10, hbh]
      simp only
      congr 1
      obtain ⟨k, rfl⟩ := Int.eq_ofNat_of_zero_le hn0
      unfold toS toU
      norm_num
      split <;> omega
    rw [s.app.data, hc.2, e, hbo, List.append_assoc]
    rw [List.drop_left' (by rw [List.length_take]; omega), List.take_left' (binHeaderBytes_length _ _)]

/-- **C27.** The binary header so stored is read back as such. -/
theorem C27_read_back (rev : Rev) (n si : Int) (hn : 0 ≤ n ∧ n ≤ 32767)
    (hs : -32768 ≤ si ∧ si ≤ 32767) :
    fillBinHeader {} false (binHeaderBytes .be
      { formatCode := rev.defaultFormat, sampPerTr := n, sampInt := si }) =
      .ok (.be, { formatCode := rev.defaultFormat, sampPerTr := n, sampInt := si }) := by
  obtain ⟨bo, h1, h2⟩ := C07_roundtrip_partial
    { formatCode := rev.defaultFormat, sampPerTr := n, sampInt := si } (by
      have h16 : ∀ v : Int, -32768 ≤ v → v ≤ 32767 → IntKind.i16.InRange v := by
        intro v a b
        unfold IntKind.InRange
        simp [IntKind.signed, IntKind.size]
        omega
      have hd : IntKind.i16.InRange rev.defaultFormat := by cases rev <;> decide
      have h0 : ∀ k : IntKind, k.InRange 0 := by intro k; cases k <;> decide
      unfold BinHeader.WF
      simp only [h0, hd, h16 n (by omega) hn.2, h16 si hs.1 hs.2, and_self]) (.inl rfl)
  have : bo = .be := by
    simp only at h1
    have e : byteOrderOf 0 = .ok .be := by decide
    rw [e] at h1
    exact (Except.ok.inj h1).symm
  subst this
  rw [h2]
  rfl

/-- **C27.** Later traces never change the binary header. -/
theorem C27_later_traces (est : LogEst) (rev : Rev) (w0 w w' : Writer) (ts : List Trace) (t : Trace)
    (ho : Opens rev w0) (hw : Written (rev.write est) w0 ts w) (hts : ts ≠ [])
    (h : rev.write est w t = .ok w') :
    (w'.file.data.drop 3200).take 400 = (w.file.data.drop 3200).take 400 ∧ w'.bh = w.bh := by
  obtain ⟨i1, i2, i3, i4, i5, i6, i7, i8⟩ := written_inv2 (opens_inv2 ho) hw
  obtain ⟨-, s, -⟩ := step_full i1 h
  obtain ⟨-, -, hc⟩ := autoHdrs_ok i1.inv s.auto
  rw [if_neg (by have := i8 hts; omega)] at hc
  have e := s.app.data
  rw [hc] at e
  refine ⟨?_, by rw [s.app.bh, hc]⟩
  have := i1.inv.first
  rw [e, List.drop_append_of_le_length (by omega), List.take_append_of_le_length]
  rw [List.length_drop]
  omega

/-- **C27.** More than 32767 samples are refused. -/
theorem C27_too_many_samples (est : LogEst) (rev : Rev) (w0 : Writer) (t : Trace) (n : Int)
    (ho : OpensAuto rev w0) (hn : t.header.get "SAMP_NUM" = some (.int n)) (hbig : 32767 < n) :
    rev.write est w0 t = throwExn .tooManySamples := by
  obtain ⟨hop, hauto, hbh, hbo, hlen, hfp⟩ := auto_opens ho
  have i1 := opens_inv2 hop
  have key : ∀ o, autoHdrs o w0 t.header = throwExn .tooManySamples := by
    intro o
    unfold autoHdrs setMinHdrs needInt
    rw [if_pos hauto, if_pos (by rw [i1.inv.atEnd]; omega), hn]
    simp only
    rw [ok_bind, if_pos hbig]
  cases rev with
  | r0 => show writeTraceRev0 est w0 t = _; unfold writeTraceRev0; rw [key]; rfl
  | r1 => show writeTraceRev1 est w0 t = _; unfold writeTraceRev1; rw [key]; rfl
  | r2 => show writeTraceRev2 est w0 t = _; unfold writeTraceRev2; rw [key]; rfl

/-- **C27.** A sample interval above 32767, or one without an integer part, is refused. Revision 2
accepts integer intervals only. -/
theorem C27_bad_interval (est : LogEst) (rev : Rev) (w0 : Writer) (t : Trace) (n : Int) (x : ℚ)
    (ho : OpensAuto rev w0) (hn : t.header.get "SAMP_NUM" = some (.int n)) (hle : n ≤ 32767)
    (hx : HeaderNum t.header "SAMP_INT" x)
    (h2 : rev = .r2 → ∃ n : Int, t.header.get "SAMP_INT" = some (.int n))
    (hbad : 32767 < x ∨ (-1 < x ∧ x < 1)) :
    rev.write est w0 t = throwExn .badSampleInterval := by
  obtain ⟨hop, hauto, hbh, hbo, hlen, hfp⟩ := auto_opens ho
  have i1 := opens_inv2 hop
  have key : autoHdrs (Rev.onlyInt rev) w0 t.header = throwExn .badSampleInterval := by
    obtain ⟨d, hd1, hd2⟩ := sampIntOf_of (o := Rev.onlyInt rev) hx (fun c => h2 (by
      cases rev <;> first | rfl | cases c))
    unfold autoHdrs setMinHdrs needInt
    rw [if_pos hauto, if_pos (by rw [i1.inv.atEnd]; omega), hn]
    simp only
    rw [ok_bind, if_neg (by omega), hd1, ok_bind]
    rcases hbad with hb | ⟨hb1, hb2⟩
    · rw [if_pos ((dblGtNat_iff hd2 32767).2 (by push_cast; exact hb))]
    · rw [if_neg]
      · have ht : Truncates x 0 := by
          unfold Truncates
          constructor <;> intro h <;> push_cast <;> constructor <;> linarith
        rw [dblToS_of hd2 ht (by norm_num), ok_bind, if_pos rfl]
      · rw [dblGtNat_iff hd2]
        push_cast
        linarith
  cases rev with
  | r0 => show writeTraceRev0 est w0 t = _; unfold writeTraceRev0
          rw [show autoHdrs false w0 t.header = _ from key]; rfl
  | r1 => show writeTraceRev1 est w0 t = _; unfold writeTraceRev1
          rw [show autoHdrs false w0 t.header = _ from key]; rfl
  | r2 => show writeTraceRev2 est w0 t = _; unfold writeTraceRev2
          rw [show autoHdrs true w0 t.header = _ from key]; rfl

/-- An interval of 2.5 is stored as 2, 40000 samples and an interval of 0 are refused. -/
example :
    (do
      let w ← openRev1 [] {} exWMap
      let w ← writeTraceRev1 (.strict fun _ => 0) w
        ⟨[("SAMP_NUM", .int 1), ("SAMP_INT", .dbl 0x4004000000000000)], [d1]⟩
      pure (w.bh.sampPerTr, w.bh.sampInt)) = (Except.ok (1, 2) : Out (Int × Int)) ∧
    (do
      let w ← openRev2 [] {} [] exWMap
      writeTraceRev2 (.strict fun _ => 0) w ⟨[("SAMP_NUM", .int 40000), ("SAMP_INT", .int 2)], []⟩) =
      throwExn .tooManySamples ∧
    (do
      let w ← openRev0 [] {} exWMap
      writeTraceRev0 (.strict fun _ => 0) w ⟨[("SAMP_NUM", .int 1), ("SAMP_INT", .int 0)], []⟩) =
      throwExn .badSampleInterval := by decide +kernel

/-! ## C30, writing -/

/-- **C30, writing.** The number of extended text headers stored in the binary header is the one the
caller put there, not the one of the list (an in-memory copy is corrected after the header has been
written). -/
theorem C30_stored_count (texts trailers : List Bytes) (bh : BinHeader) (m : HdrMap) (w : Writer)
    (hbo : bh.endianness = 0) (h : openRev1 texts bh m = .ok w ∨ openRev2 texts bh trailers m = .ok w) :
    ((w.file.data.drop 3504).take 2) = encInt .be 2 bh.extTextHeadersNum := by
  have key : ∀ (t : Bytes) (ts trl : List Bytes) (bo : ByteOrder) (bps : Nat), 3200 ≤ t.length →
      byteOrderOf bh.endianness = .ok bo → w = openedWriter false t ts trl bh m bo bps →
      (w.file.data.drop 3504).take 2 = encInt .be 2 bh.extTextHeadersNum := by
    rintro t ts trl bo bps h1 h2 rfl
    have hb : bo = .be := by
      rw [hbo] at h2
      have e : byteOrderOf 0 = .ok .be := by decide
      rw [e] at h2
      exact (Except.ok.inj h2).symm
    subst hb
    unfold openedWriter
    simp only
    have := C08_layout .be (fmtOr false bh) (t.take 3200)
      (if false = true then [] else textBytes ts) (by rw [List.length_take]; omega)
      ⟨3505, 2, (·.extTextHeadersNum)⟩ (by simp [binLayout])
    simp only [List.append_assoc] at this
    rw [this]
    unfold fmtOr
    split <;> rfl
  rcases h with h | h
  · obtain ⟨-, t, ts, bo, bps, h1, -, -, -, h2, -, -, h3⟩ := openRev1_ok h
    exact key t ts [] bo bps h1 h2 h3
  · obtain ⟨-, -, t, ts, bo, bps, h1, -, -, -, h2, -, -, h3⟩ := openRev2_ok h
    exact key t ts trailers bo bps h1 h2 h3

/-- **C30, writing, fails.** Two text headers and a binary header that does not mention the second
one: the file declares none, and the reader returns one text only and takes the second text for
traces. -/
theorem C30_undeclared_lost :
    (do
      let w ← openRev1 [exText, exText] { formatCode := 3, revMajor := 1, sampPerTr := 2 } exWMap
      let r ← openReader w.file.data none exWMap
      pure (w.file.data.length, w.bh.extTextHeadersNum, r.bh.extTextHeadersNum, r.texts.length,
        hasTrace r)) =
      (Except.ok (6800, 1, 0, 1, true) : Out (Nat × Int × Int × Nat × Bool)) := by decide +kernel

end Sedaman.Props
