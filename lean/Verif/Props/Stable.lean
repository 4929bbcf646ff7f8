import Verif.Lemmas.Stable
import Verif.Props.Copy12
import Verif.Props.Platform
import Mathlib.Tactic.ByContra

/-!
# C92: writing what was read from a written file
-/

namespace Sedaman.Props

open Spec

/-! ## Samples -/

/-- **C92.** Every sample is stable in format 6. -/
theorem C92_stable_double (est : LogEst) (bo : ByteOrder) (x : Dbl) : Stable est 6 bo x :=
  ⟨_, _, rfl, rfl, C55_sample_double est bo _ (by rw [writeIeeeDouble, writeU64_eq, encInt_length])⟩

/-- **C92.** Every sample is stable in format 5, although it may be rounded when it is written first. -/
theorem C92_stable_single (est : LogEst) (bo : ByteOrder) (x : Dbl) : Stable est 5 bo x := by
  refine ⟨_, _, rfl, rfl, ?_⟩
  refine ⟨_, _, sglToDbl (dblToSgl x), rfl, rfl, fun rest => ieee_float_rt bo x rest, ?_⟩
  show Except.ok (writeIeeeFloat bo (sglToDbl (dblToSgl x))) = .ok (writeIeeeFloat bo x)
  unfold writeIeeeFloat
  rw [single_again]

/-- 0.1 in format 5 -/
example : Stable (.strict fun _ => 0) 5 .be 0x3FB999999999999A := C92_stable_single _ _ _

/-- **C92.** In the integer formats a sample is stable if its integer part is in the range of the format,
and is not negative or the computer takes negative numbers modulo the size of the type. -/
theorem C92_stable_integer (est : LogEst) (fmt : Int) (k : IntKind) (hk : intFormat fmt = some k) (bo : ByteOrder)
    (d : Dbl) (x : ℚ) (v : Int) (hd : dblRat d = some x) (hv : Truncates x v) (hr : k.InRange v)
    (hs : 0 ≤ v ∨ WrapsNegative est) : Stable est fmt bo d := by
  obtain ⟨u, h1, h2⟩ := write_kept (bo := bo) hs hd hv hr
  have hback := int_part_exact hd hv
  obtain ⟨u', h3, h4⟩ := write_kept (bo := bo) hs hback (truncates_cast v) hr
  refine ⟨_, k.write bo v, sampleWriter_int est hk, ?_, _, _, dblOfInt v, sampleWriter_int est hk, sampleReader_int hk,
    fun rest => ?_, ?_⟩
  · simp only [h1, ok_bind, h2]
    rfl
  · rw [rd_bind, C04_roundtrip bo k v hr rest]
    rfl
  · simp only [h3, ok_bind, h4]
    rfl

/-- 2.5 in format 3, and -2.5 on x86-64 -/
example (f : Dbl → Int) : Stable (.strict f) 3 .be 0x4004000000000000 ∧ Stable ⟨f, x86Conv⟩ 3 .be 0xC004000000000000 :=
  ⟨C92_stable_integer _ 3 .i16 rfl .be _ (5 / 2) 2 (by decide +kernel) ⟨by norm_num, by norm_num⟩ (by decide) (.inl (by decide)),
   C92_stable_integer _ 3 .i16 rfl .be _ (-5 / 2) (-2) (by decide +kernel) ⟨by norm_num, by norm_num⟩ (by decide)
    (.inr (C91_x86 f).1)⟩

/-- **C92.** In format 1 a sample in the range of the format is stable when the logarithm is computed
exactly. -/
theorem C92_stable_ibm (est : LogEst) (he : ExactLog est) (bo : ByteOrder) (d : Dbl) (x : ℚ) (hd : dblRat d = some x)
    (hlo : (16 : ℚ) ^ (-65 : Int) ≤ |x|) (hhi : |x| < (16 : ℚ) ^ (63 : Int)) : Stable est 1 bo d := by
  have hpos : ∀ {d : Dbl} {x : ℚ}, dblRat d = some x → (16 : ℚ) ^ (-65 : Int) ≤ |x| → |x| < (16 : ℚ) ^ (63 : Int) →
      x ≠ 0 ∧ IbmExponent x (est (dblAbs d)) := by
    intro d x hd hlo hhi
    have h0 : 0 < |x| := lt_of_lt_of_le (by positivity) hlo
    have := he (dblAbs d) |x| (dblAbs_rat hd) h0 hlo hhi
    unfold IbmExponent at this ⊢
    rw [abs_abs] at this
    exact ⟨abs_pos.1 h0, this⟩
  obtain ⟨h0, hE⟩ := hpos hd hlo hhi
  have ht0 : 0 ≤ est (dblAbs d) := by
    have h := lt_of_le_of_lt hlo hE.2
    rw [zpow_lt_zpow_iff_right₀ (by norm_num)] at h
    omega
  have ht1 : est (dblAbs d) ≤ 127 := by
    have h := lt_of_le_of_lt hE.1 hhi
    rw [zpow_lt_zpow_iff_right₀ (by norm_num)] at h
    omega
  obtain ⟨w, h1, h2, h3, h4, h5⟩ := C12_error_below_one_unit_partial est d x hd h0 hE ht0 ht1
  have hl : (writeU32 bo w).length = 4 := by rw [writeU32_eq]; simp
  have hw : decNat bo (writeU32 bo w) = w := by
    rw [writeU32_eq, decNat_encInt, toU_of_nat_lt (by simpa using h2)]
  refine ⟨_, writeU32 bo w, rfl, by simp only [writeIbm, h1, ok_bind]; rfl, ?_⟩
  refine C55_sample_ibm est bo _ hl (by rw [hw]; exact h3) ?_
  rw [hw]
  obtain ⟨r, y, g1, g2, g3⟩ := C12_decode_value bo (writeU32 bo w) [] hl
  have gy : y = ibmDecode w := by
    cases g1
    simp only [readIbm, readU32_eq, writeU32_eq, rd_bind, rdNat_encInt, toU_of_nat_lt (n := 4) (v := w) (by simpa using h2)] at g2
    cases g2
    rfl
  rw [hw, gy] at g3
  refine (hpos g3 ?_ (lt_of_le_of_lt h4 hhi)).2
  exact ibm_normalised_large h3

/-- **C92.** Zeros are stable in format 1 where minus infinity is converted to a number that ends in zero
bits. -/
theorem C92_stable_ibm_zero (est : LogEst) (hz : LogOfZero est) (bo : ByteOrder) (d : Dbl) (hd : dblRat d = some 0) :
    Stable est 1 bo d := by
  obtain ⟨⟨w, h1, h2⟩, -⟩ := C91_ibm_zero est hz bo d hd
  exact ⟨w, _, h1, h2, C91_rewrites_zero est hz bo⟩

/-! ## Files -/

/-- **C92 (part).** A fixed length revision 0 file the library wrote is written again, byte for byte, when
it is read and what was read is given to `OSEGYRev0`. The traces that were read may differ from the
traces that were written first: samples are rounded, and header values that are in no field are lost. -/
theorem C92_rev0_partial (est : LogEst) (text : Bytes) (bh : BinHeader) (m : HdrMap) (b : HBlock)
    (ts : List Trace) (ht : text.length = 3200) (hbh : HeaderOk bh) (hm : MapOk bh m b)
    (hrev : bh.revMajor = 0) (hexts : bh.extTextHeadersNum = 0) (hext : bh.extSampPerTr = 0)
    (hexplicit : bh ≠ { formatCode := 1 }) (hvis : visible bh = bh)
    (hint : ∀ f ∈ b.fields, ∃ k, intKind f.ty = some k)
    (hts : ∀ t ∈ ts, Storable est bh.formatCode (orderOfMarker bh.endianness) b.fields t ∧
      (t.samples.length : Int) = bh.sampPerTr % 65536)
    (hst : ∀ t ∈ ts, ∀ x ∈ t.samples, Stable est bh.formatCode (orderOfMarker bh.endianness) x) :
    ∃ w0 w r backs w1 w2, openRev0 text bh m = .ok w0 ∧ writeAll (writeTraceRev0 est) w0 ts = .ok w ∧
      openReader w.file.data none m = .ok r ∧ Visits r backs ∧ backs.length = ts.length ∧ r.texts = [text] ∧
      openRev0 text r.bh m = .ok w1 ∧ writeAll (writeTraceRev0 est) w1 backs = .ok w2 ∧
      w2.file.data = w.file.data := by
  obtain ⟨w0, w, r, backs, k1, k2, k3, k4, k5, k6, k7⟩ := C20_roundtrip_partial est text bh m b ts ht hbh hm
    hrev hexts hext hexplicit hts
  generalize hbo : orderOfMarker bh.endianness = bo at *
  obtain ⟨cs, hcs⟩ := chunks_exist hm.safe hbh.format fun t ht' => (hts t ht').1
  obtain ⟨bps, hbps⟩ := bps_exists hbh.format
  have hopen := openRev0_of hm.accepted ht (order_ok hbh) (by rw [fmt_ne hbh]; exact hbh.format)
    (by rw [fmt_ne hbh]; exact hbps)
  have hk1 := k1
  rw [hopen] at k1
  have hw0 := Except.ok.inj k1
  have hi : WInv2 .r0 w0 := by
    rw [← hw0]
    exact opened_inv2 (by simp) (by omega) (by simp) (by rw [fmt_ne hbh]; exact hbh.format)
      (by rw [fmt_ne hbh]; exact hbps)
  have e1 : w0.bh = bh := by
    rw [← hw0]
    unfold openedWriter memHeader
    simp only [if_true]
    exact fmt_ne hbh true
  have e2 : w0.bo = bo := by rw [← hw0, ← hbo]; rfl
  have e3 : w0.map = m := by rw [← hw0]; rfl
  have e4 : w0.auto = false := by
    rw [← hw0]
    unfold openedWriter memHeader
    simp only [if_true, decide_eq_false_iff_not]
    rw [fmt_ne hbh]
    exact hexplicit
  obtain ⟨m', hmm⟩ : ∃ m', m = b :: m' := by
    have := hm.head
    cases m with
    | nil => cases this
    | cons x y => simp only [List.head?_cons, Option.some.injEq] at this; exact ⟨y, by rw [this]⟩
  have hdata : ∀ us : List Trace, (∀ t ∈ us, Storable est bh.formatCode bo b.fields t ∧
        (t.samples.length : Int) = bh.sampPerTr % 65536) →
      List.Forall₂ (Chunk est bo bh.formatCode b.fields) us cs →
      ∃ w, writeAll (writeTraceRev0 est) w0 us = .ok w ∧ w.file.data = w0.file.data ++ cs.flatten := by
    intro us hus hch
    obtain ⟨w, cs', q1, q2, q3, -, -⟩ := writeAll_chunks (est := est) us hi (by rw [e4]; intro c; cases c)
      (e3.trans hmm) (by simp) hm.safe (fun t ht' => by
        obtain ⟨a1, a2⟩ := hus t ht'
        refine ⟨by rw [e2]; exact a1.ints, by rw [e1, e2]; exact a1.samples, ?_, a1.size⟩
        unfold Announced
        rw [if_pos (.inl rfl), e1, a2])
    rw [e1, e2] at q2
    rw [chunks_unique hch q2]
    exact ⟨w, q1, q3⟩
  obtain ⟨w1, q1, q2⟩ := hdata ts hts hcs
  rw [q1] at k2
  have := Except.ok.inj k2
  subst this
  have hback : ∀ t ∈ backs, Storable est bh.formatCode bo b.fields t ∧
      (t.samples.length : Int) = bh.sampPerTr % 65536 := by
    intro t ht'
    obtain ⟨o, ho, hb⟩ := forall₂_mem_right k6 ht'
    exact ⟨storable_again hint (hts o ho).1 hb (hst o ho), by rw [← hb.1.length_eq]; exact (hts o ho).2⟩
  obtain ⟨w2, q3, q4⟩ := hdata backs hback (chunks_again hint
    (fun t ht' f hf => ((hts t ht').1.ints f hf).imp fun _ h => h.1) k6 hst hcs)
  exact ⟨w0, w1, r, backs, w0, w2, hk1, q1, k3, k7, k6.length_eq.symm, k4, by rw [k5, hvis]; exact hk1, q3, by rw [q4, q2]⟩

/-- **C92 (part).** The same for revision 1 files, with traces of one length or of different lengths and
with extended text headers. -/
theorem C92_rev1_partial (est : LogEst) (text : Bytes) (exts : List Bytes) (bh : BinHeader) (m : HdrMap)
    (b : HBlock) (ts : List Trace) (hl : ∀ x ∈ text :: exts, x.length = 3200)
    (hn : exts.length < 65536) (hbh : HeaderOk bh) (hm : MapOk bh m b) (hrev : bh.revMajor = 1)
    (hdecl : TextsDeclared bh exts) (hext : ExtendedOk bh) (hvis : visible bh = bh)
    (hint : ∀ f ∈ b.fields, ∃ k, intKind f.ty = some k)
    (hts : ∀ t ∈ ts, Storable est bh.formatCode (orderOfMarker bh.endianness) b.fields t ∧
      LengthKnown bh b.fields t)
    (hst : ∀ t ∈ ts, ∀ x ∈ t.samples, Stable est bh.formatCode (orderOfMarker bh.endianness) x) :
    ∃ w0 w r backs w1 w2, openRev1 (text :: exts) bh m = .ok w0 ∧ writeAll (writeTraceRev1 est) w0 ts = .ok w ∧
      openReader w.file.data none m = .ok r ∧ Visits r backs ∧ backs.length = ts.length ∧ r.texts = text :: exts ∧
      openRev1 r.texts r.bh m = .ok w1 ∧ writeAll (writeTraceRev1 est) w1 backs = .ok w2 ∧
      w2.file.data = w.file.data := by
  obtain ⟨w0, w, r, backs, k1, k2, k3, k4, k5, k6, k7⟩ := C21_roundtrip_partial est text exts bh m b ts hl hn hbh hm
    hrev hdecl hext hts
  obtain ⟨cs, hcs⟩ := chunks_exist hm.safe hbh.format fun t ht' => (hts t ht').1
  obtain ⟨bps, hbps⟩ := bps_exists hbh.format
  have hopen := openRev1_of hm.accepted hl (order_ok hbh) (by rw [fmt_ne hbh]; exact hbh.format)
    (by rw [fmt_ne hbh]; exact hbps)
  have hk1 := k1
  rw [hopen] at k1
  have hw0 := Except.ok.inj k1
  obtain ⟨w1, q1, q2, _, _⟩ := copy_again (est := est) (rev := .r1) (by simp) (trl := []) hl hn hbh hm (by omega) (by simp) hbps
    hts hcs
  rw [hw0] at q1
  have e := Except.ok.inj ((show writeAll (writeTraceRev1 est) w0 ts = .ok w1 from q1).symm.trans k2)
  subst e
  obtain ⟨b1, b2⟩ := backs_again hint hcs hts hst k6
  obtain ⟨w2, q3, q4, _, _⟩ := copy_again (est := est) (rev := .r1) (by simp) (trl := []) hl hn hbh hm (by omega) (by simp) hbps
    b1 b2
  rw [hw0] at q3
  exact ⟨w0, w1, r, backs, w0, w2, hk1, q1, k3, k7, k6.length_eq.symm, k4, by rw [k4, k5, hvis]; exact hk1, q3, by rw [q4, q2]⟩

/-- **C92 (part).** The same for revision 2 files without additional trace headers and trailer stanzas. -/
theorem C92_rev2_partial (est : LogEst) (text : Bytes) (exts : List Bytes) (bh : BinHeader) (m : HdrMap)
    (b : HBlock) (ts : List Trace) (hl : ∀ x ∈ text :: exts, x.length = 3200)
    (hn : exts.length < 65536) (hbh : HeaderOk bh) (hm : MapOk bh m b) (hrev : 2 ≤ bh.revMajor)
    (hdecl : TextsDeclared bh exts) (hext : ExtendedOk bh)
    (hadd : bh.maxNumAddTrHeaders = 0) (hstz : bh.numOfTrailerStanza = 0)
    (hoff : bh.byteOffOfFirstTr = 0 ∨ bh.byteOffOfFirstTr = 3600 + 3200 * exts.length)
    (hint : ∀ f ∈ b.fields, ∃ k, intKind f.ty = some k)
    (hts : ∀ t ∈ ts, Storable est bh.formatCode (orderOfMarker bh.endianness) b.fields t ∧
      LengthKnown bh b.fields t)
    (hst : ∀ t ∈ ts, ∀ x ∈ t.samples, Stable est bh.formatCode (orderOfMarker bh.endianness) x) :
    ∃ w0 w data r backs w1 w2, openRev2 (text :: exts) bh [] m = .ok w0 ∧
      writeAll (writeTraceRev2 est) w0 ts = .ok w ∧ closeRev2 w = .ok data ∧
      openReader data none m = .ok r ∧ Visits r backs ∧ backs.length = ts.length ∧ r.texts = text :: exts ∧
      openRev2 r.texts r.bh r.trailers m = .ok w1 ∧ writeAll (writeTraceRev2 est) w1 backs = .ok w2 ∧
      closeRev2 w2 = .ok data := by
  obtain ⟨w0, w, data, r, backs, k1, k2, k2', k3, k4, k5, k5', k6, k7⟩ := C22_roundtrip_partial est text exts bh m b ts hl hn
    hbh hm hrev hdecl hext hadd hstz hoff hts
  obtain ⟨cs, hcs⟩ := chunks_exist hm.safe hbh.format fun t ht' => (hts t ht').1
  obtain ⟨bps, hbps⟩ := bps_exists hbh.format
  have hopen := openRev2_of (trl := []) hm.accepted hl (by simp) (order_ok hbh) (by rw [fmt_ne hbh]; exact hbh.format)
    (by rw [fmt_ne hbh]; exact hbps)
  have hk1 := k1
  rw [hopen] at k1
  have hw0 := Except.ok.inj k1
  obtain ⟨w1, q1, q2, q5, _⟩ := copy_again (est := est) (rev := .r2) (by simp) (trl := []) hl hn hbh hm (by omega) (fun _ => hadd)
    hbps hts hcs
  rw [hw0] at q1
  have e := Except.ok.inj ((show writeAll (writeTraceRev2 est) w0 ts = .ok w1 from q1).symm.trans k2)
  subst e
  have hk2 := k2'
  rw [C23_undeclared_dropped w1 (q5.trans hstz)] at k2'
  have hd := Except.ok.inj k2'
  obtain ⟨b1, b2⟩ := backs_again hint hcs hts hst k6
  obtain ⟨w2, q3, q4, q6, _⟩ := copy_again (est := est) (rev := .r2) (by simp) (trl := []) hl hn hbh hm (by omega)
    (fun _ => hadd) hbps b1 b2
  rw [hw0] at q3
  exact ⟨w0, w1, data, r, backs, w0, w2, hk1, q1, hk2, k3, k7, k6.length_eq.symm, k4, by rw [k4, k5, k5']; exact hk1, q3,
    by rw [C23_undeclared_dropped w2 (q6.trans hstz), q4, ← hd, q2]⟩

/-! ## Examples -/

/-- A trace with the samples 2.5 and 3, which format 3 stores as 2 and 3, and a header value that is in no
field. -/
def exT5 : Trace := ⟨[("FFID", .int 7), ("SAMP_NUM", .int 2), ("OTHER", .dbl d1)], [0x4004000000000000, d3]⟩

theorem exStable (bo : ByteOrder) : ∀ x ∈ exT5.samples, Stable (.strict fun _ => 0) 3 bo x := by
  intro x hx
  simp only [exT5, List.mem_cons, List.not_mem_nil, or_false] at hx
  rcases hx with rfl | rfl
  · exact C92_stable_integer _ 3 .i16 rfl bo _ (5 / 2) 2 (by decide +kernel) ⟨by norm_num, by norm_num⟩ (by decide)
      (.inl (by decide))
  · exact C92_stable_integer _ 3 .i16 rfl bo _ 3 3 (by decide +kernel) ⟨by norm_num, by norm_num⟩ (by decide)
      (.inl (by decide))

theorem exStorable5 (bo : ByteOrder) : Storable (.strict fun _ => 0) 3 bo exB.fields exT5 := by
  refine ⟨?_, fun x hx => stable_comes (exStable bo x hx), by decide⟩
  intro f hf
  simp only [exB, List.mem_cons, List.not_mem_nil, or_false] at hf
  rcases hf with rfl | rfl
  · exact ⟨7, .inl rfl, nofun⟩
  · exact ⟨2, .inl rfl, nofun⟩

example := C92_rev0_partial (.strict fun _ => 0) exText { formatCode := 3, sampPerTr := 2, endianness := 0x01020304 } exWMap exB
  [exT5, exT5] (by decide +kernel) ⟨by decide, .inr rfl, by decide⟩ (exMapOk _ rfl) rfl rfl rfl (by decide) rfl exB_ints
  (fun t ht => by
    simp only [List.mem_cons, List.not_mem_nil, or_false, or_self] at ht
    subst ht
    exact ⟨exStorable5 _, rfl⟩)
  (fun t ht => by
    simp only [List.mem_cons, List.not_mem_nil, or_false, or_self] at ht
    subst ht
    exact exStable _)

example := C92_rev1_partial (.strict fun _ => 0) exText [exText] { formatCode := 3, revMajor := 1, extTextHeadersNum := 1 }
  exWMap exB [exT5] (by decide +kernel) (by decide) ⟨by decide, .inl rfl, by decide⟩ (exMapOk _ rfl) rfl
  (.inl rfl) (by unfold ExtendedOk; decide) rfl exB_ints
  (fun t ht => by
    simp only [List.mem_cons, List.not_mem_nil, or_false] at ht
    subst ht
    exact ⟨exStorable5 _, rfl, _, .tail _ (.head _), rfl, _, rfl, by decide⟩)
  (fun t ht => by
    simp only [List.mem_cons, List.not_mem_nil, or_false] at ht
    subst ht
    exact exStable _)

example := C92_rev2_partial (.strict fun _ => 0) exText [exText]
  { formatCode := 3, revMajor := 2, extTextHeadersNum := 1, byteOffOfFirstTr := 6800, numOfTrInFile := 1 }
  exWMap exB [exT5] (by decide +kernel) (by decide) ⟨by decide, .inl rfl, by decide⟩ (exMapOk _ rfl)
  (by decide) (.inl rfl) (by unfold ExtendedOk; decide) rfl rfl (.inr rfl) exB_ints
  (fun t ht => by
    simp only [List.mem_cons, List.not_mem_nil, or_false] at ht
    subst ht
    exact ⟨exStorable5 _, rfl, _, .tail _ (.head _), rfl, _, rfl, by decide⟩)
  (fun t ht => by
    simp only [List.mem_cons, List.not_mem_nil, or_false] at ht
    subst ht
    exact exStable _)

/-! ## Files that change -/

/-- **C92 fails for floating point header fields.** The trace can be written, but what is read from the
file cannot: the writers take integers from the header only. -/
theorem C92_float_field_fails :
    let m : HdrMap := [⟨"SEG00000", [⟨8, "GAIN", .ieeeSingle⟩]⟩]
    let bh : BinHeader := { formatCode := 3, sampPerTr := 1 }
    let t : Trace := ⟨[("GAIN", .int 2)], [d1]⟩
    ((do
      let w ← openRev0 exText bh m
      let w ← writeTraceRev0 (.strict fun _ => 0) w t
      pure w.file.data.length) = .ok 3842) ∧
    (do
      let w ← openRev0 exText bh m
      let w ← writeTraceRev0 (.strict fun _ => 0) w t
      let r ← openReader w.file.data none m
      let (t', _) ← readTrace r
      let w' ← openRev0 exText r.bh m
      writeTraceRev0 (.strict fun _ => 0) w' t') = throwExn .badVariantAccess := by
  refine ⟨by decide +kernel, by decide +kernel⟩

/-- **C92 fails for revision 2 fields in a header of a lower revision.** The writer stores them, the reader
does not read them, so they are lost when the file is written again: here the number of traces, in the
bytes from 3513. -/
theorem C92_low_revision_fails :
    (do
      let w ← openRev0 exText { formatCode := 3, sampPerTr := 2, numOfTrInFile := 1 } exWMap
      let w ← writeTraceRev0 (.strict fun _ => 0) w exT1
      let r ← openReader w.file.data none exWMap
      let (t, _) ← readTrace r
      let w' ← openRev0 exText r.bh exWMap
      let w' ← writeTraceRev0 (.strict fun _ => 0) w' t
      pure ((w.file.data.drop 3512).take 8, (w'.file.data.drop 3512).take 8)) =
    (Except.ok ([0, 0, 0, 0, 0, 0, 0, 1], [0, 0, 0, 0, 0, 0, 0, 0]) : Out (Bytes × Bytes)) := by decide +kernel

/-- **C92 fails in format 1 when a logarithm is rounded.** The largest `double` below 1 has the exponent
field 64, but its logarithm is rounded to 0, which gives 65. It is stored as 1 - 2^-20 with a fraction
that starts with the digit 0. The next time the logarithm is below 0, and the file changes. -/
theorem C92_inexact_log_fails :
    let est : LogEst := .strict fun a => if a = 0x3FEFFFFFFFFFFFFF then 65 else 64
    IbmExponent (1 - 2 ^ (-20 : Int)) (est 0x3FEFFFFE00000000) ∧
    writeIbm est .be 0x3FEFFFFFFFFFFFFF = .ok [0x41, 0x0f, 0xff, 0xff] ∧
    SampleOf 1 .be [0x41, 0x0f, 0xff, 0xff] 0x3FEFFFFE00000000 ∧
    writeIbm est .be 0x3FEFFFFE00000000 = .ok [0x40, 0xff, 0xff, 0xf0] := by
  refine ⟨?_, by decide +kernel, sampleOf_value (by decide) (by decide +kernel), by decide +kernel⟩
  have : (LogEst.strict fun a => if a = 0x3FEFFFFFFFFFFFFF then 65 else 64) (0x3FEFFFFE00000000 : Dbl) = 64 := by
    decide +kernel
  unfold IbmExponent
  rw [this]
  norm_num [abs_of_pos]

end Sedaman.Props
