import Verif.Lemmas.Transfer
import Verif.Props.E2E
import Verif.Props.SegdReader
import Verif.Props.Sercel
import Verif.Props.TraceHdr

/-!
# C97: from SEG-D to SEG-Y
-/

namespace Sedaman.Props

open Spec

private theorem float_back (est : LogEst) (bo : ByteOrder) {fmt : Int} (hf : fmt = 5 ∨ fmt = 6) (x : Dbl) :
    ∃ y, ComesBack est fmt bo x y := by
  rcases hf with rfl | rfl
  · exact (C20_single est bo x).1
  · exact ⟨x, C20_double est bo x⟩

private theorem exact_six {est : LogEst} {fmt : Int} {bo : ByteOrder} {fields : List HField} {ts backs : List Trace}
    (h : List.Forall₂ (TraceBack est fmt bo fields) ts backs) (hf : fmt = 6) :
    backs.map (·.samples) = ts.map (·.samples) := by
  subst hf
  exact C20_exact est 6 bo fields ts backs h fun _ _ x _ => C20_double est bo x

/-- **C97 (part).** Traces read from a SEG-D file of any content are accepted by a writer of revision 0 with
explicit headers and a map of integers, and the file is read back: see `C20_roundtrip_partial`. -/
theorem C97_rev0_partial (pw : Dbl → Dbl) (data : Bytes) (em : ExtMap) (ts : List Trace)
    (hread : ReadFrom pw data em ts) (est : LogEst) (text : Bytes) (bh : BinHeader) (m : HdrMap) (b : HBlock)
    (ht : text.length = 3200) (hbh : HeaderOk bh) (hm : MapOk bh m b) (hrev : bh.revMajor = 0)
    (hexts : bh.extTextHeadersNum = 0) (hext : bh.extSampPerTr = 0)
    (hfmt : bh.formatCode = 5 ∨ bh.formatCode = 6) (hint : OnlyIntegers em b.fields)
    (hlen : ∀ t ∈ ts, (t.samples.length : Int) = bh.sampPerTr % 65536) :
    ∃ w0 w r backs, openRev0 text bh m = .ok w0 ∧ Sedaman.writeAll (writeTraceRev0 est) w0 ts = .ok w ∧
      openReader w.file.data none m = .ok r ∧ Visits r backs ∧
      List.Forall₂ (TraceBack est bh.formatCode (orderOfMarker bh.endianness) b.fields) ts backs ∧
      (bh.formatCode = 6 → backs.map (·.samples) = ts.map (·.samples)) := by
  obtain ⟨w0, w, r, backs, h1, h2, h3, -, -, h4, h5⟩ := C20_roundtrip_partial est text bh m b ts ht hbh hm hrev hexts
    hext (by rintro rfl; rcases hfmt with h | h <;> cases h)
    (fun t h => ⟨from_storable hread h hint est _ (float_back est _ hfmt) (by have := hlen t h; omega), hlen t h⟩)
  exact ⟨w0, w, r, backs, h1, h2, h3, h5, h4, exact_six h4⟩

/-- **C97 (part).** The same in revision 1. Traces of different lengths need their number of samples in the
header, see `C97_counts`. -/
theorem C97_rev1_partial (pw : Dbl → Dbl) (data : Bytes) (em : ExtMap) (ts : List Trace)
    (hread : ReadFrom pw data em ts) (est : LogEst) (text : Bytes) (exts : List Bytes) (bh : BinHeader) (m : HdrMap)
    (b : HBlock) (hl : ∀ x ∈ text :: exts, x.length = 3200) (hn : exts.length < 65536) (hbh : HeaderOk bh)
    (hm : MapOk bh m b) (hrev : bh.revMajor = 1) (hdecl : TextsDeclared bh exts) (hext : ExtendedOk bh)
    (hfmt : bh.formatCode = 5 ∨ bh.formatCode = 6) (hint : OnlyIntegers em b.fields)
    (hlen : ∀ t ∈ ts, LengthKnown bh b.fields t) :
    ∃ w0 w r backs, openRev1 (text :: exts) bh m = .ok w0 ∧
      Sedaman.writeAll (writeTraceRev1 est) w0 ts = .ok w ∧
      openReader w.file.data none m = .ok r ∧ Visits r backs ∧
      List.Forall₂ (TraceBack est bh.formatCode (orderOfMarker bh.endianness) b.fields) ts backs ∧
      (bh.formatCode = 6 → backs.map (·.samples) = ts.map (·.samples)) := by
  obtain ⟨w0, w, r, backs, h1, h2, h3, -, -, h4, h5⟩ := C21_roundtrip_partial est text exts bh m b ts hl hn hbh hm hrev
    hdecl hext (fun t h => ⟨from_storable hread h hint est _ (float_back est _ hfmt) (known_small hread h (hlen t h)),
      hlen t h⟩)
  exact ⟨w0, w, r, backs, h1, h2, h3, h5, h4, exact_six h4⟩

/-- **C97 (part).** The same in revision 2. -/
theorem C97_rev2_partial (pw : Dbl → Dbl) (data : Bytes) (em : ExtMap) (ts : List Trace)
    (hread : ReadFrom pw data em ts) (est : LogEst) (text : Bytes) (exts : List Bytes) (bh : BinHeader) (m : HdrMap)
    (b : HBlock) (hl : ∀ x ∈ text :: exts, x.length = 3200) (hn : exts.length < 65536) (hbh : HeaderOk bh)
    (hm : MapOk bh m b) (hrev : 2 ≤ bh.revMajor) (hdecl : TextsDeclared bh exts) (hext : ExtendedOk bh)
    (hadd : bh.maxNumAddTrHeaders = 0) (hstz : bh.numOfTrailerStanza = 0)
    (hoff : bh.byteOffOfFirstTr = 0 ∨ bh.byteOffOfFirstTr = 3600 + 3200 * exts.length)
    (hfmt : bh.formatCode = 5 ∨ bh.formatCode = 6) (hint : OnlyIntegers em b.fields)
    (hlen : ∀ t ∈ ts, LengthKnown bh b.fields t) :
    ∃ w0 w out r backs, openRev2 (text :: exts) bh [] m = .ok w0 ∧
      Sedaman.writeAll (writeTraceRev2 est) w0 ts = .ok w ∧ closeRev2 w = .ok out ∧
      openReader out none m = .ok r ∧ Visits r backs ∧
      List.Forall₂ (TraceBack est bh.formatCode (orderOfMarker bh.endianness) b.fields) ts backs ∧
      (bh.formatCode = 6 → backs.map (·.samples) = ts.map (·.samples)) := by
  obtain ⟨w0, w, out, r, backs, h1, h2, h3, h4, -, -, -, h5, h6⟩ := C22_roundtrip_partial est text exts bh m b ts hl hn
    hbh hm hrev hdecl hext hadd hstz hoff
    (fun t h => ⟨from_storable hread h hint est _ (float_back est _ hfmt) (known_small hread h (hlen t h)), hlen t h⟩)
  exact ⟨w0, w, out, r, backs, h1, h2, h3, h4, h6, h5, exact_six h5⟩

/-- **C97.** A number of samples in the header of a trace from a file without extension maps is the number of
its samples. -/
theorem C97_counts (pw : Dbl → Dbl) (data : Bytes) (ts : List Trace) (hread : ReadFrom pw data [] ts) (t : Trace)
    (ht : t ∈ ts) (v : Value) (hv : t.header.get "SAMP_NUM" = some v) : v = .int t.samples.length := by
  have hc := (from_carries hread ht).1 _ _ hv
  cases v with
  | dbl d =>
    rcases hc with k | ⟨f, k, -⟩
    · exact absurd k (by decide)
    · simp at k
  | int i =>
    rcases hc with ⟨b, k1, k2, k3⟩ | ⟨f, k, -⟩
    · simp [traceInts, extInts] at k1
      subst k1
      have := from_count hread ht hv
      unfold toU at this
      congr 1
      omega
    · simp at k

private theorem int_kept {pw : Dbl → Dbl} {data : Bytes} {ts : List Trace} (hread : ReadFrom pw data [] ts) {t back : Trace}
    (ht : t ∈ ts) {est : LogEst} {bo : ByteOrder} {fields : List HField}
    (hb : HeaderBack est bo fields t.header back.header) {f : HField} (hf : f ∈ fields) (hty : f.ty = .i32) {bd : Int}
    (hbd : ∀ b, (f.name, b) ∈ traceInts ++ extInts → b = bd) (hsm : bd ≤ 2 ^ 31)
    (hno : f.name ∉ traceFractions ++ extFractions) (hin : f.name ∈ traceInts.map (·.1) ++ traceFractions) :
    (∃ i, t.header.get f.name = some (.int i)) ∧ back.header.get f.name = t.header.get f.name := by
  have hcs := from_carries hread ht
  cases hg : t.header.get f.name with
  | none => exact absurd hg (hcs.2 _ hin)
  | some v =>
    have hc := hcs.1 _ _ hg
    cases v with
    | dbl d =>
      rcases hc with k | ⟨g, k, -⟩
      · exact absurd k hno
      · simp at k
    | int i =>
      rcases hc with ⟨b, k1, k2, k3⟩ | ⟨g, k, -⟩
      · have := hbd b k1
        subst this
        obtain ⟨r, ⟨h1, h2⟩, h3⟩ := hb.2.1 f hf .i32 (by rw [hty]; rfl) i (.inl hg)
        have h1 : IntKind.InRange .i32 r := h1
        simp only [IntKind.InRange, IntKind.signed, if_true, IntKind.size] at h1 h2
        refine ⟨⟨i, rfl⟩, ?_⟩
        rw [h3]
        congr 2
        omega
      · simp at k

/-- **C97.** With the default header map the file and channel numbers of any trace are kept. -/
theorem C97_numbers_kept (pw : Dbl → Dbl) (data : Bytes) (ts : List Trace) (hread : ReadFrom pw data [] ts)
    (t back : Trace) (ht : t ∈ ts) (est : LogEst) (fmt : Int) (bo : ByteOrder) (b : HBlock)
    (hb : defaultMap.head? = some b) (hback : TraceBack est fmt bo b.fields t back) :
    (∃ i, t.header.get "FFID" = some (.int i)) ∧ (∃ i, t.header.get "CHAN" = some (.int i)) ∧
    back.header.get "FFID" = t.header.get "FFID" ∧ back.header.get "CHAN" = t.header.get "CHAN" := by
  cases hb
  obtain ⟨a1, a2⟩ := int_kept hread ht hback.2 (f := ⟨8, "FFID", .i32⟩) (bd := 2 ^ 24) (by decide +kernel) rfl
    (fun b h => by simp [traceInts, extInts] at h; exact h) (by decide) (by decide) (by decide)
  obtain ⟨b1, b2⟩ := int_kept hread ht hback.2 (f := ⟨12, "CHAN", .i32⟩) (bd := 16666) (by decide +kernel) rfl
    (fun b h => by simp [traceInts, extInts] at h; exact h) (by decide) (by decide) (by decide)
  exact ⟨a1, b1, a2, b2⟩

/-- **C97.** A number of samples above 32767 is not kept in the 16 bit field of the default map. -/
theorem C97_count_wraps (pw : Dbl → Dbl) (data : Bytes) (ts : List Trace) (hread : ReadFrom pw data [] ts)
    (t back : Trace) (ht : t ∈ ts) (v : Value) (hv : t.header.get "SAMP_NUM" = some v) (est : LogEst) (fmt : Int)
    (bo : ByteOrder) (b : HBlock) (hb : defaultMap.head? = some b) (hback : TraceBack est fmt bo b.fields t back) :
    back.header.get "SAMP_NUM" = t.header.get "SAMP_NUM" ↔ t.samples.length ≤ 32767 := by
  cases hb
  have hc := C97_counts pw data ts hread t ht v hv
  subst hc
  obtain ⟨r, ⟨h1, h2⟩, h3⟩ := hback.2.2.1 ⟨114, "SAMP_NUM", .i16⟩ (by decide +kernel) .i16 rfl _ (.inl hv)
  have h1 : IntKind.InRange .i16 r := h1
  simp only [IntKind.InRange, IntKind.signed, if_true, IntKind.size] at h1 h2
  have h3 : back.header.get "SAMP_NUM" = some (.int r) := h3
  rw [h3, hv]
  constructor
  · intro h
    cases h
    omega
  · intro h
    congr 2
    omega

/-! ## What is refused -/

private theorem refused {est : LogEst} {w : Writer} {t : Trace} {b : HBlock} (hb : w.map.head? = some b) {f : HField}
    (hf : f ∈ b.fields) (hd : IsDbl t.header f.name) (w' : Writer) :
    writeTraceRev0 est w t ≠ .ok w' ∧ writeTraceRev1 est w t ≠ .ok w' ∧ writeTraceRev2 est w t ≠ .ok w' := by
  refine ⟨fun h => ?_, fun h => ?_, fun h => ?_⟩ <;>
  · obtain ⟨w1, h1, h⟩ := bind_ok h
    obtain ⟨w2, h2, h⟩ := bind_ok h
    exact put_dbl (by rw [(auto_keeps h1).1]; exact hb) hf hd h2

/-- **C97.** With the maps for Sercel recorders, traces that have a second extension block, the one with the
coordinates of the receiver, are accepted by no SEG-Y writer whose map has a field for the coordinate. The
default map has one. -/
theorem C97_coordinates_refused (em : ExtMap) (hem : em ∈ sercelMaps) (pw : Dbl → Dbl) (data : Bytes)
    (ts : List Trace) (hread : ReadFrom pw data em ts) (t : Trace) (ht : t ∈ ts) (k : Int)
    (hk : t.header.get "TR_HDR_EXT" = some (.int k)) (h2 : 2 ≤ k) (est : LogEst) (w w' : Writer) (b : HBlock)
    (hb : w.map.head? = some b) (f : HField) (hf : f ∈ b.fields) (hn : f.name ∈ ["REC_X", "REC_Y", "R_ELEV"]) :
    writeTraceRev0 est w t ≠ .ok w' ∧ writeTraceRev1 est w t ≠ .ok w' ∧ writeTraceRev2 est w t ≠ .ok w' := by
  obtain ⟨s, s', e, h⟩ := from_body hread ht
  have q : ∀ em ∈ sercelMaps, (∀ n ∈ ["REC_X", "REC_Y", "R_ELEV"], (∀ f ∈ em.flatten, f.name = n → intKind f.ty = none) ∧
      (em[1]?.map fun fs => decide (n ∈ fs.map (·.name))) = some true) ∧ "TR_HDR_EXT" ∉ em.flatten.map (·.name) := by
    decide +kernel
  obtain ⟨q1, q2⟩ := q em hem
  obtain ⟨q3, q4⟩ := q1 f.name hn
  rw [← e] at q2 q3 q4
  cases hj : s.extMap[1]? with
  | none => rw [hj] at q4; cases q4
  | some fs =>
    rw [hj] at q4
    simp only [Option.map_some, Option.some.injEq, decide_eq_true_eq] at q4
    exact refused hb hf (body_dbl h q3 q2 hj q4 hk (by omega)) w'

/-- **C97.** No SEG-D trace is accepted by a writer whose map has a field for one of the values of the trace
header that have a binary point (and are not redefined by an extension map). -/
theorem C97_fractions_refused (pw : Dbl → Dbl) (data : Bytes) (em : ExtMap) (ts : List Trace)
    (hread : ReadFrom pw data em ts) (t : Trace) (ht : t ∈ ts) (est : LogEst) (w w' : Writer) (b : HBlock)
    (hb : w.map.head? = some b) (f : HField) (hf : f ∈ b.fields) (hn : f.name ∈ traceFractions)
    (hem : f.name ∉ em.flatten.map (·.name)) :
    writeTraceRev0 est w t ≠ .ok w' ∧ writeTraceRev1 est w t ≠ .ok w' ∧ writeTraceRev2 est w t ≠ .ok w' := by
  have hc := from_carries hread ht
  refine refused hb hf ?_ w'
  cases hg : t.header.get f.name with
  | none => exact absurd hg (hc.2 _ (List.mem_append_right _ hn))
  | some v =>
    cases v with
    | dbl d => exact ⟨d, hg⟩
    | int i =>
      exfalso
      rcases hc.1 _ _ hg with ⟨q, k, -⟩ | ⟨g, k1, k2, -⟩
      · have hk : (f.name, q) ∈ traceInts ++ extInts := by
          rcases List.mem_append.1 k with k | k
          · exact List.mem_append_left _ k
          · split at k
            · exact List.mem_append_right _ k
            · cases k
        generalize f.name = n at hn hk
        simp only [traceFractions, List.mem_cons, List.not_mem_nil, or_false] at hn
        rcases hn with rfl | rfl | rfl <;> simp [traceInts, extInts] at hk
      · exact hem (List.mem_map.2 ⟨g, k1, k2⟩)

private theorem no_interval {pw : Dbl → Dbl} {data : Bytes} {em : ExtMap} {ts : List Trace}
    (hread : ReadFrom pw data em ts) {t : Trace} (ht : t ∈ ts) (hem : "SAMP_INT" ∉ em.flatten.map (·.name)) :
    t.header.get "SAMP_INT" = none := by
  cases hg : t.header.get "SAMP_INT" with
  | none => rfl
  | some v =>
    exfalso
    have hc := (from_carries hread ht).1 _ _ hg
    cases v with
    | int i =>
      rcases hc with ⟨q, k, -⟩ | ⟨g, k1, k2, -⟩
      · split at k <;> simp [traceInts, extInts] at k
      · exact hem (List.mem_map.2 ⟨g, k1, k2⟩)
    | dbl d =>
      rcases hc with k | ⟨g, k1, k2, -⟩
      · split at k <;> simp [traceFractions, extFractions] at k
      · exact hem (List.mem_map.2 ⟨g, k1, k2⟩)

private theorem auto_refuses {o : Bool} {w : Writer} {h : Header} (ha : w.auto = true) (hp : w.file.pos = w.firstPos)
    (hi : h.get "SAMP_INT" = none) :
    ∃ e ∈ [Err.ub .emptyOptional, .exn .tooManySamples, .exn .badVariantAccess], autoHdrs o w h = .error e := by
  unfold autoHdrs setMinHdrs
  rw [if_pos ha, if_pos hp]
  unfold needInt
  cases h.get "SAMP_NUM" with
  | none => exact ⟨_, by decide, rfl⟩
  | some v =>
    cases v with
    | dbl d => exact ⟨.exn .badVariantAccess, by decide, rfl⟩
    | int n =>
      simp only [ok_bind]
      split
      · exact ⟨.exn .tooManySamples, by decide, rfl⟩
      · unfold sampIntOf
        rw [hi]
        exact ⟨.ub .emptyOptional, by decide, rfl⟩

/-- **C97.** A SEG-Y writer without explicit headers accepts no SEG-D trace as its first one: it wants the
sample interval, which SEG-D traces do not have. Most often its absence is not noticed (an empty `optional` is
read). -/
theorem C97_automatic_refused (pw : Dbl → Dbl) (data : Bytes) (em : ExtMap) (ts : List Trace)
    (hread : ReadFrom pw data em ts) (t : Trace) (ht : t ∈ ts) (hem : "SAMP_INT" ∉ em.flatten.map (·.name))
    (est : LogEst) (w : Writer) (ha : w.auto = true) (hp : w.file.pos = w.firstPos) :
    ∃ e ∈ [Err.ub .emptyOptional, .exn .tooManySamples, .exn .badVariantAccess],
      writeTraceRev0 est w t = .error e ∧ writeTraceRev1 est w t = .error e ∧
      writeTraceRev2 est w t = .error e := by
  have hi := no_interval hread ht hem
  obtain ⟨e, he, h1⟩ := auto_refuses (o := false) ha hp hi
  have h2 : autoHdrs true w t.header = .error e := by
    rw [← h1]
    unfold autoHdrs setMinHdrs sampIntOf
    rw [hi]
  refine ⟨e, he, ?_, ?_, ?_⟩
  · unfold writeTraceRev0; rw [h1]; rfl
  · unfold writeTraceRev1; rw [h1]; rfl
  · unfold writeTraceRev2; rw [h2]; rfl

/-- **C97.** A trace without extension blocks has no number of samples in its header, and files of traces of
different lengths do not accept it. -/
theorem C97_no_count_refused (pw : Dbl → Dbl) (data : Bytes) (em : ExtMap) (ts : List Trace)
    (hread : ReadFrom pw data em ts) (t : Trace) (ht : t ∈ ts) (hem : "TR_HDR_EXT" ∉ em.flatten.map (·.name))
    (h0 : t.header.get "TR_HDR_EXT" = some (.int 0)) (est : LogEst) (w w' : Writer) (hv : w.bh.fixedTrLength = 0) :
    t.header.get "SAMP_NUM" = none ∧ writeTraceRev1 est w t ≠ .ok w' ∧ writeTraceRev2 est w t ≠ .ok w' := by
  obtain ⟨s, s', rfl, h⟩ := from_body hread ht
  have hn : t.header.get "SAMP_NUM" = none := body_bare h h0 hem (by decide)
  refine ⟨hn, fun h => ?_, fun h => ?_⟩
  · obtain ⟨w1, h1, h⟩ := bind_ok h
    obtain ⟨w2, h2, h⟩ := bind_ok h
    rw [if_neg (by rw [put_keeps h2, (auto_keeps h1).2, hv]; simp)] at h
    exact var_needs hn h
  · obtain ⟨w1, h1, h⟩ := bind_ok h
    obtain ⟨w2, h2, h⟩ := bind_ok h
    obtain ⟨w3, h3, h⟩ := bind_ok h
    rw [if_neg (by rw [add_keeps h3, put_keeps h2, (auto_keeps h1).2, hv]; simp)] at h
    exact var_needs hn h

/-! ## Examples -/

/-- The traces of the example file. -/
def transferTrace : Trace :=
  ⟨[("FFID", .int 12), ("SCAN_TYPE_NUM", .int 1), ("CH_SET_NUM", .int 1), ("CHAN", .int 1),
    ("FIRST_TIMING_WORD", .dbl 0), ("TR_HDR_EXT", .int 1), ("SAMPLE_SKEW", .dbl 0), ("TRACE_EDIT", .int 0),
    ("TIME_BREAK_WIN", .dbl 0), ("R_LINE", .int 0), ("R_POINT", .int 0), ("R_POINT_IDX", .int 0),
    ("SAMP_NUM", .int 2), ("SENSOR_TYPE", .int 0)], [0x4008000000000000, 0xC014000000000000]⟩

/-- A file that was written by the library, and its traces. -/
theorem transfer_read : ∃ d, segdFileExample = .ok d ∧ ReadFrom hostExample.pw d [] [transferTrace, transferTrace] := by
  have h : (do let d ← segdFileExample
               let s ← openSegd d []
               let (ts, _) ← readManyD hostExample.pw 2 s
               pure ts) = .ok [transferTrace, transferTrace] := by decide +kernel
  obtain ⟨d, h1, h⟩ := bind_ok h
  obtain ⟨s, h2, h⟩ := bind_ok h
  obtain ⟨⟨ts, e⟩, h3, h⟩ := bind_ok h
  cases h
  exact ⟨d, h1, s, e, h2, h3⟩

private theorem default_ok (bh : BinHeader) (h : bh.revMajor ≤ 1 ∨ bh.maxNumAddTrHeaders = 0) :
    ∃ b, defaultMap.head? = some b ∧ MapOk bh defaultMap b ∧ OnlyIntegers [] b.fields :=
  ⟨_, rfl, ⟨rfl, C14_accepted bh (h.imp id .inl), (C14_safe _ (by decide +kernel)).1, (C14_safe _ (by decide +kernel)).2⟩,
    by decide +kernel⟩

/-- It becomes a file of revision 0 with doubles and the default header map. -/
example : ∃ d w0 w r backs, segdFileExample = .ok d ∧
    openRev0 exText { formatCode := 6, sampPerTr := 2 } defaultMap = .ok w0 ∧
    Sedaman.writeAll (writeTraceRev0 (.strict fun _ => 0)) w0 [transferTrace, transferTrace] = .ok w ∧
    openReader w.file.data none defaultMap = .ok r ∧ Visits r backs ∧
    backs.map (·.samples) = [transferTrace.samples, transferTrace.samples] := by
  obtain ⟨d, hd, hr⟩ := transfer_read
  obtain ⟨b, -, h1, h2⟩ := default_ok { formatCode := 6, sampPerTr := 2 } (.inl (by decide))
  obtain ⟨w0, w, r, backs, a1, a2, a3, a4, -, a6⟩ := C97_rev0_partial _ d [] _ hr (.strict fun _ => 0) exText
    { formatCode := 6, sampPerTr := 2 } defaultMap b (by decide +kernel) ⟨by decide, .inl rfl, by decide⟩ h1 rfl rfl rfl
    (.inr rfl) h2 (by decide)
  exact ⟨d, w0, w, r, backs, hd, a1, a2, a3, a4, a6 rfl⟩

/-- And files of the later revisions with singles, with the number of samples in the trace headers. -/
example (d : Bytes) (hr : ReadFrom hostExample.pw d [] [transferTrace, transferTrace]) (b : HBlock)
    (hb : defaultMap.head? = some b) :=
  have hk : ∀ bh : BinHeader, bh.fixedTrLength = 0 → ∀ t ∈ [transferTrace, transferTrace], LengthKnown bh b.fields t := by
    intro bh hf t ht
    cases hb
    simp only [List.mem_cons, List.not_mem_nil, or_false, or_self] at ht
    subst ht
    unfold LengthKnown
    rw [if_neg (by simp [hf])]
    exact ⟨rfl, ⟨114, "SAMP_NUM", .i16⟩, by decide +kernel, rfl, .i16, rfl, by decide⟩
  have hm : ∀ bh : BinHeader, bh.revMajor ≤ 1 ∨ bh.maxNumAddTrHeaders = 0 → MapOk bh defaultMap b ∧
      OnlyIntegers [] b.fields := by
    intro bh h
    obtain ⟨b', h1, h2⟩ := default_ok bh h
    rw [hb] at h1
    cases h1
    exact h2
  And.intro
    (C97_rev1_partial _ d [] _ hr (.strict fun _ => 0) exText [] { formatCode := 5, revMajor := 1 } defaultMap b
      (by decide +kernel) (by decide) ⟨by decide, .inl rfl, by decide⟩ (hm _ (.inl (by decide))).1 rfl (.inl rfl)
      (by unfold ExtendedOk; decide) (.inl rfl) (hm { formatCode := 5, revMajor := 1 } (.inl (by decide))).2 (hk _ rfl))
    (C97_rev2_partial _ d [] _ hr (.strict fun _ => 0) exText [] { formatCode := 5, revMajor := 2 } defaultMap b
      (by decide +kernel) (by decide) ⟨by decide, .inl rfl, by decide⟩ (hm _ (.inr rfl)).1 (by decide) (.inl rfl)
      (by unfold ExtendedOk; decide) rfl rfl (.inl rfl) (.inl rfl) (hm { formatCode := 5, revMajor := 2 } (.inr rfl)).2
      (hk _ rfl))

/-- A writer without explicit headers: the sample interval is looked for in vain. -/
example : (openRev0 exText {} defaultMap >>= fun w => writeTraceRev0 (.strict fun _ => 0) w transferTrace) =
    isUb .emptyOptional := by decide +kernel

/-- A coordinate with a binary point. -/
example : (openRev0 exText { formatCode := 5, sampPerTr := 2 } defaultMap >>= fun w =>
      writeTraceRev0 (.strict fun _ => 0) w
        ⟨[("FFID", .int 12), ("TR_HDR_EXT", .int 2), ("REC_X", .dbl 0x4008000000000000)], [0, 0]⟩) =
    throwExn .badVariantAccess := by decide +kernel

/-- A file whose trace has a second extension block, of zeros, read with a Sercel map: the hypotheses of
`C97_coordinates_refused`. -/
example : ∃ d t, ReadFrom hostExample.pw d sercel408 [t] ∧ t.header.get "TR_HDR_EXT" = some (.int 2) ∧
    ∀ (est : LogEst) (w w' : Writer), w.map = defaultMap → writeTraceRev0 est w t ≠ .ok w' := by
  have h : (do
               let d ← segdFileExample
               let s ← openSegd (d.take 265 ++ [2] ++ (d.drop 266).take 42 ++ List.replicate 32 0 ++ d.drop 308) sercel408
               let (ts, _) ← readManyD hostExample.pw 1 s
               pure (ts.length, ts.map fun (t : Trace) => t.header.get "TR_HDR_EXT") : Out (Nat × List (Option Value))) = .ok (1, [some (.int 2)]) := by decide +kernel
  obtain ⟨d, h1, h⟩ := bind_ok h
  obtain ⟨s, h2, h⟩ := bind_ok h
  obtain ⟨⟨ts, e⟩, h3, h⟩ := bind_ok h
  have h := Except.ok.inj h
  simp only [Prod.mk.injEq] at h
  obtain ⟨h4, h5⟩ := h
  match ts, h4 with
  | [t], _ =>
    simp only [List.map_cons, List.map_nil, List.cons.injEq, and_true] at h5
    have hr : ReadFrom hostExample.pw _ sercel408 [t] := ⟨s, e, h2, h3⟩
    refine ⟨_, t, hr, h5, fun est w w' hw => ?_⟩
    exact (C97_coordinates_refused sercel408 (by decide +kernel) _ _ _ hr t List.mem_cons_self 2 h5 (by decide) est w w'
      _ (by rw [hw]; rfl) ⟨80, "REC_X", .i32⟩ (by decide +kernel) (by decide)).1

/-- A file whose trace has no extension block: the hypotheses of `C97_no_count_refused`. -/
example : ∃ d t, ReadFrom hostExample.pw d [] [t] ∧ t.header.get "TR_HDR_EXT" = some (.int 0) ∧
    ∀ (est : LogEst) (w w' : Writer), w.bh.fixedTrLength = 0 → writeTraceRev1 est w t ≠ .ok w' := by
  have h : (do
               let d ← segdFileExample
               let s ← openSegd (d.take 265 ++ [0] ++ (d.drop 266).take 10 ++ d.drop 308) []
               let (ts, _) ← readManyD hostExample.pw 1 s
               pure (ts.length, ts.map fun (t : Trace) => t.header.get "TR_HDR_EXT") : Out (Nat × List (Option Value))) = .ok (1, [some (.int 0)]) := by decide +kernel
  obtain ⟨d, h1, h⟩ := bind_ok h
  obtain ⟨s, h2, h⟩ := bind_ok h
  obtain ⟨⟨ts, e⟩, h3, h⟩ := bind_ok h
  have h := Except.ok.inj h
  simp only [Prod.mk.injEq] at h
  obtain ⟨h4, h5⟩ := h
  match ts, h4 with
  | [t], _ =>
    simp only [List.map_cons, List.map_nil, List.cons.injEq, and_true] at h5
    have hr : ReadFrom hostExample.pw _ [] [t] := ⟨s, e, h2, h3⟩
    refine ⟨_, t, hr, h5, fun est w w' hw => ?_⟩
    exact (C97_no_count_refused _ _ [] _ hr t List.mem_cons_self (by decide) h5 est w w' hw).2.1

end Sedaman.Props
