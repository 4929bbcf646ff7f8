import Verif.Spec.Merge
import Verif.Lemmas.Merge
import Verif.Props.Relabel

/-!
# C119: merging SEG-Y files
-/

namespace Sedaman.Props
open Sedaman Sedaman.Spec

/-- All files are read. -/
private theorem files_read {est : LogEst} {m : HdrMap} {b : HBlock} {bo : ByteOrder} {bh' : BinHeader}
    (hint : ∀ f ∈ b.fields, ∃ k, intKind f.ty = some k) {Fs : List SegyParts}
    (hF : ∀ F ∈ Fs, HeadersOk m b bo F ∧ F.bh.formatCode = bh'.formatCode ∧ Movable est bo b.fields bh' F) :
    ∃ tss, List.Forall₂ (fun F ts => ∃ r, openReader F.bytes none m = .ok r ∧ Visits r ts ∧
        ts.length = F.traces.length) Fs tss ∧
      List.Forall₂ (Carried est bo bh'.formatCode b.fields bh') tss.flatten (Fs.map (·.traces)).flatten ∧
      ∀ t ∈ tss.flatten, PlainHeader b.fields t.header := by
  induction Fs with
  | nil => exact ⟨[], .nil, .nil, by simp⟩
  | cons F Fs ih =>
    obtain ⟨tss, i1, i2, i3⟩ := ih fun q hq => hF q (List.mem_cons_of_mem _ hq)
    obtain ⟨h1, h2, h3⟩ := hF F List.mem_cons_self
    obtain ⟨os, c1, c2⟩ := carried_of (by rw [← h2]; exact h1.format) h1.map.safe h1.map.names hint h3
    obtain ⟨r, ts, g1, -, -, g4, g5, g6⟩ := parts_read h1 (by rw [h2]; exact c1)
    rw [h2] at g6
    obtain ⟨k1, k2⟩ := carried_back hint c1 c2 g6
    refine ⟨ts :: tss, .cons ⟨r, g1, g4, g5⟩ i1, ?_, ?_⟩
    · rw [List.flatten_cons, List.map_cons, List.flatten_cons]
      exact List.rel_append k1 i2
    · intro t ht
      rw [List.flatten_cons] at ht
      rcases List.mem_append.1 ht with ht | ht
      · exact k2 t ht
      · exact i3 t ht

private theorem merged {est : LogEst} {m : HdrMap} {b : HBlock} {bo : ByteOrder} {Fs : List SegyParts} {F' : SegyParts}
    (hint : ∀ f ∈ b.fields, ∃ k, intKind f.ty = some k) (hF' : HeadersOk m b bo F')
    (hF : ∀ F ∈ Fs, HeadersOk m b bo F ∧ F.bh.formatCode = F'.bh.formatCode ∧ Movable est bo b.fields F'.bh F)
    (htr : F'.traces = (Fs.map (·.traces)).flatten) :
    ∃ tss, List.Forall₂ (fun F ts => ∃ r, openReader F.bytes none m = .ok r ∧ Visits r ts ∧
        ts.length = F.traces.length) Fs tss ∧
      List.Forall₂ (Chunk est bo F'.bh.formatCode b.fields) tss.flatten F'.traces ∧
      (∀ t ∈ tss.flatten, Storable est F'.bh.formatCode bo b.fields t ∧ LengthTold F'.bh b.fields t) ∧
      ∃ r' vs, openReader F'.bytes none m = .ok r' ∧ r'.texts = F'.text :: F'.exts ∧ r'.bh = F'.bh ∧
        Visits r' vs ∧ List.Forall₂ SameTrace tss.flatten vs := by
  obtain ⟨tss, h1, h2, h3⟩ := files_read hint hF
  rw [← htr] at h2
  have hmem : ∀ t ∈ tss.flatten, ∃ c, Carried est bo F'.bh.formatCode b.fields F'.bh t c := fun t ht => by
    obtain ⟨c, -, hc⟩ := forall₂_mem_right h2.flip ht
    exact ⟨c, hc⟩
  obtain ⟨r', vs, g1, g2, g3, g4, -, g6⟩ := parts_read hF' h2
  refine ⟨tss, h1, h2.imp fun _ _ h => h.chunk, fun t ht => ?_, r', vs, g1, g2, g3, g4, same_carried (fun t ht => ?_) h3 g6⟩
  · obtain ⟨c, hc⟩ := hmem t ht
    exact ⟨hc.stor, hc.told⟩
  · obtain ⟨c, hc⟩ := hmem t ht
    exact hc.surv

/-- **C119 (part).** Any number of SEG-Y files, of any revisions, are read to their ends, and all their traces are written
one after the other with one `OSEGYRev0`. The new file is its headers followed by the bytes of all traces as they were,
and reading it shows the traces of the first file, then those of the second, and so on. All files have the same sample
format and byte order and are read with the same trace header map; conditions on each as in C55 and C82. -/
theorem C119_rev0_partial (est : LogEst) (Fs : List SegyParts) (F' : SegyParts) (m : HdrMap) (b : HBlock) (bo : ByteOrder)
    (hint : ∀ f ∈ b.fields, ∃ k, intKind f.ty = some k)
    (hF : ∀ F ∈ Fs, HeadersOk m b bo F ∧ F.bh.formatCode = F'.bh.formatCode ∧ Movable est bo b.fields F'.bh F)
    (hF' : HeadersOk m b bo F') (htr : F'.traces = (Fs.map (·.traces)).flatten)
    (hrev : F'.bh.revMajor = 0) (hexts : F'.exts = []) (hexplicit : F'.bh ≠ { formatCode := 1 }) :
    ∃ tss, List.Forall₂ (fun F ts => ∃ r, openReader F.bytes none m = .ok r ∧ Visits r ts ∧
        ts.length = F.traces.length) Fs tss ∧
      (∃ w0 w, openRev0 F'.text F'.bh m = .ok w0 ∧ writeAll (writeTraceRev0 est) w0 tss.flatten = .ok w ∧
        w.file.data = F'.bytes) ∧
      ∃ r' vs, openReader F'.bytes none m = .ok r' ∧ r'.texts = [F'.text] ∧ r'.bh = F'.bh ∧ Visits r' vs ∧
        List.Forall₂ SameTrace tss.flatten vs := by
  obtain ⟨tss, h1, h2, h3, r', vs, g1, g2, g3, g4, g5⟩ := merged hint hF' hF htr
  obtain ⟨hbh, -, rfl, hbin⟩ := copy_bin_ok hF'.size hF'.marker hF'.zeros hF'.read hF'.format
  obtain ⟨bps, hbps⟩ := bps_exists hF'.format
  have ht := hF'.texts _ List.mem_cons_self
  have hopen := openRev0_of hF'.map.accepted ht (order_ok hbh) (by rw [fmt_ne hbh]; exact hF'.format)
    (by rw [fmt_ne hbh]; exact hbps)
  obtain ⟨w, q1, q2⟩ := pieces_again0 ht hbh hF'.map hexplicit hbps
    (fun t ht => ⟨(h3 t ht).1, by
      have := (h3 t ht).2
      unfold LengthTold at this
      rw [if_pos hrev] at this
      omega⟩) h2
  refine ⟨tss, h1, ⟨_, w, hopen, q1, ?_⟩, r', vs, g1, by rw [g2, hexts], g3, g4, g5⟩
  rw [q2, hbin]
  unfold SegyParts.bytes
  rw [hexts]
  simp

private theorem merged12 {est : LogEst} {rev : Rev} (hr : rev ≠ .r0) {Fs : List SegyParts} {F' : SegyParts} {m : HdrMap}
    {b : HBlock} {bo : ByteOrder} (hint : ∀ f ∈ b.fields, ∃ k, intKind f.ty = some k)
    (hF : ∀ F ∈ Fs, HeadersOk m b bo F ∧ F.bh.formatCode = F'.bh.formatCode ∧ Movable est bo b.fields F'.bh F)
    (hF' : HeadersOk m b bo F') (htr : F'.traces = (Fs.map (·.traces)).flatten) (hrev : 1 ≤ F'.bh.revMajor) {bps : Nat}
    (hbps : bytesPerSample F'.bh.formatCode = some bps) :
    ∃ tss, List.Forall₂ (fun F ts => ∃ r, openReader F.bytes none m = .ok r ∧ Visits r ts ∧
        ts.length = F.traces.length) Fs tss ∧
      (∃ w, writeAll (rev.write est)
          (openedWriter false F'.text F'.exts [] F'.bh m (orderOfMarker F'.bh.endianness) bps) tss.flatten = .ok w ∧
        w.file.data = F'.bytes ∧ w.bh.numOfTrailerStanza = F'.bh.numOfTrailerStanza) ∧
      ∃ r' vs, openReader F'.bytes none m = .ok r' ∧ r'.texts = F'.text :: F'.exts ∧ r'.bh = F'.bh ∧ Visits r' vs ∧
        List.Forall₂ SameTrace tss.flatten vs := by
  obtain ⟨tss, h1, h2, h3, r', vs, g⟩ := merged hint hF' hF htr
  obtain ⟨hbh, -, rfl, hbin⟩ := copy_bin_ok hF'.size hF'.marker hF'.zeros hF'.read hF'.format
  obtain ⟨w, w1, w2, w3, -⟩ := copy_again (est := est) hr (trl := []) hF'.texts hF'.few hbh hF'.map hrev
    (fun _ => hF'.additional) hbps
    (fun t ht => ⟨(h3 t ht).1, by
      have := (h3 t ht).2
      unfold LengthTold at this
      rw [if_neg (by omega)] at this
      exact this⟩) h2
  refine ⟨tss, h1, ⟨w, w1, ?_, w3⟩, r', vs, g⟩
  rw [w2, hbin]
  rfl

/-- **C119 (part).** The same with `OSEGYRev1`, with any number of extended text headers in all files. -/
theorem C119_rev1_partial (est : LogEst) (Fs : List SegyParts) (F' : SegyParts) (m : HdrMap) (b : HBlock) (bo : ByteOrder)
    (hint : ∀ f ∈ b.fields, ∃ k, intKind f.ty = some k)
    (hF : ∀ F ∈ Fs, HeadersOk m b bo F ∧ F.bh.formatCode = F'.bh.formatCode ∧ Movable est bo b.fields F'.bh F)
    (hF' : HeadersOk m b bo F') (htr : F'.traces = (Fs.map (·.traces)).flatten) (hrev : F'.bh.revMajor = 1) :
    ∃ tss, List.Forall₂ (fun F ts => ∃ r, openReader F.bytes none m = .ok r ∧ Visits r ts ∧
        ts.length = F.traces.length) Fs tss ∧
      (∃ w0 w, openRev1 (F'.text :: F'.exts) F'.bh m = .ok w0 ∧ writeAll (writeTraceRev1 est) w0 tss.flatten = .ok w ∧
        w.file.data = F'.bytes) ∧
      ∃ r' vs, openReader F'.bytes none m = .ok r' ∧ r'.texts = F'.text :: F'.exts ∧ r'.bh = F'.bh ∧ Visits r' vs ∧
        List.Forall₂ SameTrace tss.flatten vs := by
  obtain ⟨hbh, -, -, -⟩ := copy_bin_ok hF'.size hF'.marker hF'.zeros hF'.read hF'.format
  obtain ⟨bps, hbps⟩ := bps_exists hF'.format
  have hopen := openRev1_of hF'.map.accepted hF'.texts (order_ok hbh) (by rw [fmt_ne hbh]; exact hF'.format)
    (by rw [fmt_ne hbh]; exact hbps)
  obtain ⟨tss, h1, ⟨w, w1, w2, -⟩, g⟩ := merged12 (rev := .r1) (by simp) hint hF hF' htr (by omega) hbps
  exact ⟨tss, h1, ⟨_, w, hopen, w1, w2⟩, g⟩

/-- **C119 (part).** The same with `OSEGYRev2`. -/
theorem C119_rev2_partial (est : LogEst) (Fs : List SegyParts) (F' : SegyParts) (m : HdrMap) (b : HBlock) (bo : ByteOrder)
    (hint : ∀ f ∈ b.fields, ∃ k, intKind f.ty = some k)
    (hF : ∀ F ∈ Fs, HeadersOk m b bo F ∧ F.bh.formatCode = F'.bh.formatCode ∧ Movable est bo b.fields F'.bh F)
    (hF' : HeadersOk m b bo F') (htr : F'.traces = (Fs.map (·.traces)).flatten) (hrev : 2 ≤ F'.bh.revMajor) :
    ∃ tss, List.Forall₂ (fun F ts => ∃ r, openReader F.bytes none m = .ok r ∧ Visits r ts ∧
        ts.length = F.traces.length) Fs tss ∧
      (∃ w0 w, openRev2 (F'.text :: F'.exts) F'.bh [] m = .ok w0 ∧ writeAll (writeTraceRev2 est) w0 tss.flatten = .ok w ∧
        closeRev2 w = .ok F'.bytes) ∧
      ∃ r' vs, openReader F'.bytes none m = .ok r' ∧ r'.texts = F'.text :: F'.exts ∧ r'.bh = F'.bh ∧ Visits r' vs ∧
        List.Forall₂ SameTrace tss.flatten vs := by
  obtain ⟨hbh, -, -, -⟩ := copy_bin_ok hF'.size hF'.marker hF'.zeros hF'.read hF'.format
  obtain ⟨bps, hbps⟩ := bps_exists hF'.format
  have hopen := openRev2_of (trl := []) hF'.map.accepted hF'.texts (by simp) (order_ok hbh)
    (by rw [fmt_ne hbh]; exact hF'.format) (by rw [fmt_ne hbh]; exact hbps)
  obtain ⟨tss, h1, ⟨w, w1, w2, w3⟩, g⟩ := merged12 (rev := .r2) (by simp) hint hF hF' htr (by omega) hbps
  refine ⟨tss, h1, ⟨_, w, hopen, w1, ?_⟩, g⟩
  rw [← w2]
  exact C23_undeclared_dropped w (w3.trans hF'.stanzas)

/-- A revision 0 file with one trace of two samples. -/
def exM0 : SegyParts := ⟨exText, exBin, [], [exTr1],
  { lineNum := 5, sampPerTr := 2, formatCode := 3, endianness := 0x01020304 }⟩

/-- A revision 1 file with an extended text header and traces of two and three samples. -/
def exM1 : SegyParts := ⟨exText, binHeaderBytes .le exBh1, [exText], [exTr1, exTr2], exBh1⟩

/-- The merged file in revision 2. -/
def exM2 : SegyParts := ⟨List.replicate 3200 65,
  binHeaderBytes .le { lineNum := 77, formatCode := 3, endianness := 0x01020304, revMajor := 2 }, [],
  [exTr1, exTr1, exTr2], { lineNum := 77, formatCode := 3, endianness := 0x01020304, revMajor := 2 }⟩

theorem exM0_ok : HeadersOk exWMap exB .le exM0 where
  texts := by decide +kernel
  few := by decide
  size := by decide +kernel
  marker := .inr (by decide +kernel)
  zeros := ex_covered (by decide +kernel)
  read := by decide +kernel
  format := by decide
  declared := .inl rfl
  extended := .inl ⟨rfl, rfl⟩
  additional := rfl
  stanzas := rfl
  first := .inl rfl
  map := exMapOk _ rfl

theorem exM1_ok : HeadersOk exWMap exB .le exM1 where
  texts := by decide +kernel
  few := by decide
  size := by decide +kernel
  marker := .inr (by decide +kernel)
  zeros := ex_covered (by decide +kernel)
  read := by decide +kernel
  format := by decide
  declared := .inl rfl
  extended := .inr ⟨by decide, by unfold ExtendedOk; decide⟩
  additional := rfl
  stanzas := rfl
  first := .inl rfl
  map := exMapOk _ rfl

theorem exM2_ok : HeadersOk exWMap exB .le exM2 where
  texts := by decide +kernel
  few := by decide
  size := by decide +kernel
  marker := .inr (by decide +kernel)
  zeros := ex_covered2 ⟨2, by decide +kernel, by decide⟩ (by decide +kernel)
  read := by decide +kernel
  format := by decide
  declared := .inl rfl
  extended := .inr ⟨by decide, by unfold ExtendedOk; decide⟩
  additional := rfl
  stanzas := rfl
  first := .inl rfl
  map := exMapOk _ rfl

private theorem ex_stored {n : Nat} {c : Bytes} {bh : BinHeader} (hv : bh.fixedTrLength = 0)
    (h : CountStored exBh1 .le exB.fields n c) : CountStored bh .le exB.fields n c := by
  unfold CountStored at h ⊢
  rw [if_neg (by decide)] at h
  rw [if_neg (by rw [hv]; simp)]
  exact h

private theorem ex_two : CopyableTrace (.strict fun _ => 0) 3 .le exB.fields 2 exTr1 ∧
    CountStored exBh1 .le exB.fields 2 exTr1 := by
  have hr : ∀ n : Nat, n < 32768 → Rewrites (.strict fun _ => 0) 3 .le (encInt .le 2 n) := fun n hn =>
    C55_sample_integer _ 3 .i16 rfl .le n (i16_range hn) (by omega)
  refine ⟨⟨_, _, rfl, by decide +kernel, by decide +kernel, rfl, ?_⟩, ?_⟩
  · intro p hp
    simp only [List.mem_cons, List.not_mem_nil, or_false] at hp
    rcases hp with rfl | rfl
    · exact hr 1 (by decide)
    · exact hr 2 (by decide)
  · unfold CountStored
    rw [if_neg (by decide)]
    refine ⟨by norm_num, ⟨114, "SAMP_NUM", .i16⟩, by decide, rfl, ?_⟩
    unfold FieldValue
    simp only [intKind, Value.int.injEq]
    decide +kernel

/-- A revision 0 file and a revision 1 file are merged into a revision 2 file. -/
example := C119_rev2_partial (.strict fun _ => 0) [exM0, exM1] exM2 exWMap exB .le exB_ints
  (fun F hF => by
    simp only [List.mem_cons, List.not_mem_nil, or_false] at hF
    rcases hF with rfl | rfl
    · refine ⟨exM0_ok, rfl, fun c hc => ?_⟩
      obtain rfl : c = exTr1 := by simpa [exM0] using hc
      refine ⟨2, ex_two.1, ?_, ?_⟩
      · unfold CountTold
        rw [if_pos (by decide)]
        rfl
      · unfold CountTold
        rw [if_neg (by decide)]
        exact ex_stored rfl ex_two.2
    · refine ⟨exM1_ok, rfl, fun c hc => ?_⟩
      obtain ⟨n, h1, h2⟩ := exCopyable exBh1 rfl rfl c hc
      refine ⟨n, h1, ?_, ?_⟩
      · unfold CountTold
        rw [if_neg (by decide)]
        exact h2
      · unfold CountTold
        rw [if_neg (by decide)]
        exact ex_stored rfl h2)
  exM2_ok rfl (by decide)

/-- The revision 0 file and the revision 1 file are merged into a revision 1 file. -/
example := C119_rev1_partial (.strict fun _ => 0) [exM1, exM0, exM1] { exM1 with
    traces := [exTr1, exTr2, exTr1, exTr1, exTr2] } exWMap exB .le exB_ints
  (fun F hF => by
    simp only [List.mem_cons, List.not_mem_nil, or_false] at hF
    have h1 : HeadersOk exWMap exB .le exM1 ∧ exM1.bh.formatCode = exBh1.formatCode ∧
        Movable (.strict fun _ => 0) .le exB.fields exBh1 exM1 := by
      refine ⟨exM1_ok, rfl, fun c hc => ?_⟩
      obtain ⟨n, h1, h2⟩ := exCopyable exBh1 rfl rfl c hc
      have h3 : CountTold exBh1 .le exB.fields n c := by
        unfold CountTold
        rw [if_neg (by decide)]
        exact h2
      exact ⟨n, h1, h3, h3⟩
    rcases hF with rfl | rfl | rfl
    · exact h1
    · refine ⟨exM0_ok, rfl, fun c hc => ?_⟩
      obtain rfl : c = exTr1 := by simpa [exM0] using hc
      refine ⟨2, ex_two.1, ?_, ?_⟩
      · unfold CountTold
        rw [if_pos (by decide)]
        rfl
      · unfold CountTold
        rw [if_neg (by decide)]
        exact ex_two.2
    · exact h1)
  ⟨exM1_ok.texts, exM1_ok.few, exM1_ok.size, exM1_ok.marker, exM1_ok.zeros, exM1_ok.read, exM1_ok.format, exM1_ok.declared,
    exM1_ok.extended, rfl, rfl, .inl rfl, exM1_ok.map⟩ rfl rfl

/-- Two revision 0 files are merged. -/
example := C119_rev0_partial (.strict fun _ => 0) [exM0, exM0] { exM0 with traces := [exTr1, exTr1] } exWMap exB .le
  exB_ints
  (fun F hF => by
    obtain rfl : F = exM0 := by simpa using hF
    refine ⟨exM0_ok, rfl, fun c hc => ?_⟩
    obtain rfl : c = exTr1 := by simpa [exM0] using hc
    have h3 : CountTold exM0.bh .le exB.fields 2 exTr1 := by
      unfold CountTold
      rw [if_pos (by decide)]
      rfl
    exact ⟨2, ex_two.1, h3, h3⟩)
  ⟨exM0_ok.texts, exM0_ok.few, exM0_ok.size, exM0_ok.marker, exM0_ok.zeros, exM0_ok.read, exM0_ok.format, exM0_ok.declared,
    exM0_ok.extended, rfl, rfl, .inl rfl, exM0_ok.map⟩ rfl rfl rfl (by decide)

/-- **C119 fails for files with different numbers of samples in revision 0.** Files with one trace of two samples and one
trace of three samples are merged under a header that says three. The first trace comes back with a third sample nobody
wrote. -/
theorem C119_different_lengths :
    (do let r1 ← openReader (exText ++ exBin ++ exOne) none exWMap
        let (t1, _) ← readTrace r1
        let r2 ← openReader (exText ++ binHeaderBytes .le
          { lineNum := 5, sampPerTr := 3, formatCode := 3, endianness := 0x01020304 } ++ exTr2) none exWMap
        let (t2, _) ← readTrace r2
        let w ← openRev0 exText r2.bh exWMap
        let w ← writeAll (writeTraceRev0 (.strict fun _ => 0)) w [t1, t2]
        let r' ← openReader w.file.data none exWMap
        let (t', _) ← readTrace r'
        pure (decide (t1.samples = [d1, d2] ∧ t'.samples = [d1, d2, dblOfInt 0]))) = .ok true := by decide +kernel

/-- **C119 fails for traces that do not tell their length.** A revision 0 file leaves the number of samples out of its trace
headers. Writing its trace to a revision 1 file with traces of different lengths is undefined. -/
theorem C119_length_not_told :
    (do let r ← openReader (exText ++ exBin ++ exOne) none exWMap
        let (t, _) ← readTrace r
        let w ← openRev1 [exText] { formatCode := 3, endianness := 0x01020304, revMajor := 1 } exWMap
        let _ ← writeTraceRev1 (.strict fun _ => 0) w t
        pure true) = (isUb .outOfBounds : Out Bool) := by decide +kernel

end Sedaman.Props
