import Verif.Lemmas.Pick
import Verif.Props.SortFile

/-!
# C113: picking traces of a SEG-Y file
-/

namespace Sedaman.Props
open Sedaman Sedaman.Spec

private theorem picks {est : LogEst} {text bin : Bytes} {exts : List Bytes} {bh : BinHeader}
    {m : HdrMap} {b : HBlock} {bps : Nat} {cs : List Bytes} {ts0 : List Trace} {Good : Trace → Prop}
    {Writes : List Trace → Bytes → Prop} (hl : ∀ x ∈ text :: exts, x.length = 3200)
    (hn : exts.length < 65536) (hbh : HeaderOk bh) (hm : MapOk bh m b)
    (hdecl : TextsDeclared bh exts) (hmax : (visible bh).maxNumAddTrHeaders = 0)
    (hoff : (visible bh).byteOffOfFirstTr = 0 ∨
      (visible bh).byteOffOfFirstTr = ((3600 + 3200 * exts.length : Nat) : Int))
    (hstz : (visible bh).numOfTrailerStanza = 0)
    (hbps : bytesPerSample bh.formatCode = some bps) (hbin : binHeaderBytes (orderOfMarker bh.endianness) bh = bin)
    (hint : ∀ f ∈ b.fields, ∃ k, intKind f.ty = some k)
    (hs : 0 ≤ samplesPerTrace bh * bps ∧ samplesPerTrace bh * bps < 2 ^ 31)
    (h1 : List.Forall₂ (Chunk est (orderOfMarker bh.endianness) bh.formatCode b.fields) ts0 cs)
    (h2 : ∀ t ∈ ts0, Storable est bh.formatCode (orderOfMarker bh.endianness) b.fields t ∧ LenKnown bh bps b.fields t ∧
        ∀ x ∈ t.samples, Survives est bh.formatCode (orderOfMarker bh.endianness) x)
    (hgood : ∀ o ∈ ts0, ∀ t, TraceBack est bh.formatCode (orderOfMarker bh.endianness) b.fields o t → Good t)
    (hw : ∀ us ds, (∀ t ∈ us, Good t) →
      List.Forall₂ (Chunk est (orderOfMarker bh.endianness) bh.formatCode b.fields) us ds →
      Writes us (text ++ bin ++ exts.flatten ++ ds.flatten)) :
    ∃ (r : Reader) (ts : List Trace), openReader (text ++ bin ++ exts.flatten ++ cs.flatten) none m = .ok r ∧
      r.texts = text :: exts ∧ r.bh = visible bh ∧ r.trailers = [] ∧ Visits r ts ∧ ts.length = cs.length ∧
      ∀ ks, Writes (picked ks ts) (text ++ bin ++ exts.flatten ++ (picked ks cs).flatten) ∧
        ∃ r', openReader (text ++ bin ++ exts.flatten ++ (picked ks cs).flatten) none m = .ok r' ∧
          r'.texts = text :: exts ∧ r'.bh = visible bh ∧ r'.trailers = [] ∧ Visits r' (picked ks ts) := by
  obtain ⟨r, ts, ho, t1, t2, t3, hback, hist⟩ := pieces_read hl hn hbh hm hdecl hmax hoff hstz hbps hs
    (fun t ht => ⟨(h2 t ht).1, (h2 t ht).2.1⟩) h1
  have hhead : (text ++ bin ++ exts.flatten).length = 3600 + 3200 * exts.length := by
    rw [← hbin, List.length_append, List.length_append, hl text List.mem_cons_self, binHeaderBytes_length,
      flatten_length_const 3200 fun x hx => hl x (List.mem_cons_of_mem _ hx)]
  have ho' : ∀ ds : List Bytes, openReader (text ++ bin ++ exts.flatten ++ ds.flatten) none m = .ok
      { r with file := ⟨text ++ bin ++ exts.flatten ++ ds.flatten, 3600 + 3200 * exts.length⟩
               curr := 3600 + 3200 * exts.length, endData := 3600 + 3200 * exts.length + ds.flatten.length } := by
    intro ds
    have := ho ds
    rw [hbin] at this
    simp only [List.append_assoc] at this ⊢
    exact this
  have b2 := chunks_back hint (fun t ht f hf => ((h2 t ht).1.ints f hf).imp fun _ h => h.1) hback
    (fun t ht => (h2 t ht).2.2) h1
  refine ⟨_, ts, ho' cs, t1, t2, t3, pieces_visited hhead hist (ho' cs), hist.length_eq.symm, fun ks => ⟨?_, _, ho' (picked ks cs), t1, t2, t3,
    pieces_visited hhead (picked_forall hist ks) (ho' (picked ks cs))⟩⟩
  refine hw _ _ (fun t ht => ?_) (picked_forall b2 ks)
  obtain ⟨o, ho, hb⟩ := forall₂_mem_right hback (picked_mem ht)
  exact hgood o ho t hb

/-- **C113 (part).** A revision 0 file is read to its end, and some of its traces, in any order and as often as one
likes, are written with `OSEGYRev0` and the headers the reader shows. The new file is made of the headers of the
first one and the bytes of these traces, and reading it gives these traces. Conditions as in C55. -/
theorem C113_rev0_partial (est : LogEst) (text bin : Bytes) (cs : List Bytes) (m : HdrMap) (b : HBlock)
    (bo : ByteOrder) (bh : BinHeader) (ht : text.length = 3200) (hl : bin.length = 400)
    (hm : decInt .le ((bin.drop 96).take 4) = 0 ∨ decInt .le ((bin.drop 96).take 4) = 0x01020304)
    (hz : ∀ i, i < 400 → ¬ BinCovered bin i → bin[i]? = some 0)
    (hf : fillBinHeader {} false bin = .ok (bo, bh)) (hfmt : bh.formatCode ∈ supportedFormats)
    (hrev : bh.revMajor = 0) (hexts : bh.extTextHeadersNum = 0) (hext : bh.extSampPerTr = 0)
    (hexplicit : bh ≠ { formatCode := 1 })
    (hmap : MapOk bh m b) (hint : ∀ f ∈ b.fields, ∃ k, intKind f.ty = some k)
    (hcs : ∀ c ∈ cs, CopyableTrace est bh.formatCode bo b.fields (bh.sampPerTr % 65536).toNat c) :
    ∃ (r : Reader) (ts : List Trace), openReader (text ++ bin ++ cs.flatten) none m = .ok r ∧ Visits r ts ∧
      ts.length = cs.length ∧
      ∀ ks, WritesAgain est .r0 r m (picked ks ts) (text ++ bin ++ (picked ks cs).flatten) ∧
        ∃ r', openReader (text ++ bin ++ (picked ks cs).flatten) none m = .ok r' ∧ r'.texts = r.texts ∧ r'.bh = r.bh ∧
          Visits r' (picked ks ts) := by
  obtain ⟨hbh, hvis, rfl, hbin⟩ := copy_bin_ok hl hm hz hf hfmt
  obtain ⟨bps, hbps⟩ := bps_exists hfmt
  have hb := bps_small hbps
  obtain ⟨v1, v2, v3⟩ := visible_low (bh := bh) (by omega)
  obtain ⟨s1, s2⟩ := spt_fixed (bh := bh) hb (.inl hext)
  have hn : (((bh.sampPerTr % 65536).toNat : Nat) : Int) = bh.sampPerTr % 65536 := by omega
  have hopen := openRev0_of hmap.accepted ht (order_ok hbh) (by rw [fmt_ne hbh]; exact hfmt)
    (by rw [fmt_ne hbh]; exact hbps)
  obtain ⟨ts0, h1, h2⟩ := traces_of hfmt hmap.safe hmap.names hint hcs (by omega)
  obtain ⟨r, ts, k1, k2, k3, k4, k5, k7, k6⟩ :=
    picks (est := est) (exts := []) (ts0 := ts0) (cs := cs)
      (Good := fun t => Storable est bh.formatCode (orderOfMarker bh.endianness) b.fields t ∧
        t.samples.length = (bh.sampPerTr % 65536).toNat)
      (Writes := fun us data => ∃ w, writeAll (writeTraceRev0 est)
        (openedWriter true text [] [] bh m (orderOfMarker bh.endianness) bps) us = .ok w ∧ w.file.data = data)
      (by simpa using ht) (by simp) hbh hmap (.inl (by rw [hexts]; rfl)) v1 (.inl v2) v3 hbps hbin hint s2 h1
      (fun t ht' => by
        obtain ⟨a1, a2, a3⟩ := h2 t ht'
        refine ⟨a1, ?_, a3⟩
        unfold LenKnown
        rw [if_pos (by unfold fixedLength; rw [hrev]; simp), s1, ← hn, ← a2, ← Int.natCast_mul]
        rfl)
      (fun o ho t hb' => ⟨storable_back hint (h2 o ho).1 hb' (h2 o ho).2.2,
        by rw [samples_same hb'.1 (h2 o ho).2.2]; exact (h2 o ho).2.1⟩)
      (fun us ds hu hc => by
        obtain ⟨w, q1, q2⟩ := pieces_again0 ht hbh hmap hexplicit hbps hu hc
        exact ⟨w, q1, by rw [q2, hbin]; simp⟩)
  simp only [List.flatten_nil, List.append_nil] at k1 k6
  refine ⟨r, ts, k1, k5, k7, fun ks => ?_⟩
  obtain ⟨⟨w, w1, w2⟩, r', g1, g2, g3, -, g5⟩ := k6 ks
  exact ⟨⟨text, _, w, k2, by rw [k3, hvis]; exact hopen, w1, w2.symm⟩, r', g1, by rw [g2, k2], by rw [g3, k3], g5⟩

private theorem picks12 {est : LogEst} {rev : Rev} (hr : rev ≠ .r0) {text bin : Bytes} {exts : List Bytes} {bh : BinHeader}
    {m : HdrMap} {b : HBlock} {bps : Nat} {cs : List Bytes} (hl : ∀ x ∈ text :: exts, x.length = 3200)
    (hn : exts.length < 65536) (hbh : HeaderOk bh) (hm : MapOk bh m b) (hrev : 1 ≤ bh.revMajor)
    (hdecl : TextsDeclared bh exts) (hext : ExtendedOk bh) (hmax : (visible bh).maxNumAddTrHeaders = 0)
    (hadd : rev = .r2 → bh.maxNumAddTrHeaders = 0)
    (hoff : (visible bh).byteOffOfFirstTr = 0 ∨
      (visible bh).byteOffOfFirstTr = ((3600 + 3200 * exts.length : Nat) : Int))
    (hstz : (visible bh).numOfTrailerStanza = 0)
    (hbps : bytesPerSample bh.formatCode = some bps) (hbin : binHeaderBytes (orderOfMarker bh.endianness) bh = bin)
    (hint : ∀ f ∈ b.fields, ∃ k, intKind f.ty = some k)
    (hcs : ∀ c ∈ cs, CopyableTrace12 est bh (orderOfMarker bh.endianness) b.fields c) :
    ∃ (r : Reader) (ts : List Trace), openReader (text ++ bin ++ exts.flatten ++ cs.flatten) none m = .ok r ∧
      r.texts = text :: exts ∧ r.bh = visible bh ∧ r.trailers = [] ∧ Visits r ts ∧ ts.length = cs.length ∧
      ∀ ks, (∃ w, writeAll (rev.write est) (openedWriter false text exts [] bh m (orderOfMarker bh.endianness) bps)
            (picked ks ts) = .ok w ∧ w.file.data = text ++ bin ++ exts.flatten ++ (picked ks cs).flatten ∧
          w.bh.numOfTrailerStanza = bh.numOfTrailerStanza) ∧
        ∃ r', openReader (text ++ bin ++ exts.flatten ++ (picked ks cs).flatten) none m = .ok r' ∧
          r'.texts = text :: exts ∧ r'.bh = visible bh ∧ r'.trailers = [] ∧ Visits r' (picked ks ts) := by
  obtain ⟨ts0, h1, h2⟩ := traces_of12 hbh.format hm.safe hm.names hint hcs
  obtain ⟨q1, q2⟩ := lenKnown_of (bps_small hbps) hrev hext
  exact picks (est := est) (ts0 := ts0) (cs := cs)
      (Good := fun t => Storable est bh.formatCode (orderOfMarker bh.endianness) b.fields t ∧ LengthKnown bh b.fields t)
      (Writes := fun us data => ∃ w, writeAll (rev.write est)
        (openedWriter false text exts [] bh m (orderOfMarker bh.endianness) bps) us = .ok w ∧ w.file.data = data ∧
          w.bh.numOfTrailerStanza = bh.numOfTrailerStanza)
      hl hn hbh hm hdecl hmax hoff hstz hbps hbin hint q1 h1
      (fun t ht' => ⟨(h2 t ht').1, q2 _ _ (h2 t ht').2.1, (h2 t ht').2.2⟩)
      (fun o ho t hb' => ⟨storable_back hint (h2 o ho).1 hb' (h2 o ho).2.2,
        length_back (h2 o ho).2.1 hb' (h2 o ho).2.2⟩)
      (fun us ds hu hc => by
        obtain ⟨w, w1, w2, w3, -⟩ := copy_again (est := est) hr (trl := []) hl hn hbh hm hrev hadd hbps hu hc
        exact ⟨w, w1, by rw [w2, hbin], w3⟩)

/-- **C113 (part).** The same for revision 1 files, written with `OSEGYRev1`. Conditions as in C82. -/
theorem C113_rev1_partial (est : LogEst) (text bin : Bytes) (exts cs : List Bytes) (m : HdrMap) (b : HBlock)
    (bo : ByteOrder) (bh : BinHeader) (ht : ∀ x ∈ text :: exts, x.length = 3200)
    (hn : exts.length < 65536) (hl : bin.length = 400)
    (hm : decInt .le ((bin.drop 96).take 4) = 0 ∨ decInt .le ((bin.drop 96).take 4) = 0x01020304)
    (hz : ∀ i, i < 400 → ¬ BinCovered bin i → bin[i]? = some 0)
    (hf : fillBinHeader {} false bin = .ok (bo, bh)) (hfmt : bh.formatCode ∈ supportedFormats)
    (hrev : bh.revMajor = 1) (hdecl : TextsDeclared bh exts) (hext : ExtendedOk bh)
    (hmap : MapOk bh m b) (hint : ∀ f ∈ b.fields, ∃ k, intKind f.ty = some k)
    (hcs : ∀ c ∈ cs, CopyableTrace12 est bh bo b.fields c) :
    ∃ (r : Reader) (ts : List Trace),
      openReader (text ++ bin ++ exts.flatten ++ cs.flatten) none m = .ok r ∧ Visits r ts ∧
      ts.length = cs.length ∧
      ∀ ks, WritesAgain est .r1 r m (picked ks ts) (text ++ bin ++ exts.flatten ++ (picked ks cs).flatten) ∧
        ∃ r', openReader (text ++ bin ++ exts.flatten ++ (picked ks cs).flatten) none m = .ok r' ∧
          r'.texts = r.texts ∧ r'.bh = r.bh ∧ Visits r' (picked ks ts) := by
  obtain ⟨hbh, hvis, rfl, hbin⟩ := copy_bin_ok hl hm hz hf hfmt
  obtain ⟨bps, hbps⟩ := bps_exists hfmt
  obtain ⟨v1, v2, v3⟩ := visible_low (bh := bh) (by omega)
  have hopen := openRev1_of hmap.accepted ht (order_ok hbh) (by rw [fmt_ne hbh]; exact hfmt)
    (by rw [fmt_ne hbh]; exact hbps)
  obtain ⟨r, ts, k1, k2, k3, k4, k5, k7, k6⟩ :=
    picks12 (est := est) (rev := .r1) (by simp) ht hn hbh hmap (by omega) hdecl hext v1 (by simp) (.inl v2) v3 hbps hbin
      hint hcs
  refine ⟨r, ts, k1, k5, k7, fun ks => ?_⟩
  obtain ⟨⟨w, w1, w2, -⟩, r', g1, g2, g3, -, g5⟩ := k6 ks
  exact ⟨⟨_, w, by rw [k2, k3, hvis]; exact hopen, w1, w2.symm⟩, r', g1, by rw [g2, k2], by rw [g3, k3], g5⟩

/-- **C113 (part).** The same for revision 2 files without additional trace headers and without trailer
stanzas, written with `OSEGYRev2`. -/
theorem C113_rev2_partial (est : LogEst) (text bin : Bytes) (exts cs : List Bytes) (m : HdrMap) (b : HBlock)
    (bo : ByteOrder) (bh : BinHeader) (ht : ∀ x ∈ text :: exts, x.length = 3200)
    (hn : exts.length < 65536) (hl : bin.length = 400)
    (hm : decInt .le ((bin.drop 96).take 4) = 0 ∨ decInt .le ((bin.drop 96).take 4) = 0x01020304)
    (hz : ∀ i, i < 400 → ¬ BinCovered bin i → bin[i]? = some 0)
    (hf : fillBinHeader {} false bin = .ok (bo, bh)) (hfmt : bh.formatCode ∈ supportedFormats)
    (hrev : 2 ≤ bh.revMajor) (hdecl : TextsDeclared bh exts) (hext : ExtendedOk bh)
    (hadd : bh.maxNumAddTrHeaders = 0) (hstz : bh.numOfTrailerStanza = 0)
    (hoff : bh.byteOffOfFirstTr = 0 ∨ bh.byteOffOfFirstTr = 3600 + 3200 * exts.length)
    (hmap : MapOk bh m b) (hint : ∀ f ∈ b.fields, ∃ k, intKind f.ty = some k)
    (hcs : ∀ c ∈ cs, CopyableTrace12 est bh bo b.fields c) :
    ∃ (r : Reader) (ts : List Trace),
      openReader (text ++ bin ++ exts.flatten ++ cs.flatten) none m = .ok r ∧ Visits r ts ∧
      ts.length = cs.length ∧
      ∀ ks, WritesAgain est .r2 r m (picked ks ts) (text ++ bin ++ exts.flatten ++ (picked ks cs).flatten) ∧
        ∃ r', openReader (text ++ bin ++ exts.flatten ++ (picked ks cs).flatten) none m = .ok r' ∧
          r'.texts = r.texts ∧ r'.bh = r.bh ∧ Visits r' (picked ks ts) := by
  obtain ⟨hbh, hvis, rfl, hbin⟩ := copy_bin_ok hl hm hz hf hfmt
  obtain ⟨bps, hbps⟩ := bps_exists hfmt
  have hopen := openRev2_of (trl := []) hmap.accepted ht (by simp) (order_ok hbh) (by rw [fmt_ne hbh]; exact hfmt)
    (by rw [fmt_ne hbh]; exact hbps)
  obtain ⟨r, ts, k1, k2, k3, k4, k5, k7, k6⟩ :=
    picks12 (est := est) (rev := .r2) (by simp) ht hn hbh hmap (by omega) hdecl hext (by rw [hvis]; exact hadd) (fun _ => hadd)
      (by rw [hvis]; push_cast; exact hoff) (by rw [hvis]; exact hstz) hbps hbin hint hcs
  refine ⟨r, ts, k1, k5, k7, fun ks => ?_⟩
  obtain ⟨⟨w, w1, w2, w3⟩, r', g1, g2, g3, -, g5⟩ := k6 ks
  refine ⟨⟨_, w, by rw [k2, k3, k4, hvis]; exact hopen, w1, ?_⟩, r', g1, by rw [g2, k2], by rw [g3, k3], g5⟩
  rw [← w2]
  exact C23_undeclared_dropped w (w3.trans hstz)

/-- **C113.** The traces that pass a test are such a choice, in the order of the file. -/
theorem C113_filter (ts : List Trace) (p : Trace → Bool) :
    ∃ ks : List Nat, ks.Pairwise (· < ·) ∧ picked ks ts = ts.filter p :=
  picked_sublist List.filter_sublist

/-! ## Cases -/

/-- A revision 1 file with an extended text header and traces of different lengths. -/
example := C113_rev1_partial (.strict fun _ => 0) exText (binHeaderBytes .le exBh1) [exText] [exTr1, exTr2] exWMap exB .le
  exBh1 (by decide +kernel) (by decide) (by decide +kernel) (.inr (by decide +kernel)) (ex_covered (by decide +kernel))
  (by decide +kernel) (by decide) rfl (.inl rfl) (by unfold ExtendedOk; decide) (exMapOk _ rfl) exB_ints
  (exCopyable _ rfl rfl)

/-- The second trace, the first and the second once more. -/
example : picked [1, 0, 1, 5] [exTr1, exTr2] = [exTr2, exTr1, exTr2] := rfl

/-- A revision 2 file. -/
example := C113_rev2_partial (.strict fun _ => 0) exText (binHeaderBytes .le { exBh2 with numOfTrailerStanza := 0 })
  [exText, exEnd] [exTr1, exTr2] exWMap exB .le { exBh2 with numOfTrailerStanza := 0 }
  (by decide +kernel) (by decide) (by decide +kernel) (.inr (by decide +kernel))
  (ex_covered2 ⟨2, by decide +kernel, by decide⟩ (by decide +kernel))
  (by decide +kernel) (by decide) (by decide) (.inr ⟨rfl, [exText], exEnd, rfl, by decide +kernel, by decide +kernel⟩)
  (by unfold ExtendedOk; decide) rfl rfl (.inr rfl) (exMapOk _ rfl) exB_ints (exCopyable _ rfl rfl)

/-- A revision 0 file with one trace of two samples. -/
example := C113_rev0_partial (.strict fun _ => 0) exText exBin
  [List.replicate 8 0 ++ [7, 0, 0, 0] ++ List.replicate 228 0 ++ [[1, 0], [2, 0]].flatten]
  exWMap exB .le { lineNum := 5, sampPerTr := 2, formatCode := 3, endianness := 0x01020304 }
  (by decide +kernel) (by decide +kernel) (.inr (by decide +kernel)) (ex_covered (by decide +kernel))
  (by decide +kernel) (by decide) rfl rfl rfl (by decide) (exMapOk _ rfl) exB_ints
  (fun c hc => by
    have hr : ∀ n : Nat, n < 32768 → Rewrites (.strict fun _ => 0) 3 .le (encInt .le 2 n) := fun n hn =>
      C55_sample_integer _ 3 .i16 rfl .le n (i16_range hn) (by omega)
    simp only [List.mem_cons, List.not_mem_nil, or_false] at hc
    rcases hc with rfl
    refine ⟨_, _, rfl, by decide +kernel, by decide +kernel, rfl, ?_⟩
    intro p hp
    simp only [List.mem_cons, List.not_mem_nil, or_false] at hp
    rcases hp with rfl | rfl
    · exact hr 1 (by decide)
    · exact hr 2 (by decide))

end Sedaman.Props
