import Verif.Lemmas.Resample
import Verif.Props.SortFile

/-!
# C116: replacing the samples of a SEG-Y file
-/

namespace Sedaman.Props
open Sedaman Sedaman.Spec

/-- The bytes, the trace, and what is known about it. -/
private structure Kept (est : LogEst) (bo : ByteOrder) (fmt : Int) (fields : List HField) (Good : Trace → Prop) (t : Trace)
    (c : Bytes) : Prop where
  chunk : Chunk est bo fmt fields t c
  good : Good t
  stor : Storable est fmt bo fields t
  plain : PlainHeader fields t.header

private theorem kept_all {est : LogEst} {bo : ByteOrder} {fmt : Int} {fields : List HField} {Good : Trace → Prop}
    (hge : ∀ (t : Trace) (xs : List Dbl), Good t → xs.length = t.samples.length → Good (resample t xs))
    {ts : List Trace} {cs : List Bytes} (h : List.Forall₂ (Kept est bo fmt fields Good) ts cs) :
    ∀ xss : List (List Dbl), List.Forall₂ (Replaces est fmt bo) ts xss →
      ∃ pss : List (List Bytes), List.Forall₂ (EncodedBy est fmt bo) xss pss ∧
        List.Forall₂ (Kept est bo fmt fields Good) (List.zipWith resample ts xss)
          (List.zipWith resampleBytes cs pss) := by
  induction h with
  | nil => intro xss h; cases h; exact ⟨[], .nil, .nil⟩
  | cons a _ ih =>
    intro xss h
    cases h with
    | cons x y =>
      obtain ⟨pss, p1, p2⟩ := ih _ y
      obtain ⟨ps, q1, q2⟩ := chunk_samples a.chunk x.2
      exact ⟨ps :: pss, .cons q1 p1, .cons ⟨q2, hge _ _ a.good x.1, ⟨a.stor.ints, x.2, lt_of_eq_of_lt x.1 a.stor.size⟩, a.plain⟩ p2⟩

private theorem stored_all {est : LogEst} {bo : ByteOrder} {fmt : Int} {fields : List HField} {Good : Trace → Prop}
    {us vs : List Trace} {cs : List Bytes} (h : List.Forall₂ (Kept est bo fmt fields Good) us cs)
    (hb : List.Forall₂ (TraceBack est fmt bo fields) us vs) : List.Forall₂ (StoredTrace est fmt bo) us vs := by
  induction hb generalizing cs with
  | nil => exact .nil
  | cons a _ ih =>
    cases h with
    | cons x y => exact .cons (stored_of_back x.plain a) (ih y)

private theorem kept_of {est : LogEst} {bo : ByteOrder} {fmt : Int} {fields : List HField} {Good : Trace → Prop}
    (hint : ∀ f ∈ fields, ∃ k, intKind f.ty = some k) {os ts : List Trace} {cs : List Bytes}
    (hb : List.Forall₂ (TraceBack est fmt bo fields) os ts) (hc : List.Forall₂ (Chunk est bo fmt fields) ts cs)
    (h2 : ∀ t ∈ os, Storable est fmt bo fields t ∧ ∀ x ∈ t.samples, Survives est fmt bo x)
    (hg : ∀ o ∈ os, ∀ t, TraceBack est fmt bo fields o t → Good t) : List.Forall₂ (Kept est bo fmt fields Good) ts cs := by
  induction hb generalizing cs with
  | nil => cases hc; exact .nil
  | cons a _ ih =>
    cases hc with
    | cons x y =>
      obtain ⟨s1, s2⟩ := h2 _ List.mem_cons_self
      exact .cons ⟨x, hg _ List.mem_cons_self _ a, storable_back hint s1 a s2, plain_back hint s1 a⟩
        (ih y (fun t ht => h2 t (List.mem_cons_of_mem _ ht)) fun o ho => hg o (List.mem_cons_of_mem _ ho))

private theorem replaced {est : LogEst} {text bin : Bytes} {exts : List Bytes} {bh : BinHeader}
    {m : HdrMap} {b : HBlock} {bps : Nat} {cs : List Bytes} {ts0 : List Trace} {Good : Trace → Prop}
    {Writes : List Trace → Bytes → Prop} (hl : ∀ x ∈ text :: exts, x.length = 3200)
    (hn : exts.length < 65536) (hbh : HeaderOk bh) (hm : MapOk bh m b)
    (hdecl : TextsDeclared bh exts) (hmax : (visible bh).maxNumAddTrHeaders = 0)
    (hoff : (visible bh).byteOffOfFirstTr = 0 ∨
      (visible bh).byteOffOfFirstTr = ((3600 + 3200 * exts.length : Nat) : Int))
    (hstz : (visible bh).numOfTrailerStanza = 0)
    (hbps : bytesPerSample bh.formatCode = some bps) (hbin : binHeaderBytes (orderOfMarker bh.endianness) bh = bin)
    (hint : ∀ f ∈ b.fields, ∃ k, intKind f.ty = some k)
    (hs : 0 ≤ samplesPerTrace bh * bps ∧ samplesPerTrace bh * bps < 2 ^ 31)
    (h1 : List.Forall₂ (Chunk est (orderOfMarker bh.endianness) bh.formatCode b.fields) ts0 cs)
    (h2 : ∀ t ∈ ts0, Storable est bh.formatCode (orderOfMarker bh.endianness) b.fields t ∧ LenKnown bh bps b.fields t ∧
        ∀ x ∈ t.samples, Survives est bh.formatCode (orderOfMarker bh.endianness) x)
    (hgood : ∀ o ∈ ts0, ∀ t, TraceBack est bh.formatCode (orderOfMarker bh.endianness) b.fields o t → Good t)
    (hge : ∀ (t : Trace) (xs : List Dbl), Good t → xs.length = t.samples.length → Good (resample t xs)) (hlen : ∀ t, Good t → LenKnown bh bps b.fields t)
    (hw : ∀ us ds, (∀ t ∈ us, Storable est bh.formatCode (orderOfMarker bh.endianness) b.fields t ∧ Good t) →
      List.Forall₂ (Chunk est (orderOfMarker bh.endianness) bh.formatCode b.fields) us ds →
      Writes us (text ++ bin ++ exts.flatten ++ ds.flatten)) :
    ∃ (r : Reader) (ts : List Trace), openReader (text ++ bin ++ exts.flatten ++ cs.flatten) none m = .ok r ∧
      r.texts = text :: exts ∧ r.bh = visible bh ∧ r.trailers = [] ∧ Visits r ts ∧ ts.length = cs.length ∧
      ∀ xss : List (List Dbl), List.Forall₂ (Replaces est bh.formatCode (orderOfMarker bh.endianness)) ts xss →
        ∃ pss : List (List Bytes), List.Forall₂ (EncodedBy est bh.formatCode (orderOfMarker bh.endianness)) xss pss ∧
        Writes (List.zipWith resample ts xss) (text ++ bin ++ exts.flatten ++
          (List.zipWith resampleBytes cs pss).flatten) ∧
        ∃ r' vs, openReader (text ++ bin ++ exts.flatten ++
            (List.zipWith resampleBytes cs pss).flatten) none m = .ok r' ∧
          r'.texts = text :: exts ∧ r'.bh = visible bh ∧ Visits r' vs ∧
          List.Forall₂ (StoredTrace est bh.formatCode (orderOfMarker bh.endianness)) (List.zipWith resample ts xss) vs := by
  have hhead : (text ++ bin ++ exts.flatten).length = 3600 + 3200 * exts.length := by
    rw [← hbin, List.length_append, List.length_append, hl text List.mem_cons_self, binHeaderBytes_length,
      flatten_length_const 3200 fun x hx => hl x (List.mem_cons_of_mem _ hx)]
  obtain ⟨r, ts, ho, t1, t2, t3, hback, hist⟩ := pieces_read hl hn hbh hm hdecl hmax hoff hstz hbps hs
    (fun t ht => ⟨(h2 t ht).1, (h2 t ht).2.1⟩) h1
  have b2 := chunks_back hint (fun t ht f hf => ((h2 t ht).1.ints f hf).imp fun _ h => h.1) hback
    (fun t ht => (h2 t ht).2.2) h1
  have hheld := kept_of hint hback b2 (fun t ht => ⟨(h2 t ht).1, (h2 t ht).2.2⟩) hgood
  have ho' := ho cs
  rw [hbin] at ho'
  simp only [← List.append_assoc] at ho'
  refine ⟨_, ts, ho', t1, t2, t3, pieces_visited hhead hist ho', hist.length_eq.symm, fun xss hx => ?_⟩
  obtain ⟨pss, hpss, hall⟩ := kept_all hge hheld xss hx
  have hmem : ∀ u ∈ List.zipWith resample ts xss,
      Storable est bh.formatCode (orderOfMarker bh.endianness) b.fields u ∧ Good u := fun u hu => by
    obtain ⟨c, -, hc⟩ := forall₂_mem_right hall.flip hu
    exact ⟨hc.stor, hc.good⟩
  have hch : List.Forall₂ (Chunk est (orderOfMarker bh.endianness) bh.formatCode b.fields)
      (List.zipWith resample ts xss)
      (List.zipWith resampleBytes cs pss) := hall.imp fun _ _ h => h.chunk
  obtain ⟨r2, vs, go, g1, g2, g3, gback, gist⟩ := pieces_read hl hn hbh hm hdecl hmax hoff hstz hbps hs
    (fun t ht => ⟨(hmem t ht).1, hlen t (hmem t ht).2⟩) hch
  have go' := go (List.zipWith resampleBytes cs pss)
  rw [hbin] at go'
  simp only [← List.append_assoc] at go'
  exact ⟨pss, hpss, hw _ _ hmem hch, _, vs, go', g1, g2, pieces_visited hhead gist go', stored_all hall gback⟩

/-- **C116 (part).** A revision 0 file is read to its end, each trace gets other samples, as many as it had, and everything is
written with `OSEGYRev0` and the headers the reader shows. In the new file all bytes are as before except those of the
samples, which are the encodings of the new ones. Reading it gives the traces with the headers they had and with the new
samples, as far as the sample format can hold them. Conditions as in C55. -/
theorem C116_rev0_partial (est : LogEst) (text bin : Bytes) (cs : List Bytes) (m : HdrMap) (b : HBlock)
    (bo : ByteOrder) (bh : BinHeader) (ht : text.length = 3200) (hl : bin.length = 400)
    (hm : decInt .le ((bin.drop 96).take 4) = 0 ∨ decInt .le ((bin.drop 96).take 4) = 0x01020304)
    (hz : ∀ i, i < 400 → ¬ BinCovered bin i → bin[i]? = some 0)
    (hf : fillBinHeader {} false bin = .ok (bo, bh)) (hfmt : bh.formatCode ∈ supportedFormats)
    (hrev : bh.revMajor = 0) (hexts : bh.extTextHeadersNum = 0) (hext : bh.extSampPerTr = 0)
    (hexplicit : bh ≠ { formatCode := 1 })
    (hmap : MapOk bh m b) (hint : ∀ f ∈ b.fields, ∃ k, intKind f.ty = some k)
    (hcs : ∀ c ∈ cs, CopyableTrace est bh.formatCode bo b.fields (bh.sampPerTr % 65536).toNat c) :
    ∃ (r : Reader) (ts : List Trace), openReader (text ++ bin ++ cs.flatten) none m = .ok r ∧ Visits r ts ∧
      ts.length = cs.length ∧
      ∀ xss : List (List Dbl), List.Forall₂ (Replaces est bh.formatCode bo) ts xss →
        ∃ pss : List (List Bytes), List.Forall₂ (EncodedBy est bh.formatCode bo) xss pss ∧
        WritesAgain est .r0 r m (List.zipWith resample ts xss)
          (text ++ bin ++ (List.zipWith resampleBytes cs pss).flatten) ∧
        ∃ r' vs, openReader (text ++ bin ++ (List.zipWith resampleBytes cs pss).flatten) none m = .ok r' ∧
          r'.texts = r.texts ∧ r'.bh = r.bh ∧ Visits r' vs ∧
          List.Forall₂ (StoredTrace est bh.formatCode bo) (List.zipWith resample ts xss) vs := by
  obtain ⟨hbh, hvis, rfl, hbin⟩ := copy_bin_ok hl hm hz hf hfmt
  obtain ⟨bps, hbps⟩ := bps_exists hfmt
  have hb := bps_small hbps
  obtain ⟨v1, v2, v3⟩ := visible_low (bh := bh) (by omega)
  obtain ⟨s1, s2⟩ := spt_fixed (bh := bh) hb (.inl hext)
  have hn : (((bh.sampPerTr % 65536).toNat : Nat) : Int) = bh.sampPerTr % 65536 := by omega
  have hopen := openRev0_of hmap.accepted ht (order_ok hbh) (by rw [fmt_ne hbh]; exact hfmt)
    (by rw [fmt_ne hbh]; exact hbps)
  obtain ⟨ts0, h1, h2⟩ := traces_of hfmt hmap.safe hmap.names hint hcs (by omega)
  have hlk : ∀ t : Trace, t.samples.length = (bh.sampPerTr % 65536).toNat → LenKnown bh bps b.fields t := by
    intro t a2
    unfold LenKnown
    rw [if_pos (by unfold fixedLength; rw [hrev]; simp), s1, ← hn, ← a2, ← Int.natCast_mul]
    rfl
  obtain ⟨r, ts, k1, k2, k3, k4, k5, k7, k6⟩ :=
    replaced (est := est) (exts := []) (ts0 := ts0) (cs := cs)
      (Good := fun t => t.samples.length = (bh.sampPerTr % 65536).toNat)
      (Writes := fun us data => ∃ w, writeAll (writeTraceRev0 est)
        (openedWriter true text [] [] bh m (orderOfMarker bh.endianness) bps) us = .ok w ∧ w.file.data = data)
      (by simpa using ht) (by simp) hbh hmap (.inl (by rw [hexts]; rfl)) v1 (.inl v2) v3 hbps hbin hint s2 h1
      (fun t ht' => ⟨(h2 t ht').1, hlk t (h2 t ht').2.1, (h2 t ht').2.2⟩)
      (fun o ho t hb' => by rw [samples_same hb'.1 (h2 o ho).2.2]; exact (h2 o ho).2.1)
      (fun t xs h hx => hx.trans h) hlk
      (fun us ds hu hc => by
        obtain ⟨w, q1, q2⟩ := pieces_again0 ht hbh hmap hexplicit hbps hu hc
        exact ⟨w, q1, by rw [q2, hbin]; simp⟩)
  simp only [List.flatten_nil, List.append_nil] at k1 k6
  refine ⟨r, ts, k1, k5, k7, fun xss hx => ?_⟩
  obtain ⟨pss, p1, ⟨w, w1, w2⟩, r', vs, g1, g2, g3, g4, g5⟩ := k6 xss hx
  exact ⟨pss, p1, ⟨text, _, w, k2, by rw [k3, hvis]; exact hopen, w1, w2.symm⟩, r', vs, g1, by rw [g2, k2], by rw [g3, k3], g4, g5⟩

private theorem replaced12 {est : LogEst} {rev : Rev} (hr : rev ≠ .r0) {text bin : Bytes} {exts : List Bytes} {bh : BinHeader}
    {m : HdrMap} {b : HBlock} {bps : Nat} {cs : List Bytes} (hl : ∀ x ∈ text :: exts, x.length = 3200)
    (hn : exts.length < 65536) (hbh : HeaderOk bh) (hm : MapOk bh m b) (hrev : 1 ≤ bh.revMajor)
    (hdecl : TextsDeclared bh exts) (hext : ExtendedOk bh) (hmax : (visible bh).maxNumAddTrHeaders = 0)
    (hadd : rev = .r2 → bh.maxNumAddTrHeaders = 0)
    (hoff : (visible bh).byteOffOfFirstTr = 0 ∨
      (visible bh).byteOffOfFirstTr = ((3600 + 3200 * exts.length : Nat) : Int))
    (hstz : (visible bh).numOfTrailerStanza = 0)
    (hbps : bytesPerSample bh.formatCode = some bps) (hbin : binHeaderBytes (orderOfMarker bh.endianness) bh = bin)
    (hint : ∀ f ∈ b.fields, ∃ k, intKind f.ty = some k)
    (hcs : ∀ c ∈ cs, CopyableTrace12 est bh (orderOfMarker bh.endianness) b.fields c) :
    ∃ (r : Reader) (ts : List Trace), openReader (text ++ bin ++ exts.flatten ++ cs.flatten) none m = .ok r ∧
      r.texts = text :: exts ∧ r.bh = visible bh ∧ r.trailers = [] ∧ Visits r ts ∧ ts.length = cs.length ∧
      ∀ xss : List (List Dbl), List.Forall₂ (Replaces est bh.formatCode (orderOfMarker bh.endianness)) ts xss →
        ∃ pss : List (List Bytes), List.Forall₂ (EncodedBy est bh.formatCode (orderOfMarker bh.endianness)) xss pss ∧
        (∃ w, writeAll (rev.write est) (openedWriter false text exts [] bh m (orderOfMarker bh.endianness) bps)
            (List.zipWith resample ts xss) = .ok w ∧ w.file.data = text ++ bin ++ exts.flatten ++
              (List.zipWith resampleBytes cs pss).flatten ∧
          w.bh.numOfTrailerStanza = bh.numOfTrailerStanza) ∧
        ∃ r' vs, openReader (text ++ bin ++ exts.flatten ++
            (List.zipWith resampleBytes cs pss).flatten) none m = .ok r' ∧
          r'.texts = text :: exts ∧ r'.bh = visible bh ∧ Visits r' vs ∧
          List.Forall₂ (StoredTrace est bh.formatCode (orderOfMarker bh.endianness)) (List.zipWith resample ts xss) vs := by
  obtain ⟨ts0, h1, h2⟩ := traces_of12 hbh.format hm.safe hm.names hint hcs
  obtain ⟨q1, q2⟩ := lenKnown_of (bps_small hbps) hrev hext
  exact replaced (est := est) (ts0 := ts0) (cs := cs)
      (Good := fun t => LengthKnown bh b.fields t)
      (Writes := fun us data => ∃ w, writeAll (rev.write est)
        (openedWriter false text exts [] bh m (orderOfMarker bh.endianness) bps) us = .ok w ∧ w.file.data = data ∧
          w.bh.numOfTrailerStanza = bh.numOfTrailerStanza)
      hl hn hbh hm hdecl hmax hoff hstz hbps hbin hint q1 h1
      (fun t ht' => ⟨(h2 t ht').1, q2 _ _ (h2 t ht').2.1, (h2 t ht').2.2⟩)
      (fun o ho t hb' => length_back (h2 o ho).2.1 hb' (h2 o ho).2.2)
      (fun t xs h hx => by
        unfold LengthKnown resample at *
        simp only [hx]
        exact h)
      (fun t h => q2 _ _ h)
      (fun us ds hu hc => by
        obtain ⟨w, w1, w2, w3, -⟩ := copy_again (est := est) hr (trl := []) hl hn hbh hm hrev hadd hbps hu hc
        exact ⟨w, w1, by rw [w2, hbin], w3⟩)

/-- **C116 (part).** The same for revision 1 files, written with `OSEGYRev1`. Conditions as in C82. -/
theorem C116_rev1_partial (est : LogEst) (text bin : Bytes) (exts cs : List Bytes) (m : HdrMap) (b : HBlock)
    (bo : ByteOrder) (bh : BinHeader) (ht : ∀ x ∈ text :: exts, x.length = 3200)
    (hn : exts.length < 65536) (hl : bin.length = 400)
    (hm : decInt .le ((bin.drop 96).take 4) = 0 ∨ decInt .le ((bin.drop 96).take 4) = 0x01020304)
    (hz : ∀ i, i < 400 → ¬ BinCovered bin i → bin[i]? = some 0)
    (hf : fillBinHeader {} false bin = .ok (bo, bh)) (hfmt : bh.formatCode ∈ supportedFormats)
    (hrev : bh.revMajor = 1) (hdecl : TextsDeclared bh exts) (hext : ExtendedOk bh)
    (hmap : MapOk bh m b) (hint : ∀ f ∈ b.fields, ∃ k, intKind f.ty = some k)
    (hcs : ∀ c ∈ cs, CopyableTrace12 est bh bo b.fields c) :
    ∃ (r : Reader) (ts : List Trace),
      openReader (text ++ bin ++ exts.flatten ++ cs.flatten) none m = .ok r ∧ Visits r ts ∧
      ts.length = cs.length ∧
      ∀ xss : List (List Dbl), List.Forall₂ (Replaces est bh.formatCode bo) ts xss →
        ∃ pss : List (List Bytes), List.Forall₂ (EncodedBy est bh.formatCode bo) xss pss ∧
        WritesAgain est .r1 r m (List.zipWith resample ts xss)
          (text ++ bin ++ exts.flatten ++ (List.zipWith resampleBytes cs pss).flatten) ∧
        ∃ r' vs, openReader (text ++ bin ++ exts.flatten ++
            (List.zipWith resampleBytes cs pss).flatten) none m = .ok r' ∧
          r'.texts = r.texts ∧ r'.bh = r.bh ∧ Visits r' vs ∧
          List.Forall₂ (StoredTrace est bh.formatCode bo) (List.zipWith resample ts xss) vs := by
  obtain ⟨hbh, hvis, rfl, hbin⟩ := copy_bin_ok hl hm hz hf hfmt
  obtain ⟨bps, hbps⟩ := bps_exists hfmt
  obtain ⟨v1, v2, v3⟩ := visible_low (bh := bh) (by omega)
  have hopen := openRev1_of hmap.accepted ht (order_ok hbh) (by rw [fmt_ne hbh]; exact hfmt)
    (by rw [fmt_ne hbh]; exact hbps)
  obtain ⟨r, ts, k1, k2, k3, k4, k5, k7, k6⟩ :=
    replaced12 (est := est) (rev := .r1) (by simp) ht hn hbh hmap (by omega) hdecl hext v1 (by simp) (.inl v2) v3 hbps hbin
      hint hcs
  refine ⟨r, ts, k1, k5, k7, fun xss hx => ?_⟩
  obtain ⟨pss, p1, ⟨w, w1, w2, -⟩, r', vs, g1, g2, g3, g4, g5⟩ := k6 xss hx
  exact ⟨pss, p1, ⟨_, w, by rw [k2, k3, hvis]; exact hopen, w1, w2.symm⟩, r', vs, g1, by rw [g2, k2], by rw [g3, k3], g4, g5⟩

/-- **C116 (part).** The same for revision 2 files without additional trace headers and without trailer
stanzas, written with `OSEGYRev2`. -/
theorem C116_rev2_partial (est : LogEst) (text bin : Bytes) (exts cs : List Bytes) (m : HdrMap) (b : HBlock)
    (bo : ByteOrder) (bh : BinHeader) (ht : ∀ x ∈ text :: exts, x.length = 3200)
    (hn : exts.length < 65536) (hl : bin.length = 400)
    (hm : decInt .le ((bin.drop 96).take 4) = 0 ∨ decInt .le ((bin.drop 96).take 4) = 0x01020304)
    (hz : ∀ i, i < 400 → ¬ BinCovered bin i → bin[i]? = some 0)
    (hf : fillBinHeader {} false bin = .ok (bo, bh)) (hfmt : bh.formatCode ∈ supportedFormats)
    (hrev : 2 ≤ bh.revMajor) (hdecl : TextsDeclared bh exts) (hext : ExtendedOk bh)
    (hadd : bh.maxNumAddTrHeaders = 0) (hstz : bh.numOfTrailerStanza = 0)
    (hoff : bh.byteOffOfFirstTr = 0 ∨ bh.byteOffOfFirstTr = 3600 + 3200 * exts.length)
    (hmap : MapOk bh m b) (hint : ∀ f ∈ b.fields, ∃ k, intKind f.ty = some k)
    (hcs : ∀ c ∈ cs, CopyableTrace12 est bh bo b.fields c) :
    ∃ (r : Reader) (ts : List Trace),
      openReader (text ++ bin ++ exts.flatten ++ cs.flatten) none m = .ok r ∧ Visits r ts ∧
      ts.length = cs.length ∧
      ∀ xss : List (List Dbl), List.Forall₂ (Replaces est bh.formatCode bo) ts xss →
        ∃ pss : List (List Bytes), List.Forall₂ (EncodedBy est bh.formatCode bo) xss pss ∧
        WritesAgain est .r2 r m (List.zipWith resample ts xss)
          (text ++ bin ++ exts.flatten ++ (List.zipWith resampleBytes cs pss).flatten) ∧
        ∃ r' vs, openReader (text ++ bin ++ exts.flatten ++
            (List.zipWith resampleBytes cs pss).flatten) none m = .ok r' ∧
          r'.texts = r.texts ∧ r'.bh = r.bh ∧ Visits r' vs ∧
          List.Forall₂ (StoredTrace est bh.formatCode bo) (List.zipWith resample ts xss) vs := by
  obtain ⟨hbh, hvis, rfl, hbin⟩ := copy_bin_ok hl hm hz hf hfmt
  obtain ⟨bps, hbps⟩ := bps_exists hfmt
  have hopen := openRev2_of (trl := []) hmap.accepted ht (by simp) (order_ok hbh) (by rw [fmt_ne hbh]; exact hfmt)
    (by rw [fmt_ne hbh]; exact hbps)
  obtain ⟨r, ts, k1, k2, k3, k4, k5, k7, k6⟩ :=
    replaced12 (est := est) (rev := .r2) (by simp) ht hn hbh hmap (by omega) hdecl hext (by rw [hvis]; exact hadd) (fun _ => hadd)
      (by rw [hvis]; push_cast; exact hoff) (by rw [hvis]; exact hstz) hbps hbin hint hcs
  refine ⟨r, ts, k1, k5, k7, fun xss hx => ?_⟩
  obtain ⟨pss, p1, ⟨w, w1, w2, w3⟩, r', vs, g1, g2, g3, g4, g5⟩ := k6 xss hx
  refine ⟨pss, p1, ⟨_, w, by rw [k2, k3, k4, hvis]; exact hopen, w1, ?_⟩, r', vs, g1, by rw [g2, k2], by rw [g3, k3], g4, g5⟩
  rw [← w2]
  exact C23_undeclared_dropped w (w3.trans hstz)

/-- A revision 1 file with an extended text header and traces of different lengths. -/
example := C116_rev1_partial (.strict fun _ => 0) exText (binHeaderBytes .le exBh1) [exText] [exTr1, exTr2] exWMap exB .le
  exBh1 (by decide +kernel) (by decide) (by decide +kernel) (.inr (by decide +kernel)) (ex_covered (by decide +kernel))
  (by decide +kernel) (by decide) rfl (.inl rfl) (by unfold ExtendedOk; decide) (exMapOk _ rfl) exB_ints
  (exCopyable _ rfl rfl)

/-- New samples for a trace of two: 2.5, which the two byte integers of the file cannot hold and which comes back as 2, and
3. -/
example : Replaces (.strict fun _ => 0) 3 .le ⟨[], [d1, d2]⟩ [0x4004000000000000, d3] := by
  refine ⟨rfl, fun x hx => ?_⟩
  simp only [List.mem_cons, List.not_mem_nil, or_false] at hx
  rcases hx with rfl | rfl
  · exact ⟨_, C20_integer_partial _ 3 .i16 rfl .le _ (5 / 2) 2 (by decide +kernel) (by norm_num)
      ⟨by norm_num, by norm_num⟩ (by decide)⟩
  · exact ⟨_, C20_integer_partial _ 3 .i16 rfl .le _ 3 3 (by decide +kernel) (by norm_num)
      ⟨by norm_num, by norm_num⟩ (by decide)⟩

/-- The bytes of the first trace after that. -/
example : resampleBytes exTr1 [[2, 0], [3, 0]] = exTr1.take 240 ++ [2, 0, 3, 0] ∧
    EncodedBy (.strict fun _ => 0) 3 .le [0x4004000000000000, d3] [[2, 0], [3, 0]] :=
  ⟨rfl, _, rfl, .cons (by decide +kernel) (.cons (by decide +kernel) .nil)⟩

/-- A revision 2 file. -/
example := C116_rev2_partial (.strict fun _ => 0) exText (binHeaderBytes .le { exBh2 with numOfTrailerStanza := 0 })
  [exText, exEnd] [exTr1, exTr2] exWMap exB .le { exBh2 with numOfTrailerStanza := 0 }
  (by decide +kernel) (by decide) (by decide +kernel) (.inr (by decide +kernel))
  (ex_covered2 ⟨2, by decide +kernel, by decide⟩ (by decide +kernel))
  (by decide +kernel) (by decide) (by decide) (.inr ⟨rfl, [exText], exEnd, rfl, by decide +kernel, by decide +kernel⟩)
  (by unfold ExtendedOk; decide) rfl rfl (.inr rfl) (exMapOk _ rfl) exB_ints (exCopyable _ rfl rfl)

/-- A revision 0 file with one trace of two samples. -/
example := C116_rev0_partial (.strict fun _ => 0) exText exBin
  [List.replicate 8 0 ++ [7, 0, 0, 0] ++ List.replicate 228 0 ++ [[1, 0], [2, 0]].flatten]
  exWMap exB .le { lineNum := 5, sampPerTr := 2, formatCode := 3, endianness := 0x01020304 }
  (by decide +kernel) (by decide +kernel) (.inr (by decide +kernel)) (ex_covered (by decide +kernel))
  (by decide +kernel) (by decide) rfl rfl rfl (by decide) (exMapOk _ rfl) exB_ints
  (fun c hc => by
    have hr : ∀ n : Nat, n < 32768 → Rewrites (.strict fun _ => 0) 3 .le (encInt .le 2 n) := fun n hn =>
      C55_sample_integer _ 3 .i16 rfl .le n (i16_range hn) (by omega)
    simp only [List.mem_cons, List.not_mem_nil, or_false] at hc
    rcases hc with rfl
    refine ⟨_, _, rfl, by decide +kernel, by decide +kernel, rfl, ?_⟩
    intro p hp
    simp only [List.mem_cons, List.not_mem_nil, or_false] at hp
    rcases hp with rfl | rfl
    · exact hr 1 (by decide)
    · exact hr 2 (by decide))


/-- **C116 fails for fewer samples than the trace had.** A trace of two samples gets one new sample. It is accepted and comes
back with two: the new one and a zero nobody wrote. -/
theorem C116_fewer_samples :
    (do let r ← openReader (exText ++ binHeaderBytes .le exBh1 ++ exText ++ exTr1) none exWMap
        let (t, _) ← readTrace r
        let w ← openRev1 r.texts r.bh exWMap
        let w ← writeTraceRev1 (.strict fun _ => 0) w (resample t [d3])
        let r' ← openReader w.file.data none exWMap
        let (t', _) ← readTrace r'
        pure (decide (t.samples = [d1, d2] ∧ t'.samples = [d3, dblOfInt 0]))) = .ok true := by decide +kernel

/-- **C116 fails for more samples than the trace had.** Writing three samples in a trace that had two is undefined
behaviour: the third one is stored behind the end of the buffer. -/
theorem C116_more_samples :
    (do let r ← openReader (exText ++ binHeaderBytes .le exBh1 ++ exText ++ exTr1) none exWMap
        let (t, _) ← readTrace r
        let w ← openRev1 r.texts r.bh exWMap
        let _ ← writeTraceRev1 (.strict fun _ => 0) w (resample t [d1, d2, d3])
        pure true) = (isUb .outOfBounds : Out Bool) := by decide +kernel

/-- **C116 fails for values out of the range of the sample format.** The sample 40000 in a file of two byte integers is
accepted and comes back as -25536. -/
theorem C116_sample_too_large :
    (do let r ← openReader (exText ++ binHeaderBytes .le exBh1 ++ exText ++ exTr1) none exWMap
        let (t, _) ← readTrace r
        let w ← openRev1 r.texts r.bh exWMap
        let w ← writeTraceRev1 (.strict fun _ => 0) w (resample t [d3, dblOfInt 40000])
        let r' ← openReader w.file.data none exWMap
        let (t', _) ← readTrace r'
        pure (decide (t'.samples = [d3, dblOfInt (-25536)]))) = .ok true := by decide +kernel

end Sedaman.Props
