import Verif.Spec.Relabel
import Verif.Lemmas.Edit
import Verif.Props.SortFile

/-!
# C118: other file headers for the traces of a SEG-Y file
-/

namespace Sedaman.Props
open Sedaman Sedaman.Spec

/-- The bytes, the trace, and what is known about it. -/
private structure Held (est : LogEst) (bo : ByteOrder) (fmt : Int) (fields : List HField) (Good : Trace → Prop) (t : Trace)
    (c : Bytes) : Prop where
  chunk : Chunk est bo fmt fields t c
  good : Good t
  stor : Storable est fmt bo fields t
  surv : ∀ x ∈ t.samples, Survives est fmt bo x
  plain : PlainHeader fields t.header

private theorem same_all {est : LogEst} {bo : ByteOrder} {fmt : Int} {fields : List HField} {Good : Trace → Prop}
    {us vs : List Trace} {cs : List Bytes} (h : List.Forall₂ (Held est bo fmt fields Good) us cs)
    (hb : List.Forall₂ (TraceBack est fmt bo fields) us vs) : List.Forall₂ SameTrace us vs := by
  induction hb generalizing cs with
  | nil => exact .nil
  | cons a _ ih =>
    cases h with
    | cons x y => exact .cons (same_of_back x.plain x.surv a) (ih y)

private theorem held_of {est : LogEst} {bo : ByteOrder} {fmt : Int} {fields : List HField} {Good : Trace → Prop}
    (hint : ∀ f ∈ fields, ∃ k, intKind f.ty = some k) {os ts : List Trace} {cs : List Bytes}
    (hb : List.Forall₂ (TraceBack est fmt bo fields) os ts) (hc : List.Forall₂ (Chunk est bo fmt fields) ts cs)
    (h2 : ∀ t ∈ os, Storable est fmt bo fields t ∧ ∀ x ∈ t.samples, Survives est fmt bo x)
    (hg : ∀ o ∈ os, ∀ t, TraceBack est fmt bo fields o t → Good t) : List.Forall₂ (Held est bo fmt fields Good) ts cs := by
  induction hb generalizing cs with
  | nil => cases hc; exact .nil
  | cons a _ ih =>
    cases hc with
    | cons x y =>
      obtain ⟨s1, s2⟩ := h2 _ List.mem_cons_self
      refine .cons ⟨x, hg _ List.mem_cons_self _ a, storable_back hint s1 a s2, ?_, plain_back hint s1 a⟩
        (ih y (fun t ht => h2 t (List.mem_cons_of_mem _ ht)) fun o ho => hg o (List.mem_cons_of_mem _ ho))
      rw [samples_same a.1 s2]
      exact s2

private theorem relabelled {est : LogEst} {text bin text' bin' : Bytes} {exts exts' : List Bytes} {bh bh' : BinHeader}
    {m : HdrMap} {b : HBlock} {bps : Nat} {cs : List Bytes} {ts0 : List Trace} {Good : Trace → Prop}
    {Writes : List Trace → Bytes → Prop} (hsh : SameShape bh bh')
    (hl : ∀ x ∈ text :: exts, x.length = 3200) (hl' : ∀ x ∈ text' :: exts', x.length = 3200)
    (hn : exts.length < 65536) (hn' : exts'.length < 65536) (hbh : HeaderOk bh) (hbh' : HeaderOk bh')
    (hm : MapOk bh m b) (hm' : MapOk bh' m b)
    (hdecl : TextsDeclared bh exts) (hdecl' : TextsDeclared bh' exts')
    (hmax : (visible bh).maxNumAddTrHeaders = 0) (hmax' : (visible bh').maxNumAddTrHeaders = 0)
    (hoff : (visible bh).byteOffOfFirstTr = 0 ∨
      (visible bh).byteOffOfFirstTr = ((3600 + 3200 * exts.length : Nat) : Int))
    (hoff' : (visible bh').byteOffOfFirstTr = 0 ∨
      (visible bh').byteOffOfFirstTr = ((3600 + 3200 * exts'.length : Nat) : Int))
    (hstz : (visible bh).numOfTrailerStanza = 0) (hstz' : (visible bh').numOfTrailerStanza = 0)
    (hbps : bytesPerSample bh.formatCode = some bps) (hbin : binHeaderBytes (orderOfMarker bh.endianness) bh = bin)
    (hbin' : binHeaderBytes (orderOfMarker bh'.endianness) bh' = bin')
    (hint : ∀ f ∈ b.fields, ∃ k, intKind f.ty = some k)
    (hs : 0 ≤ samplesPerTrace bh * bps ∧ samplesPerTrace bh * bps < 2 ^ 31)
    (hs' : 0 ≤ samplesPerTrace bh' * bps ∧ samplesPerTrace bh' * bps < 2 ^ 31)
    (h1 : List.Forall₂ (Chunk est (orderOfMarker bh.endianness) bh.formatCode b.fields) ts0 cs)
    (h2 : ∀ t ∈ ts0, Storable est bh.formatCode (orderOfMarker bh.endianness) b.fields t ∧ LenKnown bh bps b.fields t ∧
        ∀ x ∈ t.samples, Survives est bh.formatCode (orderOfMarker bh.endianness) x)
    (hgood : ∀ o ∈ ts0, ∀ t, TraceBack est bh.formatCode (orderOfMarker bh.endianness) b.fields o t → Good t)
    (hlen : ∀ t, Good t → LenKnown bh' bps b.fields t)
    (hw : ∀ us ds, (∀ t ∈ us, Storable est bh'.formatCode (orderOfMarker bh'.endianness) b.fields t ∧ Good t) →
      List.Forall₂ (Chunk est (orderOfMarker bh'.endianness) bh'.formatCode b.fields) us ds →
      Writes us (text' ++ bin' ++ exts'.flatten ++ ds.flatten)) :
    ∃ (r : Reader) (ts : List Trace), openReader (text ++ bin ++ exts.flatten ++ cs.flatten) none m = .ok r ∧
      Visits r ts ∧ ts.length = cs.length ∧ Writes ts (text' ++ bin' ++ exts'.flatten ++ cs.flatten) ∧
        ∃ r' vs, openReader (text' ++ bin' ++ exts'.flatten ++ cs.flatten) none m = .ok r' ∧
          r'.texts = text' :: exts' ∧ r'.bh = visible bh' ∧ Visits r' vs ∧ List.Forall₂ SameTrace ts vs := by
  have hhead : (text ++ bin ++ exts.flatten).length = 3600 + 3200 * exts.length := by
    rw [← hbin, List.length_append, List.length_append, hl text List.mem_cons_self, binHeaderBytes_length,
      flatten_length_const 3200 fun x hx => hl x (List.mem_cons_of_mem _ hx)]
  have hhead' : (text' ++ bin' ++ exts'.flatten).length = 3600 + 3200 * exts'.length := by
    rw [← hbin', List.length_append, List.length_append, hl' text' List.mem_cons_self, binHeaderBytes_length,
      flatten_length_const 3200 fun x hx => hl' x (List.mem_cons_of_mem _ hx)]
  obtain ⟨r, ts, ho, -, -, -, hback, hist⟩ := pieces_read hl hn hbh hm hdecl hmax hoff hstz hbps hs
    (fun t ht => ⟨(h2 t ht).1, (h2 t ht).2.1⟩) h1
  have b2 := chunks_back hint (fun t ht f hf => ((h2 t ht).1.ints f hf).imp fun _ h => h.1) hback
    (fun t ht => (h2 t ht).2.2) h1
  have hheld := held_of hint hback b2 (fun t ht => ⟨(h2 t ht).1, (h2 t ht).2.2⟩) hgood
  have ho' := ho cs
  rw [hbin] at ho'
  simp only [← List.append_assoc] at ho'
  have hbps' : bytesPerSample bh'.formatCode = some bps := by rw [hsh.format]; exact hbps
  have hheld' : List.Forall₂ (Held est (orderOfMarker bh'.endianness) bh'.formatCode b.fields Good) ts cs := by
    rw [hsh.format, hsh.order]; exact hheld
  have hmem : ∀ u ∈ ts, Storable est bh'.formatCode (orderOfMarker bh'.endianness) b.fields u ∧ Good u := fun u hu => by
    obtain ⟨c, -, hc⟩ := forall₂_mem_right hheld'.flip hu
    exact ⟨hc.stor, hc.good⟩
  have hch : List.Forall₂ (Chunk est (orderOfMarker bh'.endianness) bh'.formatCode b.fields) ts cs :=
    hheld'.imp fun _ _ h => h.chunk
  obtain ⟨r2, vs, go, g1, g2, -, gback, gist⟩ := pieces_read hl' hn' hbh' hm' hdecl' hmax' hoff' hstz' hbps' hs'
    (fun t ht => ⟨(hmem t ht).1, hlen t (hmem t ht).2⟩) hch
  have go' := go cs
  rw [hbin'] at go'
  simp only [← List.append_assoc] at go'
  exact ⟨_, ts, ho', pieces_visited hhead hist ho', hist.length_eq.symm, hw _ _ hmem hch, _, vs, go', g1, g2,
    pieces_visited hhead' gist go', same_all hheld' gback⟩

/-- **C118 (part).** A revision 0 file is read to its end, and its traces are written with `OSEGYRev0` and another text
header and binary header. The new file has the bytes of these headers followed by the bytes of the traces as they were,
and reading it shows the new headers and the same traces. Conditions as in C55, also for the new headers. -/
theorem C118_rev0_partial (est : LogEst) (text bin text' bin' : Bytes) (cs : List Bytes) (m : HdrMap) (b : HBlock)
    (bo bo' : ByteOrder) (bh bh' : BinHeader) (ht : text.length = 3200) (hl : bin.length = 400)
    (hm : decInt .le ((bin.drop 96).take 4) = 0 ∨ decInt .le ((bin.drop 96).take 4) = 0x01020304)
    (hz : ∀ i, i < 400 → ¬ BinCovered bin i → bin[i]? = some 0)
    (hf : fillBinHeader {} false bin = .ok (bo, bh)) (hfmt : bh.formatCode ∈ supportedFormats)
    (hrev : bh.revMajor = 0) (hexts : bh.extTextHeadersNum = 0) (hext : bh.extSampPerTr = 0)
    (hmap : MapOk bh m b) (hint : ∀ f ∈ b.fields, ∃ k, intKind f.ty = some k)
    (hcs : ∀ c ∈ cs, CopyableTrace est bh.formatCode bo b.fields (bh.sampPerTr % 65536).toNat c)
    (hsh : SameShape bh bh') (ht' : text'.length = 3200) (hl' : bin'.length = 400)
    (hm' : decInt .le ((bin'.drop 96).take 4) = 0 ∨ decInt .le ((bin'.drop 96).take 4) = 0x01020304)
    (hz' : ∀ i, i < 400 → ¬ BinCovered bin' i → bin'[i]? = some 0)
    (hf' : fillBinHeader {} false bin' = .ok (bo', bh'))
    (hrev' : bh'.revMajor = 0) (hexts' : bh'.extTextHeadersNum = 0) (hext' : bh'.extSampPerTr = 0)
    (hexplicit' : bh' ≠ { formatCode := 1 }) (hmap' : MapOk bh' m b) :
    ∃ (r : Reader) (ts : List Trace), openReader (text ++ bin ++ cs.flatten) none m = .ok r ∧ Visits r ts ∧
      ts.length = cs.length ∧
      (∃ w0 w, openRev0 text' bh' m = .ok w0 ∧ writeAll (writeTraceRev0 est) w0 ts = .ok w ∧
        w.file.data = text' ++ bin' ++ cs.flatten) ∧
      ∃ r' vs, openReader (text' ++ bin' ++ cs.flatten) none m = .ok r' ∧ r'.texts = [text'] ∧ r'.bh = bh' ∧
        Visits r' vs ∧ List.Forall₂ SameTrace ts vs := by
  obtain ⟨hbh, hvis, rfl, hbin⟩ := copy_bin_ok hl hm hz hf hfmt
  obtain ⟨hbh', hvis', rfl, hbin'⟩ := copy_bin_ok hl' hm' hz' hf' (by rw [hsh.format]; exact hfmt)
  obtain ⟨bps, hbps⟩ := bps_exists hfmt
  have hbps' : bytesPerSample bh'.formatCode = some bps := by rw [hsh.format]; exact hbps
  have hb := bps_small hbps
  obtain ⟨v1, v2, v3⟩ := visible_low (bh := bh) (by omega)
  obtain ⟨v1', v2', v3'⟩ := visible_low (bh := bh') (by omega)
  obtain ⟨s1, s2⟩ := spt_fixed (bh := bh) hb (.inl hext)
  obtain ⟨s1', s2'⟩ := spt_fixed (bh := bh') hb (.inl hext')
  have hn : (((bh.sampPerTr % 65536).toNat : Nat) : Int) = bh.sampPerTr % 65536 := by omega
  have hopen := openRev0_of hmap'.accepted ht' (order_ok hbh') (by rw [fmt_ne hbh', hsh.format]; exact hfmt)
    (by rw [fmt_ne hbh']; exact hbps')
  obtain ⟨ts0, h1, h2⟩ := traces_of hfmt hmap.safe hmap.names hint hcs (by omega)
  have hlk : ∀ t : Trace, t.samples.length = (bh.sampPerTr % 65536).toNat → LenKnown bh bps b.fields t := by
    intro t a2
    unfold LenKnown
    rw [if_pos (by unfold fixedLength; rw [hrev]; simp), s1, ← hn, ← a2, ← Int.natCast_mul]
    rfl
  have hlk' : ∀ t : Trace, t.samples.length = (bh.sampPerTr % 65536).toNat → LenKnown bh' bps b.fields t := by
    intro t a2
    unfold LenKnown
    rw [if_pos (by unfold fixedLength; rw [hrev']; simp), s1', hsh.samples, ← hn, ← a2, ← Int.natCast_mul]
    rfl
  obtain ⟨r, ts, k1, k2, k3, ⟨w, w1, w2⟩, r', vs, g1, g2, g3, g4, g5⟩ :=
    relabelled (est := est) (exts := []) (exts' := []) (ts0 := ts0) (cs := cs)
      (Good := fun t => t.samples.length = (bh.sampPerTr % 65536).toNat)
      (Writes := fun us data => ∃ w, writeAll (writeTraceRev0 est)
        (openedWriter true text' [] [] bh' m (orderOfMarker bh'.endianness) bps) us = .ok w ∧ w.file.data = data)
      hsh (by simpa using ht) (by simpa using ht') (by simp) (by simp) hbh hbh' hmap hmap' (.inl (by rw [hexts]; rfl))
      (.inl (by rw [hexts']; rfl)) v1 v1' (.inl v2) (.inl v2') v3 v3' hbps hbin hbin' hint s2 s2' h1
      (fun t ht' => ⟨(h2 t ht').1, hlk t (h2 t ht').2.1, (h2 t ht').2.2⟩)
      (fun o ho t hb' => by rw [samples_same hb'.1 (h2 o ho).2.2]; exact (h2 o ho).2.1) hlk'
      (fun us ds hu hc => by
        obtain ⟨w, q1, q2⟩ := pieces_again0 ht' hbh' hmap' hexplicit' hbps'
          (fun t ht => by rw [hsh.samples]; exact hu t ht) hc
        exact ⟨w, q1, by rw [q2, hbin']; simp⟩)
  simp only [List.flatten_nil, List.append_nil] at k1 w2 g1
  exact ⟨r, ts, k1, k2, k3, ⟨_, w, hopen, w1, w2⟩, r', vs, g1, g2, by rw [g3, hvis'], g4, g5⟩

private theorem relabelled12 {est : LogEst} {rev : Rev} (hr : rev ≠ .r0) {text bin text' bin' : Bytes}
    {exts exts' : List Bytes} {bh bh' : BinHeader} {m : HdrMap} {b : HBlock} {bps : Nat} {cs : List Bytes}
    (hsh : SameShape bh bh')
    (hl : ∀ x ∈ text :: exts, x.length = 3200) (hl' : ∀ x ∈ text' :: exts', x.length = 3200)
    (hn : exts.length < 65536) (hn' : exts'.length < 65536) (hbh : HeaderOk bh) (hbh' : HeaderOk bh')
    (hm : MapOk bh m b) (hm' : MapOk bh' m b) (hrev : 1 ≤ bh.revMajor) (hrev' : 1 ≤ bh'.revMajor)
    (hdecl : TextsDeclared bh exts) (hdecl' : TextsDeclared bh' exts') (hext : ExtendedOk bh) (hext' : ExtendedOk bh')
    (hmax : (visible bh).maxNumAddTrHeaders = 0) (hmax' : (visible bh').maxNumAddTrHeaders = 0)
    (hadd' : rev = .r2 → bh'.maxNumAddTrHeaders = 0)
    (hoff : (visible bh).byteOffOfFirstTr = 0 ∨
      (visible bh).byteOffOfFirstTr = ((3600 + 3200 * exts.length : Nat) : Int))
    (hoff' : (visible bh').byteOffOfFirstTr = 0 ∨
      (visible bh').byteOffOfFirstTr = ((3600 + 3200 * exts'.length : Nat) : Int))
    (hstz : (visible bh).numOfTrailerStanza = 0) (hstz' : (visible bh').numOfTrailerStanza = 0)
    (hbps : bytesPerSample bh.formatCode = some bps) (hbin : binHeaderBytes (orderOfMarker bh.endianness) bh = bin)
    (hbin' : binHeaderBytes (orderOfMarker bh'.endianness) bh' = bin')
    (hint : ∀ f ∈ b.fields, ∃ k, intKind f.ty = some k)
    (hcs : ∀ c ∈ cs, CopyableTrace12 est bh (orderOfMarker bh.endianness) b.fields c) :
    ∃ (r : Reader) (ts : List Trace), openReader (text ++ bin ++ exts.flatten ++ cs.flatten) none m = .ok r ∧
      Visits r ts ∧ ts.length = cs.length ∧
      (∃ w, writeAll (rev.write est) (openedWriter false text' exts' [] bh' m (orderOfMarker bh'.endianness) bps) ts = .ok w ∧
        w.file.data = text' ++ bin' ++ exts'.flatten ++ cs.flatten ∧
        w.bh.numOfTrailerStanza = bh'.numOfTrailerStanza) ∧
      ∃ r' vs, openReader (text' ++ bin' ++ exts'.flatten ++ cs.flatten) none m = .ok r' ∧
        r'.texts = text' :: exts' ∧ r'.bh = visible bh' ∧ Visits r' vs ∧ List.Forall₂ SameTrace ts vs := by
  obtain ⟨ts0, h1, h2⟩ := traces_of12 hbh.format hm.safe hm.names hint hcs
  obtain ⟨q1, q2⟩ := lenKnown_of (bps_small hbps) hrev hext
  obtain ⟨q1', q2'⟩ := lenKnown_of (bps_small hbps) hrev' hext'
  have hbps' : bytesPerSample bh'.formatCode = some bps := by rw [hsh.format]; exact hbps
  have hk : ∀ t, LengthKnown bh b.fields t → LengthKnown bh' b.fields t := fun t h => by
    unfold LengthKnown at h ⊢
    rw [hsh.fixed, hsh.samples]
    exact h
  exact relabelled (est := est) (ts0 := ts0) (cs := cs)
      (Good := fun t => LengthKnown bh' b.fields t)
      (Writes := fun us data => ∃ w, writeAll (rev.write est)
        (openedWriter false text' exts' [] bh' m (orderOfMarker bh'.endianness) bps) us = .ok w ∧ w.file.data = data ∧
          w.bh.numOfTrailerStanza = bh'.numOfTrailerStanza)
      hsh hl hl' hn hn' hbh hbh' hm hm' hdecl hdecl' hmax hmax' hoff hoff' hstz hstz' hbps hbin hbin' hint q1 q1' h1
      (fun t ht' => ⟨(h2 t ht').1, q2 _ _ (h2 t ht').2.1, (h2 t ht').2.2⟩)
      (fun o ho t hb' => hk _ (length_back (h2 o ho).2.1 hb' (h2 o ho).2.2))
      (fun t h => q2' _ _ h)
      (fun us ds hu hc => by
        obtain ⟨w, w1, w2, w3, -⟩ := copy_again (est := est) hr (trl := []) hl' hn' hbh' hm' hrev' hadd' hbps' hu hc
        exact ⟨w, w1, by rw [w2, hbin'], w3⟩)

/-- **C118 (part).** The same for revision 1 files, written with `OSEGYRev1`, with any number of extended text headers in
the old and in the new file. Conditions as in C82. -/
theorem C118_rev1_partial (est : LogEst) (text bin text' bin' : Bytes) (exts exts' cs : List Bytes) (m : HdrMap)
    (b : HBlock) (bo bo' : ByteOrder) (bh bh' : BinHeader) (ht : ∀ x ∈ text :: exts, x.length = 3200)
    (hn : exts.length < 65536) (hl : bin.length = 400)
    (hm : decInt .le ((bin.drop 96).take 4) = 0 ∨ decInt .le ((bin.drop 96).take 4) = 0x01020304)
    (hz : ∀ i, i < 400 → ¬ BinCovered bin i → bin[i]? = some 0)
    (hf : fillBinHeader {} false bin = .ok (bo, bh)) (hfmt : bh.formatCode ∈ supportedFormats)
    (hrev : bh.revMajor = 1) (hdecl : TextsDeclared bh exts) (hext : ExtendedOk bh)
    (hmap : MapOk bh m b) (hint : ∀ f ∈ b.fields, ∃ k, intKind f.ty = some k)
    (hcs : ∀ c ∈ cs, CopyableTrace12 est bh bo b.fields c)
    (hsh : SameShape bh bh') (ht' : ∀ x ∈ text' :: exts', x.length = 3200) (hn' : exts'.length < 65536)
    (hl' : bin'.length = 400)
    (hm' : decInt .le ((bin'.drop 96).take 4) = 0 ∨ decInt .le ((bin'.drop 96).take 4) = 0x01020304)
    (hz' : ∀ i, i < 400 → ¬ BinCovered bin' i → bin'[i]? = some 0)
    (hf' : fillBinHeader {} false bin' = .ok (bo', bh'))
    (hrev' : bh'.revMajor = 1) (hdecl' : TextsDeclared bh' exts') (hext' : ExtendedOk bh')
    (hmap' : MapOk bh' m b) :
    ∃ (r : Reader) (ts : List Trace),
      openReader (text ++ bin ++ exts.flatten ++ cs.flatten) none m = .ok r ∧ Visits r ts ∧ ts.length = cs.length ∧
      (∃ w0 w, openRev1 (text' :: exts') bh' m = .ok w0 ∧ writeAll (writeTraceRev1 est) w0 ts = .ok w ∧
        w.file.data = text' ++ bin' ++ exts'.flatten ++ cs.flatten) ∧
      ∃ r' vs, openReader (text' ++ bin' ++ exts'.flatten ++ cs.flatten) none m = .ok r' ∧ r'.texts = text' :: exts' ∧
        r'.bh = bh' ∧ Visits r' vs ∧ List.Forall₂ SameTrace ts vs := by
  obtain ⟨hbh, hvis, rfl, hbin⟩ := copy_bin_ok hl hm hz hf hfmt
  have hfmt' : bh'.formatCode ∈ supportedFormats := by rw [hsh.format]; exact hfmt
  obtain ⟨hbh', hvis', rfl, hbin'⟩ := copy_bin_ok hl' hm' hz' hf' hfmt'
  obtain ⟨bps, hbps⟩ := bps_exists hfmt
  have hbps' : bytesPerSample bh'.formatCode = some bps := by rw [hsh.format]; exact hbps
  obtain ⟨v1, v2, v3⟩ := visible_low (bh := bh) (by omega)
  obtain ⟨v1', v2', v3'⟩ := visible_low (bh := bh') (by omega)
  have hopen := openRev1_of hmap'.accepted ht' (order_ok hbh') (by rw [fmt_ne hbh']; exact hfmt')
    (by rw [fmt_ne hbh']; exact hbps')
  obtain ⟨r, ts, k1, k2, k3, ⟨w, w1, w2, -⟩, r', vs, g1, g2, g3, g4, g5⟩ :=
    relabelled12 (est := est) (rev := .r1) (by simp) hsh ht ht' hn hn' hbh hbh' hmap hmap' (by omega) (by omega) hdecl hdecl'
      hext hext' v1 v1' (by simp) (.inl v2) (.inl v2') v3 v3' hbps hbin hbin' hint hcs
  exact ⟨r, ts, k1, k2, k3, ⟨_, w, hopen, w1, w2⟩, r', vs, g1, g2, by rw [g3, hvis'], g4, g5⟩

/-- **C118 (part).** The same for revision 2 files without additional trace headers and without trailer stanzas, written
with `OSEGYRev2`. -/
theorem C118_rev2_partial (est : LogEst) (text bin text' bin' : Bytes) (exts exts' cs : List Bytes) (m : HdrMap)
    (b : HBlock) (bo bo' : ByteOrder) (bh bh' : BinHeader) (ht : ∀ x ∈ text :: exts, x.length = 3200)
    (hn : exts.length < 65536) (hl : bin.length = 400)
    (hm : decInt .le ((bin.drop 96).take 4) = 0 ∨ decInt .le ((bin.drop 96).take 4) = 0x01020304)
    (hz : ∀ i, i < 400 → ¬ BinCovered bin i → bin[i]? = some 0)
    (hf : fillBinHeader {} false bin = .ok (bo, bh)) (hfmt : bh.formatCode ∈ supportedFormats)
    (hrev : 2 ≤ bh.revMajor) (hdecl : TextsDeclared bh exts) (hext : ExtendedOk bh)
    (hadd : bh.maxNumAddTrHeaders = 0) (hstz : bh.numOfTrailerStanza = 0)
    (hoff : bh.byteOffOfFirstTr = 0 ∨ bh.byteOffOfFirstTr = 3600 + 3200 * exts.length)
    (hmap : MapOk bh m b) (hint : ∀ f ∈ b.fields, ∃ k, intKind f.ty = some k)
    (hcs : ∀ c ∈ cs, CopyableTrace12 est bh bo b.fields c)
    (hsh : SameShape bh bh') (ht' : ∀ x ∈ text' :: exts', x.length = 3200) (hn' : exts'.length < 65536)
    (hl' : bin'.length = 400)
    (hm' : decInt .le ((bin'.drop 96).take 4) = 0 ∨ decInt .le ((bin'.drop 96).take 4) = 0x01020304)
    (hz' : ∀ i, i < 400 → ¬ BinCovered bin' i → bin'[i]? = some 0)
    (hf' : fillBinHeader {} false bin' = .ok (bo', bh'))
    (hrev' : 2 ≤ bh'.revMajor) (hdecl' : TextsDeclared bh' exts') (hext' : ExtendedOk bh')
    (hadd' : bh'.maxNumAddTrHeaders = 0) (hstz' : bh'.numOfTrailerStanza = 0)
    (hoff' : bh'.byteOffOfFirstTr = 0 ∨ bh'.byteOffOfFirstTr = 3600 + 3200 * exts'.length)
    (hmap' : MapOk bh' m b) :
    ∃ (r : Reader) (ts : List Trace),
      openReader (text ++ bin ++ exts.flatten ++ cs.flatten) none m = .ok r ∧ Visits r ts ∧ ts.length = cs.length ∧
      (∃ w0 w, openRev2 (text' :: exts') bh' [] m = .ok w0 ∧ writeAll (writeTraceRev2 est) w0 ts = .ok w ∧
        closeRev2 w = .ok (text' ++ bin' ++ exts'.flatten ++ cs.flatten)) ∧
      ∃ r' vs, openReader (text' ++ bin' ++ exts'.flatten ++ cs.flatten) none m = .ok r' ∧ r'.texts = text' :: exts' ∧
        r'.bh = bh' ∧ Visits r' vs ∧ List.Forall₂ SameTrace ts vs := by
  obtain ⟨hbh, hvis, rfl, hbin⟩ := copy_bin_ok hl hm hz hf hfmt
  have hfmt' : bh'.formatCode ∈ supportedFormats := by rw [hsh.format]; exact hfmt
  obtain ⟨hbh', hvis', rfl, hbin'⟩ := copy_bin_ok hl' hm' hz' hf' hfmt'
  obtain ⟨bps, hbps⟩ := bps_exists hfmt
  have hbps' : bytesPerSample bh'.formatCode = some bps := by rw [hsh.format]; exact hbps
  have hopen := openRev2_of (trl := []) hmap'.accepted ht' (by simp) (order_ok hbh') (by rw [fmt_ne hbh']; exact hfmt')
    (by rw [fmt_ne hbh']; exact hbps')
  obtain ⟨r, ts, k1, k2, k3, ⟨w, w1, w2, w3⟩, r', vs, g1, g2, g3, g4, g5⟩ :=
    relabelled12 (est := est) (rev := .r2) (by simp) hsh ht ht' hn hn' hbh hbh' hmap hmap' (by omega) (by omega) hdecl hdecl'
      hext hext' (by rw [hvis]; exact hadd) (by rw [hvis']; exact hadd') (fun _ => hadd')
      (by rw [hvis]; push_cast; exact hoff) (by rw [hvis']; push_cast; exact hoff') (by rw [hvis]; exact hstz)
      (by rw [hvis']; exact hstz') hbps hbin hbin' hint hcs
  refine ⟨r, ts, k1, k2, k3, ⟨_, w, hopen, w1, ?_⟩, r', vs, g1, g2, by rw [g3, hvis'], g4, g5⟩
  rw [← w2]
  exact C23_undeclared_dropped w (w3.trans hstz')

/-- A revision 1 file with an extended text header and traces of different lengths gets another line number and a second
extended text header. -/
example := C118_rev1_partial (.strict fun _ => 0) exText (binHeaderBytes .le exBh1) (List.replicate 3200 65)
  (binHeaderBytes .le { exBh1 with lineNum := 77, extTextHeadersNum := 2 }) [exText] [exText, List.replicate 3200 66]
  [exTr1, exTr2] exWMap exB .le .le exBh1 { exBh1 with lineNum := 77, extTextHeadersNum := 2 }
  (by decide +kernel) (by decide) (by decide +kernel) (.inr (by decide +kernel)) (ex_covered (by decide +kernel))
  (by decide +kernel) (by decide) rfl (.inl rfl) (by unfold ExtendedOk; decide) (exMapOk _ rfl) exB_ints
  (exCopyable _ rfl rfl) ⟨rfl, rfl, rfl, rfl⟩
  (by decide +kernel) (by decide) (by decide +kernel) (.inr (by decide +kernel)) (ex_covered (by decide +kernel))
  (by decide +kernel) rfl (.inl rfl) (by unfold ExtendedOk; decide) (exMapOk _ rfl)

/-- The bytes of a trace of two samples. -/
def exOne : Bytes := List.replicate 8 0 ++ [7, 0, 0, 0] ++ List.replicate 228 0 ++ [[1, 0], [2, 0]].flatten

/-- A revision 0 file with one trace gets another text and another line number. -/
example := C118_rev0_partial (.strict fun _ => 0) exText exBin (List.replicate 3200 65)
  (binHeaderBytes .le { lineNum := 77, sampPerTr := 2, formatCode := 3, endianness := 0x01020304 }) [exOne]
  exWMap exB .le .le { lineNum := 5, sampPerTr := 2, formatCode := 3, endianness := 0x01020304 }
  { lineNum := 77, sampPerTr := 2, formatCode := 3, endianness := 0x01020304 }
  (by decide +kernel) (by decide +kernel) (.inr (by decide +kernel)) (ex_covered (by decide +kernel))
  (by decide +kernel) (by decide) rfl rfl rfl (exMapOk _ rfl) exB_ints
  (fun c hc => by
    have hr : ∀ n : Nat, n < 32768 → Rewrites (.strict fun _ => 0) 3 .le (encInt .le 2 n) := fun n hn =>
      C55_sample_integer _ 3 .i16 rfl .le n (i16_range hn) (by omega)
    simp only [List.mem_cons, List.not_mem_nil, or_false] at hc
    rcases hc with rfl
    refine ⟨_, _, rfl, by decide +kernel, by decide +kernel, rfl, ?_⟩
    intro p hp
    simp only [List.mem_cons, List.not_mem_nil, or_false] at hp
    rcases hp with rfl | rfl
    · exact hr 1 (by decide)
    · exact hr 2 (by decide))
  ⟨rfl, rfl, rfl, rfl⟩ (by decide +kernel) (by decide +kernel) (.inr (by decide +kernel)) (ex_covered (by decide +kernel))
  (by decide +kernel) rfl rfl rfl (by decide) (exMapOk _ rfl)

/-- A revision 2 file loses an extended text header. -/
example := C118_rev2_partial (.strict fun _ => 0) exText (binHeaderBytes .le { exBh2 with numOfTrailerStanza := 0 })
  (List.replicate 3200 65)
  (binHeaderBytes .le { exBh2 with numOfTrailerStanza := 0, lineNum := 77, byteOffOfFirstTr := 0, extTextHeadersNum := 0 })
  [exText, exEnd] [] [exTr1, exTr2] exWMap exB .le .le { exBh2 with numOfTrailerStanza := 0 }
  { exBh2 with numOfTrailerStanza := 0, lineNum := 77, byteOffOfFirstTr := 0, extTextHeadersNum := 0 }
  (by decide +kernel) (by decide) (by decide +kernel) (.inr (by decide +kernel))
  (ex_covered2 ⟨2, by decide +kernel, by decide⟩ (by decide +kernel))
  (by decide +kernel) (by decide) (by decide) (.inr ⟨rfl, [exText], exEnd, rfl, by decide +kernel, by decide +kernel⟩)
  (by unfold ExtendedOk; decide) rfl rfl (.inr rfl) (exMapOk _ rfl) exB_ints (exCopyable _ rfl rfl) ⟨rfl, rfl, rfl, rfl⟩
  (by decide +kernel) (by decide) (by decide +kernel) (.inr (by decide +kernel))
  (ex_covered2 ⟨2, by decide +kernel, by decide⟩ (by decide +kernel))
  (by decide +kernel) (by decide) (.inl rfl)
  (by unfold ExtendedOk; decide) rfl rfl (.inl rfl) (exMapOk _ rfl)

/-- **C118 fails for a larger number of samples.** A trace of two samples is written under a binary header that says three.
It is accepted and comes back with a third sample nobody wrote. -/
theorem C118_sample_number_larger :
    (do let r ← openReader (exText ++ exBin ++ exOne) none exWMap
        let (t, _) ← readTrace r
        let w ← openRev0 exText { r.bh with sampPerTr := 3 } exWMap
        let w ← writeTraceRev0 (.strict fun _ => 0) w t
        let r' ← openReader w.file.data none exWMap
        let (t', _) ← readTrace r'
        pure (decide (t.samples = [d1, d2] ∧ t'.samples = [d1, d2, dblOfInt 0]))) = .ok true := by decide +kernel

/-- **C118 fails for a smaller number of samples.** Under a header that says one, writing the trace is undefined. -/
theorem C118_sample_number_smaller :
    (do let r ← openReader (exText ++ exBin ++ exOne) none exWMap
        let (t, _) ← readTrace r
        let w ← openRev0 exText { r.bh with sampPerTr := 1 } exWMap
        let _ ← writeTraceRev0 (.strict fun _ => 0) w t
        pure true) = (isUb .outOfBounds : Out Bool) := by decide +kernel

end Sedaman.Props
