import Verif.Lemmas.Edit
import Verif.Props.SortFile

/-!
# C114: editing trace headers of a SEG-Y file
-/

namespace Sedaman.Props
open Sedaman Sedaman.Spec

/-- The bytes, the trace, and what is known about it. -/
private structure Held (est : LogEst) (bo : ByteOrder) (fmt : Int) (fields : List HField) (Good : Trace → Prop) (t : Trace)
    (c : Bytes) : Prop where
  chunk : Chunk est bo fmt fields t c
  good : Good t
  stor : Storable est fmt bo fields t
  surv : ∀ x ∈ t.samples, Survives est fmt bo x
  plain : PlainHeader fields t.header

private theorem held_edits {est : LogEst} {bo : ByteOrder} {fmt : Int} {fields : List HField} {Good : Trace → Prop}
    {Ok : Edit → Prop} (hs : SafeFields fields) (hn : (fields.map (·.name)).Nodup)
    (hint : ∀ f ∈ fields, ∃ k, intKind f.ty = some k) (hge : ∀ t e, Good t → Ok e → Good (editTrace t e)) :
    ∀ (es : List Edit) (t : Trace) (c : Bytes), (∀ e ∈ es, EditFits fields e ∧ Ok e) → Held est bo fmt fields Good t c →
      Held est bo fmt fields Good (es.foldl editTrace t) (es.foldl (editBytes bo) c)
  | [], _, _, _, h => h
  | e :: es, t, c, he, h => by
    obtain ⟨h1, h2, h3, h4, h5⟩ := h
    obtain ⟨a1, a2⟩ := he e List.mem_cons_self
    exact held_edits hs hn hint hge es _ _ (fun x hx => he x (List.mem_cons_of_mem _ hx))
      ⟨chunk_edit hs hn h1 a1, hge t e h2 a2, storable_edit hint h3 e, h4, plain_edit hn h5 a1⟩

private theorem held_all {est : LogEst} {bo : ByteOrder} {fmt : Int} {fields : List HField} {Good : Trace → Prop}
    {Ok : Edit → Prop} (hs : SafeFields fields) (hn : (fields.map (·.name)).Nodup)
    (hint : ∀ f ∈ fields, ∃ k, intKind f.ty = some k) (hge : ∀ t e, Good t → Ok e → Good (editTrace t e))
    {ts : List Trace} {cs : List Bytes} (h : List.Forall₂ (Held est bo fmt fields Good) ts cs) :
    ∀ ess : List (List Edit), ess.length = cs.length → (∀ es ∈ ess, ∀ e ∈ es, EditFits fields e ∧ Ok e) →
      List.Forall₂ (Held est bo fmt fields Good) (List.zipWith (List.foldl editTrace) ts ess)
        (List.zipWith (List.foldl (editBytes bo)) cs ess) := by
  induction h with
  | nil => intro ess _ _; exact .nil
  | cons a _ ih =>
    intro ess hl he
    cases ess with
    | nil => cases hl
    | cons es ess =>
      exact .cons (held_edits hs hn hint hge es _ _ (he es List.mem_cons_self) a)
        (ih ess (by simpa using hl) fun x hx => he x (List.mem_cons_of_mem _ hx))

private theorem same_all {est : LogEst} {bo : ByteOrder} {fmt : Int} {fields : List HField} {Good : Trace → Prop}
    {us vs : List Trace} {cs : List Bytes} (h : List.Forall₂ (Held est bo fmt fields Good) us cs)
    (hb : List.Forall₂ (TraceBack est fmt bo fields) us vs) : List.Forall₂ SameTrace us vs := by
  induction hb generalizing cs with
  | nil => exact .nil
  | cons a _ ih =>
    cases h with
    | cons x y => exact .cons (same_of_back x.plain x.surv a) (ih y)

private theorem held_of {est : LogEst} {bo : ByteOrder} {fmt : Int} {fields : List HField} {Good : Trace → Prop}
    (hint : ∀ f ∈ fields, ∃ k, intKind f.ty = some k) {os ts : List Trace} {cs : List Bytes}
    (hb : List.Forall₂ (TraceBack est fmt bo fields) os ts) (hc : List.Forall₂ (Chunk est bo fmt fields) ts cs)
    (h2 : ∀ t ∈ os, Storable est fmt bo fields t ∧ ∀ x ∈ t.samples, Survives est fmt bo x)
    (hg : ∀ o ∈ os, ∀ t, TraceBack est fmt bo fields o t → Good t) : List.Forall₂ (Held est bo fmt fields Good) ts cs := by
  induction hb generalizing cs with
  | nil => cases hc; exact .nil
  | cons a _ ih =>
    cases hc with
    | cons x y =>
      obtain ⟨s1, s2⟩ := h2 _ List.mem_cons_self
      refine .cons ⟨x, hg _ List.mem_cons_self _ a, storable_back hint s1 a s2, ?_, plain_back hint s1 a⟩
        (ih y (fun t ht => h2 t (List.mem_cons_of_mem _ ht)) fun o ho => hg o (List.mem_cons_of_mem _ ho))
      rw [samples_same a.1 s2]
      exact s2

private theorem changes {est : LogEst} {text bin : Bytes} {exts : List Bytes} {bh : BinHeader}
    {m : HdrMap} {b : HBlock} {bps : Nat} {cs : List Bytes} {ts0 : List Trace} {Good : Trace → Prop} {Ok : Edit → Prop}
    {Writes : List Trace → Bytes → Prop} (hl : ∀ x ∈ text :: exts, x.length = 3200)
    (hn : exts.length < 65536) (hbh : HeaderOk bh) (hm : MapOk bh m b)
    (hdecl : TextsDeclared bh exts) (hmax : (visible bh).maxNumAddTrHeaders = 0)
    (hoff : (visible bh).byteOffOfFirstTr = 0 ∨
      (visible bh).byteOffOfFirstTr = ((3600 + 3200 * exts.length : Nat) : Int))
    (hstz : (visible bh).numOfTrailerStanza = 0)
    (hbps : bytesPerSample bh.formatCode = some bps) (hbin : binHeaderBytes (orderOfMarker bh.endianness) bh = bin)
    (hint : ∀ f ∈ b.fields, ∃ k, intKind f.ty = some k)
    (hs : 0 ≤ samplesPerTrace bh * bps ∧ samplesPerTrace bh * bps < 2 ^ 31)
    (h1 : List.Forall₂ (Chunk est (orderOfMarker bh.endianness) bh.formatCode b.fields) ts0 cs)
    (h2 : ∀ t ∈ ts0, Storable est bh.formatCode (orderOfMarker bh.endianness) b.fields t ∧ LenKnown bh bps b.fields t ∧
        ∀ x ∈ t.samples, Survives est bh.formatCode (orderOfMarker bh.endianness) x)
    (hgood : ∀ o ∈ ts0, ∀ t, TraceBack est bh.formatCode (orderOfMarker bh.endianness) b.fields o t → Good t)
    (hge : ∀ t e, Good t → Ok e → Good (editTrace t e)) (hlen : ∀ t, Good t → LenKnown bh bps b.fields t)
    (hw : ∀ us ds, (∀ t ∈ us, Storable est bh.formatCode (orderOfMarker bh.endianness) b.fields t ∧ Good t) →
      List.Forall₂ (Chunk est (orderOfMarker bh.endianness) bh.formatCode b.fields) us ds →
      Writes us (text ++ bin ++ exts.flatten ++ ds.flatten)) :
    ∃ (r : Reader) (ts : List Trace), openReader (text ++ bin ++ exts.flatten ++ cs.flatten) none m = .ok r ∧
      r.texts = text :: exts ∧ r.bh = visible bh ∧ r.trailers = [] ∧ Visits r ts ∧ ts.length = cs.length ∧
      ∀ ess : List (List Edit), ess.length = cs.length → (∀ es ∈ ess, ∀ e ∈ es, EditFits b.fields e ∧ Ok e) →
        Writes (List.zipWith (List.foldl editTrace) ts ess) (text ++ bin ++ exts.flatten ++
          (List.zipWith (List.foldl (editBytes (orderOfMarker bh.endianness))) cs ess).flatten) ∧
        ∃ r' vs, openReader (text ++ bin ++ exts.flatten ++
            (List.zipWith (List.foldl (editBytes (orderOfMarker bh.endianness))) cs ess).flatten) none m = .ok r' ∧
          r'.texts = text :: exts ∧ r'.bh = visible bh ∧ Visits r' vs ∧
          List.Forall₂ SameTrace (List.zipWith (List.foldl editTrace) ts ess) vs := by
  have hhead : (text ++ bin ++ exts.flatten).length = 3600 + 3200 * exts.length := by
    rw [← hbin, List.length_append, List.length_append, hl text List.mem_cons_self, binHeaderBytes_length,
      flatten_length_const 3200 fun x hx => hl x (List.mem_cons_of_mem _ hx)]
  obtain ⟨r, ts, ho, t1, t2, t3, hback, hist⟩ := pieces_read hl hn hbh hm hdecl hmax hoff hstz hbps hs
    (fun t ht => ⟨(h2 t ht).1, (h2 t ht).2.1⟩) h1
  have b2 := chunks_back hint (fun t ht f hf => ((h2 t ht).1.ints f hf).imp fun _ h => h.1) hback
    (fun t ht => (h2 t ht).2.2) h1
  have hheld := held_of hint hback b2 (fun t ht => ⟨(h2 t ht).1, (h2 t ht).2.2⟩) hgood
  have ho' := ho cs
  rw [hbin] at ho'
  simp only [← List.append_assoc] at ho'
  refine ⟨_, ts, ho', t1, t2, t3, pieces_visited hhead hist ho', hist.length_eq.symm, fun ess hess he => ?_⟩
  have hall := held_all hm.safe hm.names hint hge hheld ess hess he
  have hmem : ∀ u ∈ List.zipWith (List.foldl editTrace) ts ess,
      Storable est bh.formatCode (orderOfMarker bh.endianness) b.fields u ∧ Good u := fun u hu => by
    obtain ⟨c, -, hc⟩ := forall₂_mem_right hall.flip hu
    exact ⟨hc.stor, hc.good⟩
  have hch : List.Forall₂ (Chunk est (orderOfMarker bh.endianness) bh.formatCode b.fields)
      (List.zipWith (List.foldl editTrace) ts ess)
      (List.zipWith (List.foldl (editBytes (orderOfMarker bh.endianness))) cs ess) := hall.imp fun _ _ h => h.chunk
  obtain ⟨r2, vs, go, g1, g2, g3, gback, gist⟩ := pieces_read hl hn hbh hm hdecl hmax hoff hstz hbps hs
    (fun t ht => ⟨(hmem t ht).1, hlen t (hmem t ht).2⟩) hch
  have go' := go (List.zipWith (List.foldl (editBytes (orderOfMarker bh.endianness))) cs ess)
  rw [hbin] at go'
  simp only [← List.append_assoc] at go'
  exact ⟨hw _ _ hmem hch, _, vs, go', g1, g2, pieces_visited hhead gist go', same_all hall gback⟩

/-- **C114 (part).** A revision 0 file is read to its end, values of the trace headers are changed, and everything
is written with `OSEGYRev0` and the headers the reader shows. In the new file exactly the bytes of the edited
fields are replaced, by those of the new values, and reading it gives the edited traces. Conditions as in C55; the
new values are in the range of their fields. -/
theorem C114_rev0_partial (est : LogEst) (text bin : Bytes) (cs : List Bytes) (m : HdrMap) (b : HBlock)
    (bo : ByteOrder) (bh : BinHeader) (ht : text.length = 3200) (hl : bin.length = 400)
    (hm : decInt .le ((bin.drop 96).take 4) = 0 ∨ decInt .le ((bin.drop 96).take 4) = 0x01020304)
    (hz : ∀ i, i < 400 → ¬ BinCovered bin i → bin[i]? = some 0)
    (hf : fillBinHeader {} false bin = .ok (bo, bh)) (hfmt : bh.formatCode ∈ supportedFormats)
    (hrev : bh.revMajor = 0) (hexts : bh.extTextHeadersNum = 0) (hext : bh.extSampPerTr = 0)
    (hexplicit : bh ≠ { formatCode := 1 })
    (hmap : MapOk bh m b) (hint : ∀ f ∈ b.fields, ∃ k, intKind f.ty = some k)
    (hcs : ∀ c ∈ cs, CopyableTrace est bh.formatCode bo b.fields (bh.sampPerTr % 65536).toNat c) :
    ∃ (r : Reader) (ts : List Trace), openReader (text ++ bin ++ cs.flatten) none m = .ok r ∧ Visits r ts ∧
      ts.length = cs.length ∧
      ∀ ess : List (List Edit), ess.length = cs.length → (∀ es ∈ ess, ∀ e ∈ es, EditFits b.fields e) →
        WritesAgain est .r0 r m (List.zipWith (List.foldl editTrace) ts ess)
          (text ++ bin ++ (List.zipWith (List.foldl (editBytes bo)) cs ess).flatten) ∧
        ∃ r' vs, openReader (text ++ bin ++ (List.zipWith (List.foldl (editBytes bo)) cs ess).flatten) none m = .ok r' ∧
          r'.texts = r.texts ∧ r'.bh = r.bh ∧ Visits r' vs ∧
          List.Forall₂ SameTrace (List.zipWith (List.foldl editTrace) ts ess) vs := by
  obtain ⟨hbh, hvis, rfl, hbin⟩ := copy_bin_ok hl hm hz hf hfmt
  obtain ⟨bps, hbps⟩ := bps_exists hfmt
  have hb := bps_small hbps
  obtain ⟨v1, v2, v3⟩ := visible_low (bh := bh) (by omega)
  obtain ⟨s1, s2⟩ := spt_fixed (bh := bh) hb (.inl hext)
  have hn : (((bh.sampPerTr % 65536).toNat : Nat) : Int) = bh.sampPerTr % 65536 := by omega
  have hopen := openRev0_of hmap.accepted ht (order_ok hbh) (by rw [fmt_ne hbh]; exact hfmt)
    (by rw [fmt_ne hbh]; exact hbps)
  obtain ⟨ts0, h1, h2⟩ := traces_of hfmt hmap.safe hmap.names hint hcs (by omega)
  have hlk : ∀ t : Trace, t.samples.length = (bh.sampPerTr % 65536).toNat → LenKnown bh bps b.fields t := by
    intro t a2
    unfold LenKnown
    rw [if_pos (by unfold fixedLength; rw [hrev]; simp), s1, ← hn, ← a2, ← Int.natCast_mul]
    rfl
  obtain ⟨r, ts, k1, k2, k3, k4, k5, k7, k6⟩ :=
    changes (est := est) (exts := []) (ts0 := ts0) (cs := cs)
      (Good := fun t => t.samples.length = (bh.sampPerTr % 65536).toNat) (Ok := fun _ => True)
      (Writes := fun us data => ∃ w, writeAll (writeTraceRev0 est)
        (openedWriter true text [] [] bh m (orderOfMarker bh.endianness) bps) us = .ok w ∧ w.file.data = data)
      (by simpa using ht) (by simp) hbh hmap (.inl (by rw [hexts]; rfl)) v1 (.inl v2) v3 hbps hbin hint s2 h1
      (fun t ht' => ⟨(h2 t ht').1, hlk t (h2 t ht').2.1, (h2 t ht').2.2⟩)
      (fun o ho t hb' => by rw [samples_same hb'.1 (h2 o ho).2.2]; exact (h2 o ho).2.1)
      (fun t e h _ => h) hlk
      (fun us ds hu hc => by
        obtain ⟨w, q1, q2⟩ := pieces_again0 ht hbh hmap hexplicit hbps hu hc
        exact ⟨w, q1, by rw [q2, hbin]; simp⟩)
  simp only [List.flatten_nil, List.append_nil] at k1 k6
  refine ⟨r, ts, k1, k5, k7, fun ess hess he => ?_⟩
  obtain ⟨⟨w, w1, w2⟩, r', vs, g1, g2, g3, g4, g5⟩ := k6 ess hess fun es hes e hee => ⟨he es hes e hee, trivial⟩
  exact ⟨⟨text, _, w, k2, by rw [k3, hvis]; exact hopen, w1, w2.symm⟩, r', vs, g1, by rw [g2, k2], by rw [g3, k3], g4, g5⟩

private theorem changes12 {est : LogEst} {rev : Rev} (hr : rev ≠ .r0) {text bin : Bytes} {exts : List Bytes} {bh : BinHeader}
    {m : HdrMap} {b : HBlock} {bps : Nat} {cs : List Bytes} (hl : ∀ x ∈ text :: exts, x.length = 3200)
    (hn : exts.length < 65536) (hbh : HeaderOk bh) (hm : MapOk bh m b) (hrev : 1 ≤ bh.revMajor)
    (hdecl : TextsDeclared bh exts) (hext : ExtendedOk bh) (hmax : (visible bh).maxNumAddTrHeaders = 0)
    (hadd : rev = .r2 → bh.maxNumAddTrHeaders = 0)
    (hoff : (visible bh).byteOffOfFirstTr = 0 ∨
      (visible bh).byteOffOfFirstTr = ((3600 + 3200 * exts.length : Nat) : Int))
    (hstz : (visible bh).numOfTrailerStanza = 0)
    (hbps : bytesPerSample bh.formatCode = some bps) (hbin : binHeaderBytes (orderOfMarker bh.endianness) bh = bin)
    (hint : ∀ f ∈ b.fields, ∃ k, intKind f.ty = some k)
    (hcs : ∀ c ∈ cs, CopyableTrace12 est bh (orderOfMarker bh.endianness) b.fields c) :
    ∃ (r : Reader) (ts : List Trace), openReader (text ++ bin ++ exts.flatten ++ cs.flatten) none m = .ok r ∧
      r.texts = text :: exts ∧ r.bh = visible bh ∧ r.trailers = [] ∧ Visits r ts ∧ ts.length = cs.length ∧
      ∀ ess : List (List Edit), ess.length = cs.length →
        (∀ es ∈ ess, ∀ e ∈ es, EditFits b.fields e ∧ (bh.fixedTrLength ≠ 0 ∨ e.1.name ≠ "SAMP_NUM")) →
        (∃ w, writeAll (rev.write est) (openedWriter false text exts [] bh m (orderOfMarker bh.endianness) bps)
            (List.zipWith (List.foldl editTrace) ts ess) = .ok w ∧ w.file.data = text ++ bin ++ exts.flatten ++
              (List.zipWith (List.foldl (editBytes (orderOfMarker bh.endianness))) cs ess).flatten ∧
          w.bh.numOfTrailerStanza = bh.numOfTrailerStanza) ∧
        ∃ r' vs, openReader (text ++ bin ++ exts.flatten ++
            (List.zipWith (List.foldl (editBytes (orderOfMarker bh.endianness))) cs ess).flatten) none m = .ok r' ∧
          r'.texts = text :: exts ∧ r'.bh = visible bh ∧ Visits r' vs ∧
          List.Forall₂ SameTrace (List.zipWith (List.foldl editTrace) ts ess) vs := by
  obtain ⟨ts0, h1, h2⟩ := traces_of12 hbh.format hm.safe hm.names hint hcs
  obtain ⟨q1, q2⟩ := lenKnown_of (bps_small hbps) hrev hext
  exact changes (est := est) (ts0 := ts0) (cs := cs)
      (Good := fun t => LengthKnown bh b.fields t) (Ok := fun e => bh.fixedTrLength ≠ 0 ∨ e.1.name ≠ "SAMP_NUM")
      (Writes := fun us data => ∃ w, writeAll (rev.write est)
        (openedWriter false text exts [] bh m (orderOfMarker bh.endianness) bps) us = .ok w ∧ w.file.data = data ∧
          w.bh.numOfTrailerStanza = bh.numOfTrailerStanza)
      hl hn hbh hm hdecl hmax hoff hstz hbps hbin hint q1 h1
      (fun t ht' => ⟨(h2 t ht').1, q2 _ _ (h2 t ht').2.1, (h2 t ht').2.2⟩)
      (fun o ho t hb' => length_back (h2 o ho).2.1 hb' (h2 o ho).2.2)
      (fun t e h he => by
        unfold LengthKnown at h ⊢
        split at h
        · rename_i hf
          rw [if_pos hf]
          exact h
        · rename_i hf
          rw [if_neg hf]
          refine ⟨?_, h.2⟩
          unfold editTrace
          simp only
          rw [get_set_ne (he.resolve_left hf).symm]
          exact h.1)
      (fun t h => q2 _ _ h)
      (fun us ds hu hc => by
        obtain ⟨w, w1, w2, w3, -⟩ := copy_again (est := est) hr (trl := []) hl hn hbh hm hrev hadd hbps hu hc
        exact ⟨w, w1, by rw [w2, hbin], w3⟩)

/-- **C114 (part).** The same for revision 1 files, written with `OSEGYRev1`. Conditions as in C82; in a file with
traces of different lengths the number of samples is not edited. -/
theorem C114_rev1_partial (est : LogEst) (text bin : Bytes) (exts cs : List Bytes) (m : HdrMap) (b : HBlock)
    (bo : ByteOrder) (bh : BinHeader) (ht : ∀ x ∈ text :: exts, x.length = 3200)
    (hn : exts.length < 65536) (hl : bin.length = 400)
    (hm : decInt .le ((bin.drop 96).take 4) = 0 ∨ decInt .le ((bin.drop 96).take 4) = 0x01020304)
    (hz : ∀ i, i < 400 → ¬ BinCovered bin i → bin[i]? = some 0)
    (hf : fillBinHeader {} false bin = .ok (bo, bh)) (hfmt : bh.formatCode ∈ supportedFormats)
    (hrev : bh.revMajor = 1) (hdecl : TextsDeclared bh exts) (hext : ExtendedOk bh)
    (hmap : MapOk bh m b) (hint : ∀ f ∈ b.fields, ∃ k, intKind f.ty = some k)
    (hcs : ∀ c ∈ cs, CopyableTrace12 est bh bo b.fields c) :
    ∃ (r : Reader) (ts : List Trace),
      openReader (text ++ bin ++ exts.flatten ++ cs.flatten) none m = .ok r ∧ Visits r ts ∧
      ts.length = cs.length ∧
      ∀ ess : List (List Edit), ess.length = cs.length →
        (∀ es ∈ ess, ∀ e ∈ es, EditFits b.fields e ∧ (bh.fixedTrLength ≠ 0 ∨ e.1.name ≠ "SAMP_NUM")) →
        WritesAgain est .r1 r m (List.zipWith (List.foldl editTrace) ts ess)
          (text ++ bin ++ exts.flatten ++ (List.zipWith (List.foldl (editBytes bo)) cs ess).flatten) ∧
        ∃ r' vs, openReader (text ++ bin ++ exts.flatten ++
            (List.zipWith (List.foldl (editBytes bo)) cs ess).flatten) none m = .ok r' ∧
          r'.texts = r.texts ∧ r'.bh = r.bh ∧ Visits r' vs ∧
          List.Forall₂ SameTrace (List.zipWith (List.foldl editTrace) ts ess) vs := by
  obtain ⟨hbh, hvis, rfl, hbin⟩ := copy_bin_ok hl hm hz hf hfmt
  obtain ⟨bps, hbps⟩ := bps_exists hfmt
  obtain ⟨v1, v2, v3⟩ := visible_low (bh := bh) (by omega)
  have hopen := openRev1_of hmap.accepted ht (order_ok hbh) (by rw [fmt_ne hbh]; exact hfmt)
    (by rw [fmt_ne hbh]; exact hbps)
  obtain ⟨r, ts, k1, k2, k3, k4, k5, k7, k6⟩ :=
    changes12 (est := est) (rev := .r1) (by simp) ht hn hbh hmap (by omega) hdecl hext v1 (by simp) (.inl v2) v3 hbps hbin
      hint hcs
  refine ⟨r, ts, k1, k5, k7, fun ess hess he => ?_⟩
  obtain ⟨⟨w, w1, w2, -⟩, r', vs, g1, g2, g3, g4, g5⟩ := k6 ess hess he
  exact ⟨⟨_, w, by rw [k2, k3, hvis]; exact hopen, w1, w2.symm⟩, r', vs, g1, by rw [g2, k2], by rw [g3, k3], g4, g5⟩

/-- **C114 (part).** The same for revision 2 files without additional trace headers and without trailer
stanzas, written with `OSEGYRev2`. -/
theorem C114_rev2_partial (est : LogEst) (text bin : Bytes) (exts cs : List Bytes) (m : HdrMap) (b : HBlock)
    (bo : ByteOrder) (bh : BinHeader) (ht : ∀ x ∈ text :: exts, x.length = 3200)
    (hn : exts.length < 65536) (hl : bin.length = 400)
    (hm : decInt .le ((bin.drop 96).take 4) = 0 ∨ decInt .le ((bin.drop 96).take 4) = 0x01020304)
    (hz : ∀ i, i < 400 → ¬ BinCovered bin i → bin[i]? = some 0)
    (hf : fillBinHeader {} false bin = .ok (bo, bh)) (hfmt : bh.formatCode ∈ supportedFormats)
    (hrev : 2 ≤ bh.revMajor) (hdecl : TextsDeclared bh exts) (hext : ExtendedOk bh)
    (hadd : bh.maxNumAddTrHeaders = 0) (hstz : bh.numOfTrailerStanza = 0)
    (hoff : bh.byteOffOfFirstTr = 0 ∨ bh.byteOffOfFirstTr = 3600 + 3200 * exts.length)
    (hmap : MapOk bh m b) (hint : ∀ f ∈ b.fields, ∃ k, intKind f.ty = some k)
    (hcs : ∀ c ∈ cs, CopyableTrace12 est bh bo b.fields c) :
    ∃ (r : Reader) (ts : List Trace),
      openReader (text ++ bin ++ exts.flatten ++ cs.flatten) none m = .ok r ∧ Visits r ts ∧
      ts.length = cs.length ∧
      ∀ ess : List (List Edit), ess.length = cs.length →
        (∀ es ∈ ess, ∀ e ∈ es, EditFits b.fields e ∧ (bh.fixedTrLength ≠ 0 ∨ e.1.name ≠ "SAMP_NUM")) →
        WritesAgain est .r2 r m (List.zipWith (List.foldl editTrace) ts ess)
          (text ++ bin ++ exts.flatten ++ (List.zipWith (List.foldl (editBytes bo)) cs ess).flatten) ∧
        ∃ r' vs, openReader (text ++ bin ++ exts.flatten ++
            (List.zipWith (List.foldl (editBytes bo)) cs ess).flatten) none m = .ok r' ∧
          r'.texts = r.texts ∧ r'.bh = r.bh ∧ Visits r' vs ∧
          List.Forall₂ SameTrace (List.zipWith (List.foldl editTrace) ts ess) vs := by
  obtain ⟨hbh, hvis, rfl, hbin⟩ := copy_bin_ok hl hm hz hf hfmt
  obtain ⟨bps, hbps⟩ := bps_exists hfmt
  have hopen := openRev2_of (trl := []) hmap.accepted ht (by simp) (order_ok hbh) (by rw [fmt_ne hbh]; exact hfmt)
    (by rw [fmt_ne hbh]; exact hbps)
  obtain ⟨r, ts, k1, k2, k3, k4, k5, k7, k6⟩ :=
    changes12 (est := est) (rev := .r2) (by simp) ht hn hbh hmap (by omega) hdecl hext (by rw [hvis]; exact hadd) (fun _ => hadd)
      (by rw [hvis]; push_cast; exact hoff) (by rw [hvis]; exact hstz) hbps hbin hint hcs
  refine ⟨r, ts, k1, k5, k7, fun ess hess he => ?_⟩
  obtain ⟨⟨w, w1, w2, w3⟩, r', vs, g1, g2, g3, g4, g5⟩ := k6 ess hess he
  refine ⟨⟨_, w, by rw [k2, k3, k4, hvis]; exact hopen, w1, ?_⟩, r', vs, g1, by rw [g2, k2], by rw [g3, k3], g4, g5⟩
  rw [← w2]
  exact C23_undeclared_dropped w (w3.trans hstz)

/-- A revision 1 file with an extended text header and traces of different lengths. -/
example := C114_rev1_partial (.strict fun _ => 0) exText (binHeaderBytes .le exBh1) [exText] [exTr1, exTr2] exWMap exB .le
  exBh1 (by decide +kernel) (by decide) (by decide +kernel) (.inr (by decide +kernel)) (ex_covered (by decide +kernel))
  (by decide +kernel) (by decide) rfl (.inl rfl) (by unfold ExtendedOk; decide) (exMapOk _ rfl) exB_ints
  (exCopyable _ rfl rfl)

/-- The field record number of the first trace set twice, that of the second once. The edits fit. -/
example : ∀ es ∈ [[((⟨8, "FFID", .i32⟩ : HField), (1000 : Int)), (⟨8, "FFID", .i32⟩, -5)], [(⟨8, "FFID", .i32⟩, 258)]],
    ∀ e ∈ es, EditFits exB.fields e ∧ (exBh1.fixedTrLength ≠ 0 ∨ e.1.name ≠ "SAMP_NUM") := by
  have h : ∀ v : Int, -2147483648 ≤ v → v ≤ 2147483647 → EditFits exB.fields (⟨8, "FFID", .i32⟩, v) := fun v h1 h2 =>
    ⟨List.mem_cons_self, .i32, rfl, ⟨⟨by show (-2147483648 : Int) ≤ v; omega, by show v < (2147483648 : Int); omega⟩, by simp⟩⟩
  intro es hes e he
  simp only [List.mem_cons, List.not_mem_nil, or_false] at hes
  rcases hes with rfl | rfl <;> simp only [List.mem_cons, List.not_mem_nil, or_false] at he
  · rcases he with rfl | rfl <;> exact ⟨h _ (by decide) (by decide), .inr (by decide)⟩
  · subst he
    exact ⟨h _ (by decide) (by decide), .inr (by decide)⟩

/-- The bytes after these edits: -5 and 258 in the place of the field. -/
example : List.zipWith (List.foldl (editBytes .le)) [exTr1, exTr2]
      [[((⟨8, "FFID", .i32⟩ : HField), (1000 : Int)), (⟨8, "FFID", .i32⟩, -5)], [(⟨8, "FFID", .i32⟩, 258)]] =
    [exTr1.take 8 ++ [251, 255, 255, 255] ++ exTr1.drop 12, exTr2.take 8 ++ [2, 1, 0, 0] ++ exTr2.drop 12] := by
  decide +kernel

/-- A revision 2 file. -/
example := C114_rev2_partial (.strict fun _ => 0) exText (binHeaderBytes .le { exBh2 with numOfTrailerStanza := 0 })
  [exText, exEnd] [exTr1, exTr2] exWMap exB .le { exBh2 with numOfTrailerStanza := 0 }
  (by decide +kernel) (by decide) (by decide +kernel) (.inr (by decide +kernel))
  (ex_covered2 ⟨2, by decide +kernel, by decide⟩ (by decide +kernel))
  (by decide +kernel) (by decide) (by decide) (.inr ⟨rfl, [exText], exEnd, rfl, by decide +kernel, by decide +kernel⟩)
  (by unfold ExtendedOk; decide) rfl rfl (.inr rfl) (exMapOk _ rfl) exB_ints (exCopyable _ rfl rfl)

/-- A revision 0 file with one trace of two samples. -/
example := C114_rev0_partial (.strict fun _ => 0) exText exBin
  [List.replicate 8 0 ++ [7, 0, 0, 0] ++ List.replicate 228 0 ++ [[1, 0], [2, 0]].flatten]
  exWMap exB .le { lineNum := 5, sampPerTr := 2, formatCode := 3, endianness := 0x01020304 }
  (by decide +kernel) (by decide +kernel) (.inr (by decide +kernel)) (ex_covered (by decide +kernel))
  (by decide +kernel) (by decide) rfl rfl rfl (by decide) (exMapOk _ rfl) exB_ints
  (fun c hc => by
    have hr : ∀ n : Nat, n < 32768 → Rewrites (.strict fun _ => 0) 3 .le (encInt .le 2 n) := fun n hn =>
      C55_sample_integer _ 3 .i16 rfl .le n (i16_range hn) (by omega)
    simp only [List.mem_cons, List.not_mem_nil, or_false] at hc
    rcases hc with rfl
    refine ⟨_, _, rfl, by decide +kernel, by decide +kernel, rfl, ?_⟩
    intro p hp
    simp only [List.mem_cons, List.not_mem_nil, or_false] at hp
    rcases hp with rfl | rfl
    · exact hr 1 (by decide)
    · exact hr 2 (by decide))

/-- **C114 fails for values that do not fit the field.** The number 4294967301 set in a four byte field is accepted and
comes back as 5. -/
theorem C114_value_too_large :
    (do let r ← openReader (exText ++ binHeaderBytes .le exBh1 ++ exText ++ exTr1) none exWMap
        let (t, _) ← readTrace r
        let w ← openRev1 r.texts r.bh exWMap
        let w ← writeTraceRev1 (.strict fun _ => 0) w (editTrace t (⟨8, "FFID", .i32⟩, 4294967301))
        let r' ← openReader w.file.data none exWMap
        let (t', _) ← readTrace r'
        pure (decide (t'.header.get "FFID" = some (Value.int 5)))) = .ok true := by decide +kernel

/-- **C114 fails for the number of samples of a file with traces of different lengths.** A trace has two samples. With its
number of samples set to three it is accepted, and comes back with a third sample nobody wrote. -/
theorem C114_sample_number_larger :
    (do let r ← openReader (exText ++ binHeaderBytes .le exBh1 ++ exText ++ exTr1) none exWMap
        let (t, _) ← readTrace r
        let w ← openRev1 r.texts r.bh exWMap
        let w ← writeTraceRev1 (.strict fun _ => 0) w (editTrace t (⟨114, "SAMP_NUM", .i16⟩, 3))
        let r' ← openReader w.file.data none exWMap
        let (t', _) ← readTrace r'
        pure (decide (t.samples = [d1, d2] ∧ t'.samples = [d1, d2, dblOfInt 0]))) = .ok true := by decide +kernel

/-- With the number of samples set to one, writing it is undefined behaviour: the second sample is stored behind the end of
the buffer. -/
theorem C114_sample_number_smaller :
    (do let r ← openReader (exText ++ binHeaderBytes .le exBh1 ++ exText ++ exTr1) none exWMap
        let (t, _) ← readTrace r
        let w ← openRev1 r.texts r.bh exWMap
        let _ ← writeTraceRev1 (.strict fun _ => 0) w (editTrace t (⟨114, "SAMP_NUM", .i16⟩, 1))
        pure true) = (isUb .outOfBounds : Out Bool) := by decide +kernel

end Sedaman.Props
